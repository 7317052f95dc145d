import Verif.Model.PixelStatistics
import Mathlib.Algebra.QuadraticDiscriminant
import Mathlib.Data.List.GetD
import Mathlib.Algebra.Order.BigOperators.Group.List
import Mathlib.Algebra.BigOperators.Ring.List
import Mathlib.Tactic.Linarith
import Mathlib.Tactic.Ring
import Mathlib.Tactic.FieldSimp

/-!
C158: the statistics of an image are what their names say. C159: the histogram.
-/

namespace Viqa

/-! ### Averages -/

/-- Average of a function of the pixels. -/
noncomputable def avg (xs : List ℝ) (f : ℝ → ℝ) : ℝ := pixMean (xs.map f)

theorem pixMean_avg (xs : List ℝ) : pixMean xs = avg xs (fun x => x) := by simp [avg]

theorem pixMoment_avg (k : Nat) (xs : List ℝ) : pixMoment k xs = avg xs (fun x => (x - pixMean xs) ^ k) := rfl

theorem avg_add (xs : List ℝ) (f g : ℝ → ℝ) : avg xs (fun x => f x + g x) = avg xs f + avg xs g := by
  unfold avg pixMean
  rw [List.sum_map_add]
  simp only [List.length_map]
  ring

theorem avg_mul (xs : List ℝ) (c : ℝ) (f : ℝ → ℝ) : avg xs (fun x => c * f x) = c * avg xs f := by
  unfold avg pixMean
  rw [List.sum_map_mul_left]
  simp only [List.length_map]
  ring

theorem avg_sub (xs : List ℝ) (f g : ℝ → ℝ) : avg xs (fun x => f x - g x) = avg xs f - avg xs g := by
  have := avg_add xs f (fun x => -1 * g x)
  rw [avg_mul] at this
  rw [show (fun x => f x - g x) = fun x => f x + -1 * g x by funext x; ring, this]
  ring

theorem avg_const (xs : List ℝ) (h : xs ≠ []) (c : ℝ) : avg xs (fun _ => c) = c := by
  unfold avg pixMean
  have : (xs.length : ℝ) ≠ 0 := by
    simpa using h
  simp only [List.map_const', List.sum_replicate, List.length_replicate, nsmul_eq_mul]
  field_simp

theorem avg_mono (xs : List ℝ) (f g : ℝ → ℝ) (h : ∀ x ∈ xs, f x ≤ g x) : avg xs f ≤ avg xs g := by
  unfold avg pixMean
  simp only [List.length_map]
  apply div_le_div_of_nonneg_right _ (by positivity)
  exact List.sum_le_sum h

theorem avg_nonneg (xs : List ℝ) (f : ℝ → ℝ) (h : ∀ x ∈ xs, 0 ≤ f x) : 0 ≤ avg xs f := by
  unfold avg pixMean
  apply div_nonneg _ (by positivity)
  apply List.sum_nonneg
  simpa using h

theorem avg_congr (xs : List ℝ) (f g : ℝ → ℝ) (h : ∀ x ∈ xs, f x = g x) : avg xs f = avg xs g := by
  unfold avg
  rw [List.map_congr_left h]

/-- Cauchy and Schwarz. -/
theorem avg_cauchy (xs : List ℝ) (f g : ℝ → ℝ) :
    avg xs (fun x => f x * g x) ^ 2 ≤ avg xs (fun x => f x ^ 2) * avg xs (fun x => g x ^ 2) := by
  have h : ∀ t : ℝ, 0 ≤ avg xs (fun x => g x ^ 2) * (t * t) + (2 * avg xs (fun x => f x * g x)) * t + avg xs (fun x => f x ^ 2) := by
    intro t
    have h1 := avg_nonneg xs (fun x => (t * g x + f x) ^ 2) (fun x _ => sq_nonneg _)
    have h2 : avg xs (fun x => (t * g x + f x) ^ 2) =
        avg xs (fun x => (t * t) * g x ^ 2 + ((2 * t) * (f x * g x) + f x ^ 2)) :=
      avg_congr _ _ _ (fun x _ => by ring)
    rw [h2, avg_add, avg_add, avg_mul, avg_mul] at h1
    linarith
  have := discrim_le_zero h
  unfold discrim at this
  nlinarith

theorem avg_deviation (xs : List ℝ) (h : xs ≠ []) : avg xs (fun x => x - pixMean xs) = 0 := by
  rw [avg_sub, avg_const xs h, ← pixMean_avg, sub_self]

theorem pixVar_nonneg (xs : List ℝ) : 0 ≤ pixVar xs := by
  unfold pixVar
  rw [pixMoment_avg]
  exact avg_nonneg _ _ (fun x _ => sq_nonneg _)

/-! ### Smallest and largest pixel -/

theorem foldl_min_real (xs : List ℝ) (x : ℝ) :
    xs.foldl min x ∈ x :: xs ∧ ∀ y ∈ x :: xs, xs.foldl min x ≤ y := by
  induction xs generalizing x with
  | nil => simp
  | cons a xs ih =>
    obtain ⟨h1, h2⟩ := ih (min x a)
    simp only [List.foldl_cons]
    constructor
    · rcases List.mem_cons.1 h1 with h | h
      · rw [h]
        rcases min_choice x a with h | h <;> rw [h] <;> simp
      · simp [h]
    · intro y hy
      have h3 := h2 (min x a) (by simp)
      simp only [List.mem_cons] at hy
      rcases hy with rfl | rfl | hy
      · exact h3.trans (min_le_left _ _)
      · exact h3.trans (min_le_right _ _)
      · exact h2 y (by simp [hy])

theorem foldl_max_real (xs : List ℝ) (x : ℝ) :
    xs.foldl max x ∈ x :: xs ∧ ∀ y ∈ x :: xs, y ≤ xs.foldl max x := by
  induction xs generalizing x with
  | nil => simp
  | cons a xs ih =>
    obtain ⟨h1, h2⟩ := ih (max x a)
    simp only [List.foldl_cons]
    constructor
    · rcases List.mem_cons.1 h1 with h | h
      · rw [h]
        rcases max_choice x a with h | h <;> rw [h] <;> simp
      · simp [h]
    · intro y hy
      have h3 := h2 (max x a) (by simp)
      simp only [List.mem_cons] at hy
      rcases hy with rfl | rfl | hy
      · exact (le_max_left _ _).trans h3
      · exact (le_max_right _ _).trans h3
      · exact h2 y (by simp [hy])

theorem pixMin_ok_iff (xs : List ℝ) (lo : ℝ) : pixMin xs = .ok lo ↔ lo ∈ xs ∧ ∀ y ∈ xs, lo ≤ y := by
  cases xs with
  | nil => simp [pixMin]
  | cons x xs =>
    obtain ⟨h1, h2⟩ := foldl_min_real xs x
    rw [pixMin]
    constructor
    · rintro ⟨⟩
      exact ⟨h1, h2⟩
    · rintro ⟨h3, h4⟩
      rw [le_antisymm (h2 _ h3) (h4 _ h1)]

theorem pixMax_ok_iff (xs : List ℝ) (hi : ℝ) : pixMax xs = .ok hi ↔ hi ∈ xs ∧ ∀ y ∈ xs, y ≤ hi := by
  cases xs with
  | nil => simp [pixMax]
  | cons x xs =>
    obtain ⟨h1, h2⟩ := foldl_max_real xs x
    rw [pixMax]
    constructor
    · rintro ⟨⟩
      exact ⟨h1, h2⟩
    · rintro ⟨h3, h4⟩
      rw [le_antisymm (h4 _ h1) (h2 _ h3)]

/-! ### The median -/

theorem pixSorted_perm (xs : List ℝ) : (pixSorted xs).Perm xs := List.perm_insertionSort _ _

theorem pixSorted_length (xs : List ℝ) : (pixSorted xs).length = xs.length := (pixSorted_perm xs).length_eq

theorem pixSorted_sorted (xs : List ℝ) : (pixSorted xs).Pairwise (· ≤ ·) := List.pairwise_insertionSort _ _

theorem pixSorted_getD_mem (xs : List ℝ) (k : Nat) (hk : k < xs.length) : (pixSorted xs).getD k 0 ∈ xs := by
  rw [List.getD_eq_getElem _ _ (by rw [pixSorted_length]; exact hk)]
  exact (pixSorted_perm xs).mem_iff.1 (List.getElem_mem _)

open Classical in
theorem pixSorted_count_le (xs : List ℝ) (k : Nat) (hk : k < xs.length) (c : ℝ) (hc : (pixSorted xs).getD k 0 ≤ c) :
    k + 1 ≤ xs.countP (fun x => decide (x ≤ c)) := by
  have hl := pixSorted_length xs
  rw [← (pixSorted_perm xs).countP_eq, ← List.take_append_drop (k + 1) (pixSorted xs), List.countP_append]
  have : ((pixSorted xs).take (k + 1)).countP (fun x => decide (x ≤ c)) = k + 1 := by
    rw [List.countP_eq_length.2, List.length_take, hl, min_eq_left (by omega)]
    intro x hx
    obtain ⟨i, hi, rfl⟩ := List.mem_take_iff_getElem.1 hx
    rw [List.getD_eq_getElem _ _ (by omega)] at hc
    simp only [decide_eq_true_eq]
    refine le_trans ?_ hc
    rcases Nat.lt_or_ge i k with h | h
    · exact List.pairwise_iff_getElem.1 (pixSorted_sorted xs) i k (by omega) (by omega) h
    · have : i = k := by omega
      subst this
      exact le_rfl
  omega

open Classical in
theorem pixSorted_count_ge (xs : List ℝ) (k : Nat) (hk : k < xs.length) (c : ℝ) (hc : c ≤ (pixSorted xs).getD k 0) :
    xs.length - k ≤ xs.countP (fun x => decide (c ≤ x)) := by
  have hl := pixSorted_length xs
  rw [← (pixSorted_perm xs).countP_eq, ← List.take_append_drop k (pixSorted xs), List.countP_append]
  have : ((pixSorted xs).drop k).countP (fun x => decide (c ≤ x)) = xs.length - k := by
    rw [List.countP_eq_length.2, List.length_drop, hl]
    intro x hx
    obtain ⟨i, hi, rfl⟩ := List.mem_drop_iff_getElem.1 hx
    rw [List.getD_eq_getElem _ _ (by omega)] at hc
    simp only [decide_eq_true_eq]
    refine le_trans hc ?_
    rcases Nat.eq_zero_or_pos i with h | h
    · subst h
      simp
    · exact List.pairwise_iff_getElem.1 (pixSorted_sorted xs) k (k + i) (by omega) (by omega) (by omega)
  omega

theorem pixSorted_mono (xs : List ℝ) (i j : Nat) (hij : i ≤ j) (hj : j < xs.length) :
    (pixSorted xs).getD i 0 ≤ (pixSorted xs).getD j 0 := by
  have hl := pixSorted_length xs
  rw [List.getD_eq_getElem _ _ (by omega), List.getD_eq_getElem _ _ (by omega)]
  rcases Nat.lt_or_ge i j with h | h
  · exact List.pairwise_iff_getElem.1 (pixSorted_sorted xs) i j (by omega) (by omega) h
  · have : i = j := by omega
    subst this
    exact le_rfl

/-- The median lies between the pixels in the middle. -/
theorem pixMedian_between (xs : List ℝ) (h : xs ≠ []) :
    (pixSorted xs).getD ((xs.length - 1) / 2) 0 ≤ pixMedian xs ∧ pixMedian xs ≤ (pixSorted xs).getD (xs.length / 2) 0 := by
  have hpos : 0 < xs.length := List.length_pos_iff.2 h
  unfold pixMedian
  simp only
  split_ifs with hodd
  · have : (xs.length - 1) / 2 = xs.length / 2 := by omega
    rw [this]
    exact ⟨le_rfl, le_rfl⟩
  · have h1 : (xs.length - 1) / 2 = xs.length / 2 - 1 := by omega
    have h2 := pixSorted_mono xs (xs.length / 2 - 1) (xs.length / 2) (by omega) (by omega)
    rw [h1]
    constructor <;> linarith

open Classical in
/-- **C158.** At least half of the pixels are at most the median, and at least half are at least the median. -/
theorem C158_median (xs : List ℝ) (h : xs ≠ []) :
    xs.length ≤ 2 * xs.countP (fun x => decide (x ≤ pixMedian xs)) ∧
      xs.length ≤ 2 * xs.countP (fun x => decide (pixMedian xs ≤ x)) := by
  have hpos : 0 < xs.length := List.length_pos_iff.2 h
  obtain ⟨h1, h2⟩ := pixMedian_between xs h
  have h3 := pixSorted_count_le xs _ (by omega) _ h1
  have h4 := pixSorted_count_ge xs _ (by omega) _ h2
  omega

open Classical in
example : 4 ≤ 2 * ([3, 1, 8, 2] : List ℝ).countP (fun x => decide (x ≤ pixMedian [3, 1, 8, 2])) :=
  (C158_median [3, 1, 8, 2] (by simp)).1

/-- **C158.** Mean and median lie between the smallest and the largest pixel, which exist in the image. -/
theorem C158_bounds (xs : List ℝ) (h : xs ≠ []) :
    ∃ lo hi, pixMin xs = .ok lo ∧ pixMax xs = .ok hi ∧ lo ∈ xs ∧ hi ∈ xs ∧ (∀ x ∈ xs, lo ≤ x ∧ x ≤ hi) ∧
      lo ≤ pixMean xs ∧ pixMean xs ≤ hi ∧ lo ≤ pixMedian xs ∧ pixMedian xs ≤ hi := by
  obtain ⟨x, xs', rfl⟩ := List.exists_cons_of_ne_nil h
  obtain ⟨a1, a2⟩ := foldl_min_real xs' x
  obtain ⟨b1, b2⟩ := foldl_max_real xs' x
  have hpos : 0 < (x :: xs').length := by simp
  obtain ⟨h1, h2⟩ := pixMedian_between (x :: xs') h
  refine ⟨_, _, rfl, rfl, a1, b1, fun y hy => ⟨a2 y hy, b2 y hy⟩, ?_, ?_, ?_, ?_⟩
  · rw [pixMean_avg]
    calc _ = avg (x :: xs') (fun _ => xs'.foldl min x) := (avg_const _ h _).symm
      _ ≤ _ := avg_mono _ _ _ a2
  · rw [pixMean_avg]
    calc _ ≤ avg (x :: xs') (fun _ => xs'.foldl max x) := avg_mono _ _ _ b2
      _ = _ := avg_const _ h _
  · exact (a2 _ (pixSorted_getD_mem _ _ (by omega))).trans h1
  · exact h2.trans (b2 _ (pixSorted_getD_mem _ _ (by omega)))

example : ∃ lo hi, pixMin [3, 1, 8] = .ok lo ∧ pixMax [3, 1, 8] = .ok hi ∧ lo ≤ pixMean [3, 1, 8] ∧ pixMedian [3, 1, 8] ≤ hi := by
  obtain ⟨lo, hi, h1, h2, -, -, -, h3, -, -, h4⟩ := C158_bounds [3, 1, 8] (by simp)
  exact ⟨lo, hi, h1, h2, h3, h4⟩

/-- **C158.** The variance is not negative and the square of the standard deviation; it is zero only for constant images,
and at most the product of the distances of the mean from the smallest and the largest pixel. -/
theorem C158_variance (xs : List ℝ) (h : xs ≠ []) :
    0 ≤ pixVar xs ∧ 0 ≤ pixStd xs ∧ pixStd xs ^ 2 = pixVar xs ∧ (pixVar xs = 0 ↔ ∀ x ∈ xs, ∀ y ∈ xs, x = y) ∧
      ∀ lo hi, pixMin xs = .ok lo → pixMax xs = .ok hi → pixVar xs ≤ (hi - pixMean xs) * (pixMean xs - lo) := by
  have hv := pixVar_nonneg xs
  have hpos : (0 : ℝ) < xs.length := by exact_mod_cast List.length_pos_iff.2 h
  refine ⟨hv, Real.sqrt_nonneg _, Real.sq_sqrt hv, ⟨?_, ?_⟩, ?_⟩
  · intro h0
    have key : ∀ x ∈ xs, x = pixMean xs := by
      intro x hx
      unfold pixVar pixMoment at h0
      rw [pixMean] at h0
      simp only [List.length_map] at h0
      rw [div_eq_zero_iff] at h0
      have h1 := h0.resolve_right hpos.ne'
      have h2 := List.single_le_sum (l := xs.map (fun x => (x - pixMean xs) ^ 2)) (by
        intro y hy
        obtain ⟨z, -, rfl⟩ := List.mem_map.1 hy
        exact sq_nonneg _) _ (List.mem_map_of_mem hx)
      rw [h1] at h2
      have h3 := pow_eq_zero_iff (two_ne_zero) |>.1 (le_antisymm h2 (sq_nonneg _))
      linarith
    intro x hx y hy
    rw [key x hx, key y hy]
  · intro hc
    obtain ⟨c, xs', rfl⟩ := List.exists_cons_of_ne_nil h
    have hall : ∀ x ∈ c :: xs', x = c := fun x hx => hc x hx c (by simp)
    have hm : pixMean (c :: xs') = c := by
      rw [pixMean_avg, avg_congr _ _ (fun _ => c) hall, avg_const _ h]
    unfold pixVar
    rw [pixMoment_avg, avg_congr _ _ (fun _ => 0), avg_const _ h]
    intro x hx
    rw [hm, hall x hx]
    ring
  · intro lo hi hlo hhi
    obtain ⟨-, h1⟩ := (pixMin_ok_iff xs lo).1 hlo
    obtain ⟨-, h2⟩ := (pixMax_ok_iff xs hi).1 hhi
    have h3 := avg_nonneg xs (fun x => (hi - x) * (x - lo)) (fun x hx => mul_nonneg (by linarith [h2 x hx]) (by linarith [h1 x hx]))
    have h4 : avg xs (fun x => (hi - x) * (x - lo)) = avg xs (fun x => ((hi - pixMean xs) * (pixMean xs - lo) +
        (hi + lo - 2 * pixMean xs) * (x - pixMean xs)) - (x - pixMean xs) ^ 2) := avg_congr _ _ _ (fun x _ => by ring)
    rw [h4, avg_sub, avg_add, avg_const xs h, avg_mul, avg_deviation xs h, ← pixMoment_avg] at h3
    unfold pixVar
    linarith

example : pixVar [3, 1, 8] ≠ 0 := by
  rw [Ne, (C158_variance [3, 1, 8] (by simp)).2.2.2.1]
  intro h
  have := h 3 (by simp) 1 (by simp)
  norm_num at this

open Classical in
theorem avg_indicator (xs : List ℝ) (p : ℝ → Bool) (c : ℝ) :
    avg xs (fun x => if p x then c else 0) = c * xs.countP p / xs.length := by
  unfold avg pixMean
  rw [List.length_map]
  congr 1
  induction xs with
  | nil => simp
  | cons x xs ih =>
    rw [List.map_cons, List.sum_cons, ih, List.countP_cons]
    split_ifs <;> push_cast <;> ring

open Classical in
/-- **C158.** Mean and median differ at most by the standard deviation. -/
theorem C158_mean_median (xs : List ℝ) (h : xs ≠ []) : |pixMean xs - pixMedian xs| ≤ pixStd xs := by
  have hpos : (0 : ℝ) < xs.length := by exact_mod_cast List.length_pos_iff.2 h
  set μ := pixMean xs with hμ
  set m := pixMedian xs with hm
  have key : ∀ p : ℝ → Bool, xs.length ≤ 2 * xs.countP p → (∀ x, p x = true → (μ - m) * (μ - m) ≤ (μ - m) * (μ - x)) →
      (μ - m) ^ 2 ≤ pixVar xs := by
    intro p hp hx
    have h1 : avg xs (fun x => (if p x then 4 * (μ - m) ^ 2 else 0) - 2 * (μ - m) * (μ - x)) ≤
        avg xs (fun x => (x - μ) ^ 2 + (μ - m) ^ 2) := by
      apply avg_mono
      intro x _
      split_ifs with hpx
      · have := hx x hpx
        nlinarith [sq_nonneg ((μ - x) - (μ - m))]
      · nlinarith [sq_nonneg ((μ - x) + (μ - m))]
    have h2 : avg xs (fun x => 2 * (μ - m) * (μ - x)) = 0 := by
      rw [avg_mul, avg_congr xs (fun x => μ - x) (fun x => -1 * (x - pixMean xs)) (fun x _ => by rw [hμ]; ring), avg_mul,
        avg_deviation xs h]
      ring
    rw [avg_sub, h2, avg_indicator, avg_add, avg_const xs h, hμ, ← pixMoment_avg, ← hμ] at h1
    have h3 : 2 * (μ - m) ^ 2 ≤ 4 * (μ - m) ^ 2 * (xs.countP p) / xs.length := by
      rw [le_div_iff₀ hpos]
      have : (xs.length : ℝ) ≤ 2 * xs.countP p := by exact_mod_cast hp
      nlinarith [sq_nonneg (μ - m)]
    unfold pixVar
    linarith
  obtain ⟨h1, h2⟩ := C158_median xs h
  have hsq : (μ - m) ^ 2 ≤ pixVar xs := by
    rcases le_total m μ with hle | hle
    · apply key _ h1
      intro x hx
      simp only [decide_eq_true_eq] at hx
      exact mul_le_mul_of_nonneg_left (by linarith) (by linarith)
    · apply key _ h2
      intro x hx
      simp only [decide_eq_true_eq] at hx
      exact mul_le_mul_of_nonpos_left (by linarith) (by linarith)
  unfold pixStd
  exact Real.abs_le_sqrt hsq

example : |pixMean [3, 1, 80] - pixMedian [3, 1, 80]| ≤ pixStd [3, 1, 80] := C158_mean_median _ (by simp)

/-- **C158.** The square of the skewness is at most the kurtosis plus 2, so the kurtosis is at least -2. -/
theorem C158_kurtosis (res : ℝ) (xs : List ℝ) (h : xs ≠ []) (s k : ℝ) (hs : pixSkew res xs = .ok s)
    (hk : pixKurtosis res xs = .ok k) : s ^ 2 ≤ k + 2 := by
  unfold pixSkew at hs
  unfold pixKurtosis at hk
  split_ifs at hs hk with hz
  have hm2 : 0 < pixMoment 2 xs := lt_of_le_of_lt (sq_nonneg _) (not_le.1 hz)
  obtain ⟨⟩ := hs
  obtain ⟨⟩ := hk
  set μ := pixMean xs with hμ
  have hc := avg_cauchy xs (fun x => x - μ) (fun x => (x - μ) ^ 2 - pixMoment 2 xs)
  have e1 : avg xs (fun x => (x - μ) * ((x - μ) ^ 2 - pixMoment 2 xs)) = pixMoment 3 xs := by
    rw [avg_congr xs _ (fun x => (x - μ) ^ 3 - pixMoment 2 xs * (x - μ)) (fun x _ => by ring), avg_sub, avg_mul, hμ,
      avg_deviation xs h, ← pixMoment_avg]
    ring
  have e2 : avg xs (fun x => ((x - μ) ^ 2 - pixMoment 2 xs) ^ 2) = pixMoment 4 xs - pixMoment 2 xs ^ 2 := by
    rw [avg_congr xs _ (fun x => (x - μ) ^ 4 - 2 * pixMoment 2 xs * (x - μ) ^ 2 + pixMoment 2 xs ^ 2) (fun x _ => by ring),
      avg_add, avg_sub, avg_mul, avg_const xs h, hμ, ← pixMoment_avg, ← pixMoment_avg]
    ring
  rw [e1, e2, show avg xs (fun x => (x - μ) ^ 2) = pixMoment 2 xs from rfl] at hc
  rw [div_pow, mul_pow, Real.sq_sqrt hm2.le, div_le_iff₀ (by positivity)]
  have : (pixMoment 4 xs / pixMoment 2 xs ^ 2 - 3 + 2) * (pixMoment 2 xs ^ 2 * pixMoment 2 xs) =
      pixMoment 2 xs * (pixMoment 4 xs - pixMoment 2 xs ^ 2) := by
    field_simp
    ring
  rw [this]
  exact hc

example : ∃ s k, pixSkew 0 [0, 0, 3] = .ok s ∧ pixKurtosis 0 [0, 0, 3] = .ok k ∧ s ^ 2 ≤ k + 2 := by
  have hm : ¬ pixMoment 2 [0, 0, 3] ≤ (0 * pixMean [0, 0, 3]) ^ 2 := by
    norm_num [pixMoment, pixMean]
  have hs : pixSkew 0 [0, 0, 3] = .ok (pixMoment 3 [0, 0, 3] / (pixMoment 2 [0, 0, 3] * Real.sqrt (pixMoment 2 [0, 0, 3]))) := by
    unfold pixSkew
    rw [if_neg hm]
  have hk : pixKurtosis 0 [0, 0, 3] = .ok (pixMoment 4 [0, 0, 3] / pixMoment 2 [0, 0, 3] ^ 2 - 3) := by
    unfold pixKurtosis
    rw [if_neg hm]
  exact ⟨_, _, hs, hk, C158_kurtosis 0 _ (by simp) _ _ hs hk⟩

/-- **C158.** The statistics do not depend on the order of the pixels. -/
theorem C158_order (res : ℝ) (xs ys : List ℝ) (h : xs.Perm ys) :
    pixMean xs = pixMean ys ∧ pixMedian xs = pixMedian ys ∧ pixVar xs = pixVar ys ∧ pixStd xs = pixStd ys ∧
      pixSkew res xs = pixSkew res ys ∧ pixKurtosis res xs = pixKurtosis res ys ∧
      (∀ lo, pixMin xs = .ok lo ↔ pixMin ys = .ok lo) ∧ (∀ hi, pixMax xs = .ok hi ↔ pixMax ys = .ok hi) := by
  have hmean : ∀ {xs ys : List ℝ}, xs.Perm ys → pixMean xs = pixMean ys := by
    intro xs ys h
    unfold pixMean
    rw [h.sum_eq, h.length_eq]
  have hmom : ∀ k, pixMoment k xs = pixMoment k ys := by
    intro k
    unfold pixMoment
    rw [hmean h]
    exact hmean (h.map _)
  have hsort : pixSorted xs = pixSorted ys :=
    ((pixSorted_perm xs).trans (h.trans (pixSorted_perm ys).symm)).eq_of_pairwise
      (fun _ _ _ _ => le_antisymm) (pixSorted_sorted xs) (pixSorted_sorted ys)
  refine ⟨hmean h, ?_, hmom 2, ?_, ?_, ?_, ?_, ?_⟩
  · unfold pixMedian
    rw [hsort, h.length_eq]
  · unfold pixStd pixVar
    rw [hmom 2]
  · unfold pixSkew
    rw [hmom 2, hmom 3, hmean h]
  · unfold pixKurtosis
    rw [hmom 2, hmom 4, hmean h]
  · intro lo
    rw [pixMin_ok_iff, pixMin_ok_iff]
    simp only [h.mem_iff]
  · intro hi
    rw [pixMax_ok_iff, pixMax_ok_iff]
    simp only [h.mem_iff]

example : pixMedian [3, 1, 8] = pixMedian [8, 3, 1] :=
  (C158_order 0 [3, 1, 8] [8, 3, 1] ((List.perm_append_comm (l₁ := [3, 1]) (l₂ := [8])))).2.1

/-! ### Gain and offset -/

theorem pixMean_affine (a b : ℝ) (xs : List ℝ) (h : xs ≠ []) : pixMean (xs.map (fun x => a * x + b)) = a * pixMean xs + b := by
  have := avg_add xs (fun x => a * x) (fun _ => b)
  rw [avg_mul, avg_const xs h, ← pixMean_avg] at this
  exact this

theorem pixMoment_affine (k : Nat) (a b : ℝ) (xs : List ℝ) (h : xs ≠ []) :
    pixMoment k (xs.map (fun x => a * x + b)) = a ^ k * pixMoment k xs := by
  rw [pixMoment_avg k xs, ← avg_mul]
  unfold pixMoment avg
  rw [List.map_map, pixMean_affine a b xs h]
  congr 1
  apply List.map_congr_left
  intro x _
  simp only [Function.comp_apply]
  rw [← mul_pow]
  congr 1
  ring

theorem pixSorted_unique (xs ys : List ℝ) (h : ys.Perm xs) (hs : ys.Pairwise (· ≤ ·)) : pixSorted xs = ys :=
  ((pixSorted_perm xs).trans h.symm).eq_of_pairwise (fun _ _ _ _ => le_antisymm) (pixSorted_sorted xs) hs

theorem pixMedian_gain (a b : ℝ) (ha : 0 < a) (xs : List ℝ) (h : xs ≠ []) :
    pixMedian (xs.map (fun x => a * x + b)) = a * pixMedian xs + b := by
  have hpos : 0 < xs.length := List.length_pos_iff.2 h
  have hl := pixSorted_length xs
  have hs : pixSorted (xs.map (fun x => a * x + b)) = (pixSorted xs).map (fun x => a * x + b) := by
    apply pixSorted_unique _ _ ((pixSorted_perm xs).map _)
    rw [List.pairwise_map]
    exact (pixSorted_sorted xs).imp (fun {u v} huv => by nlinarith)
  have hg : ∀ k, k < xs.length → ((pixSorted xs).map (fun x => a * x + b)).getD k 0 = a * (pixSorted xs).getD k 0 + b := by
    intro k hk
    rw [List.getD_eq_getElem _ _ (by rw [List.length_map]; omega), List.getD_eq_getElem _ _ (by omega), List.getElem_map]
  unfold pixMedian
  simp only [hs, List.length_map]
  split_ifs with hodd
  · rw [hg _ (by omega)]
  · rw [hg _ (by omega), hg _ (by omega)]
    ring

theorem pixMedian_neg (xs : List ℝ) (h : xs ≠ []) : pixMedian (xs.map (fun x => -x)) = - pixMedian xs := by
  have hpos : 0 < xs.length := List.length_pos_iff.2 h
  have hl := pixSorted_length xs
  have hs : pixSorted (xs.map (fun x => -x)) = ((pixSorted xs).map (fun x => -x)).reverse := by
    apply pixSorted_unique _ _ ((List.reverse_perm _).trans ((pixSorted_perm xs).map _))
    rw [List.pairwise_reverse, List.pairwise_map]
    exact (pixSorted_sorted xs).imp (fun {u v} huv => by linarith)
  have hg : ∀ k, k < xs.length → (((pixSorted xs).map (fun x => -x)).reverse).getD k 0 =
      - (pixSorted xs).getD (xs.length - 1 - k) 0 := by
    intro k hk
    rw [List.getD_eq_getElem _ _ (by rw [List.length_reverse, List.length_map]; omega), List.getD_eq_getElem _ _ (by omega),
      List.getElem_reverse, List.getElem_map]
    simp only [List.length_map, hl]
  unfold pixMedian
  simp only [hs, List.length_map]
  split_ifs with hodd
  · rw [hg _ (by omega), show xs.length - 1 - xs.length / 2 = xs.length / 2 by omega]
  · rw [hg _ (by omega), hg _ (by omega), show xs.length - 1 - (xs.length / 2 - 1) = xs.length / 2 by omega,
      show xs.length - 1 - xs.length / 2 = xs.length / 2 - 1 by omega]
    ring

/-- **C158.** A gain and an offset of the gray values act on mean, median, minimum and maximum like on gray values; on the
standard deviation only the gain acts; skewness and kurtosis stay the same (if both are numbers). -/
theorem C158_gain (res a b : ℝ) (ha : 0 < a) (xs : List ℝ) (h : xs ≠ []) :
    pixMean (xs.map (fun x => a * x + b)) = a * pixMean xs + b ∧
      pixMedian (xs.map (fun x => a * x + b)) = a * pixMedian xs + b ∧
      pixVar (xs.map (fun x => a * x + b)) = a ^ 2 * pixVar xs ∧
      pixStd (xs.map (fun x => a * x + b)) = a * pixStd xs ∧
      (∀ lo, pixMin xs = .ok lo → pixMin (xs.map (fun x => a * x + b)) = .ok (a * lo + b)) ∧
      (∀ hi, pixMax xs = .ok hi → pixMax (xs.map (fun x => a * x + b)) = .ok (a * hi + b)) ∧
      (∀ s s', pixSkew res xs = .ok s → pixSkew res (xs.map (fun x => a * x + b)) = .ok s' → s' = s) ∧
      (∀ k k', pixKurtosis res xs = .ok k → pixKurtosis res (xs.map (fun x => a * x + b)) = .ok k' → k' = k) := by
  have hm := fun k => pixMoment_affine k a b xs h
  refine ⟨pixMean_affine a b xs h, pixMedian_gain a b ha xs h, hm 2, ?_, ?_, ?_, ?_, ?_⟩
  · unfold pixStd pixVar
    rw [hm 2, Real.sqrt_mul (sq_nonneg _), Real.sqrt_sq ha.le]
  · intro lo hlo
    rw [pixMin_ok_iff] at hlo ⊢
    refine ⟨List.mem_map.2 ⟨lo, hlo.1, rfl⟩, ?_⟩
    intro y hy
    obtain ⟨x, hx, rfl⟩ := List.mem_map.1 hy
    nlinarith [hlo.2 x hx]
  · intro hi hhi
    rw [pixMax_ok_iff] at hhi ⊢
    refine ⟨List.mem_map.2 ⟨hi, hhi.1, rfl⟩, ?_⟩
    intro y hy
    obtain ⟨x, hx, rfl⟩ := List.mem_map.1 hy
    nlinarith [hhi.2 x hx]
  · intro s s' hs hs'
    unfold pixSkew at hs hs'
    split_ifs at hs hs' with h1 h2
    obtain ⟨⟩ := hs
    obtain ⟨⟩ := hs'
    have hm2 : 0 < pixMoment 2 xs := lt_of_le_of_lt (sq_nonneg _) (not_le.1 h1)
    have hsq := Real.sqrt_pos.2 hm2
    rw [hm 2, hm 3, Real.sqrt_mul (sq_nonneg _), Real.sqrt_sq ha.le]
    field_simp
  · intro s s' hs hs'
    unfold pixKurtosis at hs hs'
    split_ifs at hs hs' with h1 h2
    obtain ⟨⟩ := hs
    obtain ⟨⟩ := hs'
    have hm2 : 0 < pixMoment 2 xs := lt_of_le_of_lt (sq_nonneg _) (not_le.1 h1)
    rw [hm 2, hm 4]
    field_simp

example : pixStd [2 * 3 + 7, 2 * 1 + 7, 2 * 8 + 7] = 2 * pixStd [3, 1, 8] :=
  (C158_gain 0 2 7 (by norm_num) [3, 1, 8] (by simp)).2.2.2.1

/-- **C158.** Inverting the gray values negates mean, median and skewness and exchanges minimum and maximum. -/
theorem C158_inverted (res : ℝ) (xs : List ℝ) (h : xs ≠ []) :
    pixMean (xs.map (fun x => -x)) = - pixMean xs ∧ pixMedian (xs.map (fun x => -x)) = - pixMedian xs ∧
      pixVar (xs.map (fun x => -x)) = pixVar xs ∧ pixStd (xs.map (fun x => -x)) = pixStd xs ∧
      (∀ lo, pixMin xs = .ok lo → pixMax (xs.map (fun x => -x)) = .ok (-lo)) ∧
      (∀ hi, pixMax xs = .ok hi → pixMin (xs.map (fun x => -x)) = .ok (-hi)) ∧
      (∀ s, pixSkew res xs = .ok s → pixSkew res (xs.map (fun x => -x)) = .ok (-s)) ∧
      (∀ k, pixKurtosis res xs = .ok k → pixKurtosis res (xs.map (fun x => -x)) = .ok k) := by
  have he : xs.map (fun x => -x) = xs.map (fun x => (-1) * x + 0) := by
    apply List.map_congr_left
    intro x _
    ring
  have hmean : pixMean (xs.map (fun x => -x)) = - pixMean xs := by
    rw [he, pixMean_affine _ _ xs h]
    ring
  have hm : ∀ k, pixMoment k (xs.map (fun x => -x)) = (-1) ^ k * pixMoment k xs := by
    intro k
    rw [he, pixMoment_affine k _ _ xs h]
  have h2 : pixMoment 2 (xs.map (fun x => -x)) = pixMoment 2 xs := by rw [hm]; ring
  have h3 : pixMoment 3 (xs.map (fun x => -x)) = - pixMoment 3 xs := by rw [hm]; ring
  have h4 : pixMoment 4 (xs.map (fun x => -x)) = pixMoment 4 xs := by rw [hm]; ring
  refine ⟨hmean, pixMedian_neg xs h, h2, ?_, ?_, ?_, ?_, ?_⟩
  · unfold pixStd pixVar
    rw [h2]
  · intro lo hlo
    rw [pixMin_ok_iff] at hlo
    rw [pixMax_ok_iff]
    refine ⟨List.mem_map.2 ⟨lo, hlo.1, rfl⟩, ?_⟩
    intro y hy
    obtain ⟨x, hx, rfl⟩ := List.mem_map.1 hy
    linarith [hlo.2 x hx]
  · intro hi hhi
    rw [pixMax_ok_iff] at hhi
    rw [pixMin_ok_iff]
    refine ⟨List.mem_map.2 ⟨hi, hhi.1, rfl⟩, ?_⟩
    intro y hy
    obtain ⟨x, hx, rfl⟩ := List.mem_map.1 hy
    linarith [hhi.2 x hx]
  · intro s hs
    unfold pixSkew at hs ⊢
    split_ifs at hs with h1
    obtain ⟨⟩ := hs
    rw [h2, h3, hmean, if_neg (by rwa [mul_neg, neg_sq])]
    rw [neg_div]
  · intro k hk
    unfold pixKurtosis at hk ⊢
    split_ifs at hk with h1
    obtain ⟨⟩ := hk
    rw [h2, h4, hmean, if_neg (by rwa [mul_neg, neg_sq])]

example : pixMedian [-3, -1, -8] = - pixMedian [3, 1, 8] := (C158_inverted 0 [3, 1, 8] (by simp)).2.1

/-! ### When skewness and kurtosis are numbers -/

theorem sum_map_intCast (xs : List ℤ) : (xs.map (fun x : ℤ => (x : ℝ))).sum = (xs.sum : ℤ) := by
  induction xs with
  | nil => simp
  | cons x xs ih => rw [List.map_cons, List.sum_cons, ih, List.sum_cons]; push_cast; ring

/-- The variance of integers is zero or at least one over the square of their number. -/
theorem pixVar_int (xs : List ℤ) (h : xs ≠ []) (hv : 0 < pixVar (xs.map (fun x : ℤ => (x : ℝ)))) :
    1 ≤ (xs.length : ℝ) ^ 2 * pixVar (xs.map (fun x : ℤ => (x : ℝ))) := by
  have hpos : (0 : ℝ) < xs.length := by exact_mod_cast List.length_pos_iff.2 h
  have hne : xs.map (fun x : ℤ => (x : ℝ)) ≠ [] := by simpa using h
  set ys := xs.map (fun x : ℤ => (x : ℝ)) with hys
  have hlen : (ys.length : ℝ) = xs.length := by rw [hys, List.length_map]
  have e : pixVar ys = avg ys (fun x => x ^ 2) - pixMean ys ^ 2 := by
    unfold pixVar
    rw [pixMoment_avg, avg_congr ys _ (fun x => (x ^ 2 - 2 * pixMean ys * x) + pixMean ys ^ 2) (fun x _ => by ring), avg_add,
      avg_sub, avg_mul, avg_const ys hne, ← pixMean_avg]
    ring
  have e2 : avg ys (fun x => x ^ 2) = ((xs.map (fun x => x ^ 2)).sum : ℤ) / (xs.length : ℝ) := by
    unfold avg pixMean
    rw [List.length_map, hlen, ← sum_map_intCast, List.map_map, List.map_map]
    congr 3
    funext x
    simp
  have e3 : pixMean ys = (xs.sum : ℤ) / (xs.length : ℝ) := by
    unfold pixMean
    rw [hlen, hys, sum_map_intCast]
  have e4 : (xs.length : ℝ) ^ 2 * pixVar ys = ((xs.length * (xs.map (fun x => x ^ 2)).sum - xs.sum ^ 2 : ℤ) : ℝ) := by
    rw [e, e2, e3]
    push_cast
    field_simp
  have h5 : 0 < (xs.length : ℝ) ^ 2 * pixVar ys := by positivity
  rw [e4] at h5 ⊢
  have h6 : 0 < (xs.length * (xs.map (fun x => x ^ 2)).sum - xs.sum ^ 2 : ℤ) := by exact_mod_cast h5
  exact_mod_cast h6

/-- **C158, partial.** Integer images whose pixels add to less than 10^15 have a skewness and a kurtosis unless all pixels
are equal. Missing: images of floating point numbers, see `C158_offset_refuted`. -/
theorem C158_defined_partial (xs : List ℤ) (h : xs ≠ []) (hsum : |xs.sum| < 10 ^ 15) :
    ((∃ s, pixSkew (1 / 10 ^ 15) (xs.map (fun x : ℤ => (x : ℝ))) = .ok s) ↔ ∃ x ∈ xs, ∃ y ∈ xs, x ≠ y) ∧
      ((∃ k, pixKurtosis (1 / 10 ^ 15) (xs.map (fun x : ℤ => (x : ℝ))) = .ok k) ↔ ∃ x ∈ xs, ∃ y ∈ xs, x ≠ y) := by
  have hpos : (0 : ℝ) < xs.length := by exact_mod_cast List.length_pos_iff.2 h
  have hne : xs.map (fun x : ℤ => (x : ℝ)) ≠ [] := by simpa using h
  set ys := xs.map (fun x : ℤ => (x : ℝ)) with hys
  have hconst : (∃ x ∈ xs, ∃ y ∈ xs, x ≠ y) ↔ 0 < pixVar ys := by
    have h1 := (C158_variance ys hne).2.2.2.1
    rw [lt_iff_le_and_ne, ne_comm, Ne, h1]
    constructor
    · rintro ⟨x, hx, y, hy, hxy⟩
      refine ⟨pixVar_nonneg ys, fun hall => hxy ?_⟩
      have := hall _ (List.mem_map_of_mem hx) _ (List.mem_map_of_mem hy)
      exact_mod_cast this
    · rintro ⟨-, hn⟩
      by_contra hc
      push Not at hc
      apply hn
      intro u hu v hv
      obtain ⟨x, hx, rfl⟩ := List.mem_map.1 hu
      obtain ⟨y, hy, rfl⟩ := List.mem_map.1 hv
      rw [hc x hx y hy]
  have hmean : pixMean ys = (xs.sum : ℤ) / (xs.length : ℝ) := by
    unfold pixMean
    rw [hys, sum_map_intCast, List.length_map]
  have hcond : (¬ pixMoment 2 ys ≤ (1 / 10 ^ 15 * pixMean ys) ^ 2) ↔ 0 < pixVar ys := by
    rw [not_le]
    constructor
    · intro hlt
      exact lt_of_le_of_lt (sq_nonneg _) hlt
    · intro hv
      have h1 := pixVar_int xs h hv
      rw [← hys] at h1
      have h2 : (xs.length : ℝ) ^ 2 * (1 / 10 ^ 15 * pixMean ys) ^ 2 < 1 := by
        rw [← mul_pow, hmean, show (xs.length : ℝ) * (1 / 10 ^ 15 * ((xs.sum : ℤ) / (xs.length : ℝ))) =
          (xs.sum : ℤ) / 10 ^ 15 by field_simp, sq_lt_one_iff_abs_lt_one, abs_div, abs_of_pos (by positivity : (0 : ℝ) < 10 ^ 15),
          div_lt_one (by positivity)]
        exact_mod_cast hsum
      have h3 := h2.trans_le h1
      exact lt_of_mul_lt_mul_left h3 (by positivity)
  rw [hconst, ← hcond]
  constructor
  · unfold pixSkew
    split_ifs with hz
    · exact ⟨fun ⟨s, hs⟩ => (by cases hs), fun hn => absurd hz hn⟩
    · exact ⟨fun _ => hz, fun _ => ⟨_, rfl⟩⟩
  · unfold pixKurtosis
    split_ifs with hz
    · exact ⟨fun ⟨s, hs⟩ => (by cases hs), fun hn => absurd hz hn⟩
    · exact ⟨fun _ => hz, fun _ => ⟨_, rfl⟩⟩

example : ∃ s, pixSkew (1 / 10 ^ 15) (([200, 200, 201] : List ℤ).map (fun x : ℤ => (x : ℝ))) = .ok s :=
  (C158_defined_partial [200, 200, 201] (by simp) (by norm_num)).1.2 ⟨200, by simp, 201, by simp, by norm_num⟩

/-- **C158, refuted** for floating point images (`res` is 1e-6 for float32 and 1e-3 for float16): every image loses its
skewness and kurtosis when a large enough offset is added to its gray values. -/
theorem C158_offset_refuted (res : ℝ) (hres : 0 < res) (xs : List ℝ) (h : xs ≠ []) (b : ℝ) (hb : pixStd xs ≤ res * |pixMean xs + b|) :
    pixSkew res (xs.map (fun x => x + b)) = .error .notANumber ∧ pixKurtosis res (xs.map (fun x => x + b)) = .error .notANumber := by
  have he : xs.map (fun x => x + b) = xs.map (fun x => 1 * x + b) := by simp
  have h1 : pixMoment 2 (xs.map (fun x => x + b)) ≤ (res * pixMean (xs.map (fun x => x + b))) ^ 2 := by
    rw [he, pixMoment_affine 2 _ _ xs h, pixMean_affine _ _ xs h]
    have h2 := (C158_variance xs h).2.2.1
    unfold pixVar at h2
    rw [one_pow, one_mul, one_mul, ← h2, ← sq_abs (res * _), abs_mul, abs_of_pos hres]
    exact pow_le_pow_left₀ (Real.sqrt_nonneg _) hb 2
  constructor
  · unfold pixSkew
    rw [if_pos h1]
  · unfold pixKurtosis
    rw [if_pos h1]

/-- A float32 image of the gray values 16000000 and 16000001: the standard deviation is below 16. -/
example : pixSkew (1 / 10 ^ 6) (([0, 0, 1] : List ℝ).map (fun x => x + 16000000)) = .error .notANumber := by
  apply (C158_offset_refuted (1 / 10 ^ 6) (by norm_num) [0, 0, 1] (by simp) 16000000 _).1
  unfold pixStd
  rw [Real.sqrt_le_left (by positivity)]
  norm_num [pixVar, pixMoment, pixMean, abs_of_pos]

/-! ### C159 -/

theorem histRange_lt (lo hi : ℝ) (h : lo ≤ hi) : (histRange lo hi).1 < (histRange lo hi).2 := by
  unfold histRange
  split_ifs with he
  · simp only; linarith
  · exact lt_of_le_of_ne h he

theorem histRange_mem (lo hi x : ℝ) (h1 : lo ≤ x) (h2 : x ≤ hi) : (histRange lo hi).1 ≤ x ∧ x ≤ (histRange lo hi).2 := by
  unfold histRange
  split_ifs with he
  · constructor <;> simp only <;> linarith
  · exact ⟨h1, h2⟩

/-- **C159.** A pixel belongs to the bin between whose edges it lies; a pixel at an edge belongs to the upper bin, but the
largest pixel to the last one. -/
theorem C159_bin (n : Nat) (hn : 0 < n) (lo hi x : ℝ) (h1 : lo ≤ x) (h2 : x ≤ hi) (j : Nat) :
    histBin n lo hi x = j ↔
      j < n ∧ histEdge n lo hi j ≤ x ∧ (x < histEdge n lo hi (j + 1) ∨ (j + 1 = n ∧ x = histEdge n lo hi n)) := by
  have hlt := histRange_lt lo hi (h1.trans h2)
  obtain ⟨h3, h4⟩ := histRange_mem lo hi x h1 h2
  unfold histBin histEdge
  set a := (histRange lo hi).1
  set b := (histRange lo hi).2
  have hba : 0 < b - a := by linarith
  have hn' : (0 : ℝ) < n := by exact_mod_cast hn
  set t := (x - a) / (b - a) * n with ht
  have ht0 : 0 ≤ t := by
    apply mul_nonneg (div_nonneg (by linarith) hba.le) hn'.le
  have htn : t ≤ n := by
    have : (x - a) / (b - a) ≤ 1 := by rw [div_le_one hba]; linarith
    nlinarith
  have hx : x = a + t * (b - a) / n := by
    rw [ht]; field_simp; ring
  have hle : ∀ c : ℝ, a + c * (b - a) / n ≤ x ↔ c ≤ t := by
    intro c
    rw [hx, add_le_add_iff_left, div_le_div_iff_of_pos_right hn', mul_le_mul_iff_left₀ hba]
  have hlt' : ∀ c : ℝ, x < a + c * (b - a) / n ↔ t < c := by
    intro c
    rw [← not_le, hle, not_le]
  have heq : x = a + (n : ℝ) * (b - a) / n ↔ t = n := by
    constructor
    · intro h
      have := (hle n).1 h.ge
      exact le_antisymm htn this
    · intro h
      rw [hx, h]
  simp only
  rw [hle, hlt', heq]
  have hfl : ⌊t⌋₊ ≤ n := by
    have := Nat.floor_le_floor htn
    rwa [Nat.floor_natCast] at this
  by_cases htn' : t = n
  · rw [htn', Nat.floor_natCast, if_pos rfl]
    constructor
    · rintro rfl
      refine ⟨by omega, ?_, Or.inr ⟨by omega, rfl⟩⟩
      exact_mod_cast (by omega : n - 1 ≤ n)
    · rintro ⟨h5, h6, h7 | h7⟩
      · have : n < j + 1 := by exact_mod_cast h7
        omega
      · omega
  · have hlt2 : t < n := lt_of_le_of_ne htn htn'
    have hfl2 : ⌊t⌋₊ < n := (Nat.floor_lt ht0).2 hlt2
    rw [if_neg hfl2.ne, Nat.floor_eq_iff ht0]
    constructor
    · rintro ⟨h5, h6⟩
      refine ⟨?_, h5, Or.inl (by push_cast; exact h6)⟩
      exact_mod_cast h5.trans_lt hlt2
    · rintro ⟨h5, h6, h7 | h7⟩
      · exact ⟨h6, by push_cast at h7; exact h7⟩
      · exact absurd h7.2 htn'

example : histBin 255 0 255 (254 + 1 / 2) = 254 := by
  rw [C159_bin 255 (by norm_num) 0 255 _ (by norm_num) (by norm_num)]
  norm_num [histEdge, histRange]

/-- **C159.** Every pixel is counted exactly once; there is one edge more than bins. -/
theorem C159_total (n : Nat) (hn : 0 < n) (xs : List ℝ) (h : xs ≠ []) :
    ∃ counts edges, histogram n xs = .ok (counts, edges) ∧ counts.length = n ∧ edges.length = n + 1 ∧ counts.sum = xs.length := by
  obtain ⟨lo, hi, hlo, hhi, -, -, hall, -⟩ := C158_bounds xs h
  refine ⟨(List.range n).map (fun j => xs.countP (fun x => histBin n lo hi x = j)), (List.range (n + 1)).map (histEdge n lo hi),
    ?_, by simp, by simp, ?_⟩
  · unfold histogram
    rw [hlo, hhi]
  · have hb : ∀ x ∈ xs, histBin n lo hi x < n := fun x hx => ((C159_bin n hn lo hi x (hall x hx).1 (hall x hx).2 _).1 rfl).1
    clear hall hlo hhi h
    induction xs with
    | nil => simp
    | cons x xs ih =>
      have h1 := ih (fun x hx => hb x (by simp [hx]))
      have h2 : (List.range n).map (fun j => (x :: xs).countP (fun x => decide (histBin n lo hi x = j))) =
          (List.range n).map (fun j => xs.countP (fun x => decide (histBin n lo hi x = j)) + if histBin n lo hi x = j then 1 else 0) := by
        apply List.map_congr_left
        intro j _
        rw [List.countP_cons]
        simp
      rw [h2, List.sum_map_add, h1, List.length_cons]
      congr 1
      have h3 : ∀ m k : Nat, k < m → ((List.range m).map (fun j => if k = j then 1 else 0)).sum = 1 := by
        intro m k hk
        induction m with
        | zero => omega
        | succ m ihm =>
          rw [List.range_succ, List.map_append, List.sum_append]
          rcases Nat.lt_or_ge k m with h | h
          · rw [ihm h]
            simp [h.ne]
          · have hkm : k = m := by omega
            subst hkm
            have : (List.range k).map (fun j => if k = j then 1 else 0) = (List.range k).map (fun _ => 0) := by
              apply List.map_congr_left
              intro j hj
              rw [if_neg (List.mem_range.1 hj).ne']
            rw [this]
            simp
      exact h3 n _ (hb x (by simp))

example : ∃ counts edges, histogram 255 [0, 1, 7, 7] = .ok (counts, edges) ∧ counts.length = 255 ∧ edges.length = 256 ∧
    counts.sum = 4 := C159_total 255 (by norm_num) [0, 1, 7, 7] (by simp)

/-- **C159, partial.** In an image of integer gray values whose smallest and largest one differ by less than the number of
bins, different gray values are in different bins. Missing: wider ranges, see `C159_levels_refuted`. -/
theorem C159_levels_partial (n : Nat) (lo hi x y : ℤ) (hr : hi - lo < n) (hx : lo ≤ x ∧ x ≤ hi) (hy : lo ≤ y ∧ y ≤ hi)
    (hxy : histBin n lo hi x = histBin n lo hi y) : x = y := by
  have hn : 0 < n := by omega
  by_contra hne
  wlog hlt : x < y generalizing x y
  · exact this y x hy hx hxy.symm (Ne.symm hne) (by omega)
  have hcast : ∀ {u v : ℤ}, u ≤ v → (u : ℝ) ≤ v := fun h => by exact_mod_cast h
  obtain ⟨a1, a2, a3⟩ := (C159_bin n hn lo hi x (hcast hx.1) (hcast hx.2) _).1 rfl
  obtain ⟨b1, b2, b3⟩ := (C159_bin n hn lo hi y (hcast hy.1) (hcast hy.2) _).1 rfl
  rw [← hxy] at b2 b3
  set j := histBin n lo hi x
  have hlh : lo < hi := by omega
  have hne' : (lo : ℝ) ≠ hi := by exact_mod_cast hlh.ne
  have hn' : (0 : ℝ) < n := by exact_mod_cast hn
  have hr' : (hi : ℝ) - lo < n := by exact_mod_cast hr
  have hwidth : histEdge n lo hi (j + 1) < histEdge n lo hi j + 1 := by
    unfold histEdge histRange
    rw [if_neg hne']
    push_cast
    have : ((hi : ℝ) - lo) / n < 1 := by rw [div_lt_one hn']; exact hr'
    have e : (lo : ℝ) + (j + 1) * (hi - lo) / n = lo + j * (hi - lo) / n + (hi - lo) / n := by ring
    rw [e]
    linarith
  have hxy1 : (x : ℝ) + 1 ≤ y := by exact_mod_cast hlt
  have hyle : (y : ℝ) ≤ histEdge n lo hi (j + 1) := by
    rcases b3 with h | ⟨h, h'⟩
    · exact h.le
    · rw [h', ← h]
  linarith

example : histBin 255 (0 : ℤ) (200 : ℤ) (199 : ℤ) ≠ histBin 255 (0 : ℤ) (200 : ℤ) (200 : ℤ) := by
  intro h
  have := C159_levels_partial 255 0 200 199 200 (by norm_num) (by norm_num) (by norm_num) h
  norm_num at this

/-- **C159, refuted** for wider ranges: the 255 bins of an image of floating point numbers with gray values from 0 to 255
count 254 together with 255, and in general the two largest of `n + 1` gray values share a bin. -/
theorem C159_levels_refuted (n : Nat) (hn : 0 < n) (lo : ℤ) :
    histBin n lo (lo + n : ℤ) (lo + n : ℤ) = histBin n lo (lo + n : ℤ) (lo + n - 1 : ℤ) := by
  have hn' : (0 : ℝ) < n := by exact_mod_cast hn
  have hn1 : (1 : ℝ) ≤ n := by exact_mod_cast hn
  have hne : (lo : ℝ) ≠ ((lo + n : ℤ) : ℝ) := by push_cast; linarith
  have hedge : ∀ j : Nat, histEdge n lo (lo + n : ℤ) j = lo + j := by
    intro j
    unfold histEdge histRange
    rw [if_neg hne]
    push_cast
    field_simp
    ring
  rw [(C159_bin n hn _ _ _ (by push_cast; linarith) (by push_cast; linarith) (n - 1)).2,
    (C159_bin n hn _ _ _ (by push_cast; linarith) (by push_cast; linarith) (n - 1)).2]
  · rw [hedge, hedge, hedge]
    refine ⟨by omega, ?_, Or.inl ?_⟩
    · rw [Nat.cast_sub hn]; push_cast; linarith
    · rw [Nat.sub_add_cancel hn]; push_cast; linarith
  · rw [hedge, hedge, hedge]
    refine ⟨by omega, ?_, Or.inr ⟨by omega, by push_cast; ring⟩⟩
    rw [Nat.cast_sub hn]; push_cast; linarith

example : histBin 255 0 255 255 = histBin 255 0 255 254 := by
  have := C159_levels_refuted 255 (by norm_num) 0
  norm_num at this
  exact this

end Viqa
