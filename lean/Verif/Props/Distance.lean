import Verif.Model.Distance
import Verif.Lemmas.Sums
import Verif.Lemmas.Normalize
import Mathlib.Tactic.NormNum
import Mathlib.Analysis.SpecialFunctions.Pow.Real

set_option linter.unusedSimpArgs false

/-! Properties C28 and C29: root mean square error and peak signal-to-noise ratio. -/

namespace Viqa

/-- Images with the same shape and at least one pixel. -/
def Comparable (a b : NDArray ℝ) : Prop := a.shape = b.shape ∧ a.size ≠ 0

/-- The image with every pixel `p` replaced by `c * p + t`. -/
def affine (c t : ℝ) (a : NDArray ℝ) : NDArray ℝ := a.map (fun p => c * p + t)

theorem Comparable.symm {a b : NDArray ℝ} (h : Comparable a b) : Comparable b a :=
  ⟨h.1.symm, by unfold NDArray.size; rw [← h.1]; exact h.2⟩

theorem Comparable.trans {a b c : NDArray ℝ} (h : Comparable a b) (h' : Comparable b c) : Comparable a c :=
  ⟨h.1.trans h'.1, h.2⟩

/-- Closed form of the model. -/
theorem rmse_eq {a b : NDArray ℝ} (h : Comparable a b) :
    rmse a b = .ok (Real.sqrt (((indices a.shape).map (fun i => (a.get i - b.get i) ^ 2)).sum / a.size)) := by
  unfold rmse meanSquaredError
  rw [if_neg (not_not.2 h.1), if_neg h.2]

theorem mse_nonneg (a b : NDArray ℝ) :
    0 ≤ ((indices a.shape).map (fun i => (a.get i - b.get i) ^ 2)).sum / a.size :=
  div_nonneg (sum_nonneg _ _ (fun _ _ => sq_nonneg _)) (Nat.cast_nonneg _)

/-- An image of two pixels with the same value. -/
abbrev pairOf (v : ℝ) : NDArray ℝ := ⟨[1, 2], fun _ => v⟩

/-- **C28.** For comparable images RMSE is a number and not negative. -/
theorem C28_nonneg (a b : NDArray ℝ) (h : Comparable a b) : ∃ v, rmse a b = .ok v ∧ 0 ≤ v :=
  ⟨_, rmse_eq h, Real.sqrt_nonneg _⟩

example : ∃ v, rmse ⟨[1, 2], fun _ => 0⟩ ⟨[1, 2], fun _ => 1⟩ = .ok v ∧ 0 ≤ v :=
  C28_nonneg _ _ ⟨rfl, by decide⟩

/-- **C28.** RMSE is zero exactly for identical images. -/
theorem C28_zero_iff (a b : NDArray ℝ) (h : Comparable a b) : rmse a b = .ok 0 ↔ a.Same b := by
  rw [rmse_eq h, Except.ok.injEq, Real.sqrt_eq_zero (mse_nonneg a b),
    div_eq_zero_iff, sum_eq_zero_iff _ _ (fun _ _ => sq_nonneg _)]
  have hs : ¬ ((a.size : ℝ) = 0) := by exact_mod_cast h.2
  simp only [hs, or_false, pow_eq_zero_iff two_ne_zero, sub_eq_zero, mem_indices]
  exact ⟨fun h' => ⟨h.1, h'⟩, fun h' => h'.2⟩

/-- Images that differ in one pixel. -/
example : rmse ⟨[1, 2], fun i => if i = [0, 1] then 1 else 0⟩ (pairOf 0) ≠ .ok 0 := by
  intro h
  have := ((C28_zero_iff ⟨[1, 2], fun i => if i = [0, 1] then 1 else 0⟩ (pairOf 0) ⟨rfl, by decide⟩).1 h).2 [0, 1] (by decide)
  norm_num at this

/-- **C28.** RMSE is symmetric. -/
theorem C28_symm (a b : NDArray ℝ) (h : Comparable a b) : rmse a b = rmse b a := by
  rw [rmse_eq h, rmse_eq h.symm]
  unfold NDArray.size
  rw [← h.1]
  congr 4
  apply List.map_congr_left
  intro i _; ring

example : rmse ⟨[1, 2], fun i => i.sum⟩ ⟨[1, 2], fun _ => 3⟩ = rmse ⟨[1, 2], fun _ => 3⟩ ⟨[1, 2], fun i => i.sum⟩ :=
  C28_symm _ _ ⟨rfl, by decide⟩

/-- **C28.** RMSE satisfies the triangle inequality. -/
theorem C28_triangle (a b c : NDArray ℝ) (hab : Comparable a b) (hbc : Comparable b c) (x y z : ℝ)
    (hx : rmse a c = .ok x) (hy : rmse a b = .ok y) (hz : rmse b c = .ok z) : x ≤ y + z := by
  rw [rmse_eq (hab.trans hbc)] at hx
  rw [rmse_eq hab] at hy
  rw [rmse_eq hbc] at hz
  cases hx; cases hy; cases hz
  have hsize : b.size = a.size := by unfold NDArray.size; rw [hab.1]
  rw [hsize, ← hab.1]
  rw [Real.sqrt_div' _ (Nat.cast_nonneg _), Real.sqrt_div' _ (Nat.cast_nonneg _),
    Real.sqrt_div' _ (Nat.cast_nonneg _), ← add_div]
  apply div_le_div_of_nonneg_right _ (Real.sqrt_nonneg _)
  have := minkowski (indices a.shape) (fun i => a.get i - b.get i) (fun i => b.get i - c.get i)
  simpa using this

example (x y z : ℝ) (hx : rmse ⟨[1, 2], fun i => i.sum⟩ ⟨[1, 2], fun _ => 3⟩ = .ok x)
    (hy : rmse ⟨[1, 2], fun i => i.sum⟩ ⟨[1, 2], fun _ => 2⟩ = .ok y)
    (hz : rmse ⟨[1, 2], fun _ => 2⟩ ⟨[1, 2], fun _ => 3⟩ = .ok z) : x ≤ y + z :=
  C28_triangle ⟨[1, 2], fun i => i.sum⟩ (pairOf 2) (pairOf 3) ⟨rfl, by decide⟩ ⟨rfl, by decide⟩ x y z hx hy hz

/-- **C28.** Adding the same constant to both images changes nothing; a common factor scales the
result by its absolute value. -/
theorem C28_affine (a b : NDArray ℝ) (h : Comparable a b) (c t v : ℝ) (hv : rmse a b = .ok v) :
    rmse (affine c t a) (affine c t b) = .ok (|c| * v) := by
  have h' : Comparable (affine c t a) (affine c t b) := h
  rw [rmse_eq h] at hv
  cases hv
  rw [rmse_eq h', Except.ok.injEq, ← Real.sqrt_sq_eq_abs, ← Real.sqrt_mul (sq_nonneg _), ← mul_div_assoc,
    ← sum_map_mul]
  have : (affine c t a).size = a.size := rfl
  rw [this]
  congr 3
  apply List.map_congr_left
  intro i _
  simp only [affine, NDArray.map]; ring

/-- Images of different shape raise a ValueError. -/
theorem C28_shape_mismatch (a b : NDArray ℝ) (h : a.shape ≠ b.shape) :
    ∃ m, rmse a b = .error (.valueError m) := by
  unfold rmse meanSquaredError
  rw [if_pos h]; exact ⟨_, rfl⟩

/-- A row and a column. -/
example : ∃ m, rmse ⟨[1, 2], fun _ => 0⟩ ⟨[2, 1], fun _ => 0⟩ = .error (.valueError m) :=
  C28_shape_mismatch _ _ (by decide)

/-- Changing one pixel by `d` changes the distance to the original by `|d| / √n`. -/
theorem C28_one_pixel (a : NDArray ℝ) (hs : a.size ≠ 0) (p : List Nat) (hp : InShape a.shape p) (d : ℝ) :
    rmse a ⟨a.shape, fun i => if i = p then a.get i + d else a.get i⟩ = .ok (|d| / Real.sqrt a.size) := by
  have hone : (indices a.shape).count p = 1 :=
    List.count_eq_one_of_mem (indices_nodup _) ((mem_indices _ _).2 hp)
  rw [rmse_eq (a := a) (b := ⟨a.shape, fun i => if i = p then a.get i + d else a.get i⟩) ⟨rfl, hs⟩, Except.ok.injEq, Real.sqrt_div' _ (Nat.cast_nonneg _), ← Real.sqrt_sq_eq_abs]
  congr 2
  have : ((indices a.shape).map (fun i => (a.get i - (if i = p then a.get i + d else a.get i)) ^ 2)) =
      (indices a.shape).map (fun i => if i = p then d ^ 2 else 0) := by
    apply List.map_congr_left
    intro i _
    split <;> ring
  rw [this]
  generalize indices a.shape = l at hone
  have key : ∀ l : List (List Nat), (l.map (fun i => if i = p then d ^ 2 else 0)).sum = l.count p * d ^ 2 := by
    intro l
    induction l with
    | nil => simp
    | cons i l ih =>
      rw [List.map_cons, List.sum_cons, ih, List.count_cons]
      by_cases h : i = p
      · simp [h]; ring
      · simp [h]
  rw [key, hone]; simp

/-- Two 1×2 images at distance √((1²+1²)/2) = 1. -/
example : rmse ⟨[1, 2], fun _ => 0⟩ ⟨[1, 2], fun _ => 1⟩ = .ok 1 := by
  rw [rmse_eq (show Comparable (⟨[1, 2], fun _ => 0⟩ : NDArray ℝ) ⟨[1, 2], fun _ => 1⟩ from ⟨rfl, by decide⟩)]
  norm_num [indices, NDArray.size, List.range_succ]

/-- Twice the brightness, twice the distance. -/
example : rmse (affine 2 5 ⟨[1, 2], fun _ => 0⟩) (affine 2 5 ⟨[1, 2], fun _ => 1⟩) = .ok (|2| * 1) :=
  C28_affine (pairOf 0) (pairOf 1) ⟨rfl, by decide⟩ 2 5 1 (by
    rw [rmse_eq (show Comparable (⟨[1, 2], fun _ => 0⟩ : NDArray ℝ) ⟨[1, 2], fun _ => 1⟩ from ⟨rfl, by decide⟩)]
    norm_num [indices, NDArray.size, List.range_succ])

/-! ### C29 -/

/-- **C29.** Without data range the constructor raises a ValueError. -/
theorem C29_data_range : (∃ m, psnrInit none = .error (.valueError m)) ∧ ∀ d, psnrInit (some d) = .ok d :=
  ⟨⟨_, rfl⟩, fun _ => rfl⟩

example : psnrInit (some 255) = .ok 255 := C29_data_range.2 255

theorem arrayEqual_iff (a b : NDArray ℝ) : arrayEqual a b ↔ a.Same b := by
  unfold arrayEqual NDArray.Same
  simp only [mem_indices]

/-- **C29.** PSNR is infinite exactly for identical images (a non-empty pair of equal shape). -/
theorem C29_infinite_iff (d : ℝ) (a b : NDArray ℝ) : psnr d a b = .ok .infinite ↔ a.Same b := by
  rw [← arrayEqual_iff]
  unfold psnr
  constructor
  · intro h
    by_contra hc
    rw [if_neg hc] at h
    cases hm : meanSquaredError a b with
    | error e => rw [hm] at h; cases h
    | ok v =>
      rw [hm] at h
      simp only at h
      split at h <;> cases h
  · intro h; rw [if_pos h]

example : psnr 255 ⟨[1, 2], fun _ => 7⟩ ⟨[1, 2], fun _ => 7⟩ = .ok .infinite :=
  (C29_infinite_iff _ _ _).2 ⟨rfl, fun _ _ => rfl⟩

/-- **C29.** Otherwise it is `20 log10(data_range / RMSE)`. -/
theorem C29_formula (d : ℝ) (a b : NDArray ℝ) (h : Comparable a b) (hne : ¬ a.Same b) (hd : d ≠ 0) :
    ∃ r, rmse a b = .ok r ∧ 0 < r ∧ psnr d a b = .ok (.finite (20 * Real.logb 10 (|d| / r))) := by
  obtain ⟨r, hr, hr0⟩ := C28_nonneg a b h
  have hrne : r ≠ 0 := by
    rintro rfl
    exact hne ((C28_zero_iff a b h).1 hr)
  have hpos : 0 < r := lt_of_le_of_ne hr0 (Ne.symm hrne)
  refine ⟨r, hr, hpos, ?_⟩
  have hm : meanSquaredError a b = .ok (r ^ 2) := by
    unfold rmse at hr
    cases hm : meanSquaredError a b with
    | error e => rw [hm] at hr; cases hr
    | ok v =>
      rw [hm] at hr
      simp only [Except.ok.injEq] at hr ⊢
      rw [← hr, Real.sq_sqrt]
      unfold meanSquaredError at hm
      rw [if_neg (not_not.2 h.1), if_neg h.2] at hm
      cases hm
      exact mse_nonneg a b
  unfold psnr
  rw [if_neg (fun hc => hne ((arrayEqual_iff a b).1 hc)), hm]
  simp only
  rw [if_neg (div_ne_zero (pow_ne_zero 2 hd) (pow_ne_zero 2 hrne))]
  rw [← sq_abs d, ← div_pow]
  have : Real.logb 10 ((|d| / r) ^ 2) = 2 * Real.logb 10 (|d| / r) := by
    rw [Real.logb_pow]; norm_num
  rw [this]
  congr 2; ring

/-- A data range of zero gives minus infinity for different images. -/
theorem C29_zero_range (a b : NDArray ℝ) (h : Comparable a b) (hne : ¬ a.Same b) :
    psnr 0 a b = .ok .minusInfinite := by
  unfold psnr
  rw [if_neg (fun hc => hne ((arrayEqual_iff a b).1 hc))]
  unfold meanSquaredError
  rw [if_neg (not_not.2 h.1), if_neg h.2]
  simp

example : psnr 0 ⟨[1, 2], fun _ => 0⟩ ⟨[1, 2], fun _ => 1⟩ = .ok .minusInfinite :=
  C29_zero_range (pairOf 0) (pairOf 1) ⟨rfl, by decide⟩ (fun h => by have := h.2 [0, 0] (by decide); norm_num at this)

/-- **C29.** PSNR is symmetric. -/
theorem C29_symm (d : ℝ) (a b : NDArray ℝ) (h : Comparable a b) : psnr d a b = psnr d b a := by
  by_cases hs : a.Same b
  · have hs' : b.Same a := ⟨hs.1.symm, fun i hi => (hs.2 i (by rw [hs.1]; exact hi)).symm⟩
    rw [(C29_infinite_iff d a b).2 hs, (C29_infinite_iff d b a).2 hs']
  · have hs' : ¬ b.Same a := fun h' => hs ⟨h'.1.symm, fun i hi => (h'.2 i (by rw [h'.1]; exact hi)).symm⟩
    by_cases hd : d = 0
    · subst hd
      rw [C29_zero_range a b h hs, C29_zero_range b a h.symm hs']
    · obtain ⟨r, hr, -, hp⟩ := C29_formula d a b h hs hd
      obtain ⟨r', hr', -, hp'⟩ := C29_formula d b a h.symm hs' hd
      rw [C28_symm a b h, hr'] at hr
      cases hr
      rw [hp, hp']

example : psnr 5 ⟨[1, 2], fun i => i.sum⟩ ⟨[1, 2], fun _ => 3⟩ = psnr 5 ⟨[1, 2], fun _ => 3⟩ ⟨[1, 2], fun i => i.sum⟩ :=
  C29_symm _ _ _ ⟨rfl, by decide⟩

/-- **C29.** PSNR strictly decreases when the RMSE grows (pairs may differ). -/
theorem C29_decreasing (d : ℝ) (hd : d ≠ 0) (a b a' b' : NDArray ℝ) (h : Comparable a b)
    (h' : Comparable a' b') (hne : ¬ a.Same b) (hne' : ¬ a'.Same b') (r r' p p' : ℝ)
    (hr : rmse a b = .ok r) (hr' : rmse a' b' = .ok r') (hp : psnr d a b = .ok (.finite p))
    (hp' : psnr d a' b' = .ok (.finite p')) : r < r' ↔ p' < p := by
  obtain ⟨s, hs, hs0, hps⟩ := C29_formula d a b h hne hd
  obtain ⟨s', hs', hs0', hps'⟩ := C29_formula d a' b' h' hne' hd
  rw [hs] at hr; cases hr
  rw [hs'] at hr'; cases hr'
  rw [hps] at hp; cases hp
  rw [hps'] at hp'; cases hp'
  have hda : 0 < |d| := abs_pos.2 hd
  have : 20 * Real.logb 10 (|d| / r') < 20 * Real.logb 10 (|d| / r) ↔
      Real.logb 10 (|d| / r') < Real.logb 10 (|d| / r) := by
    constructor <;> intro h <;> linarith
  rw [this, Real.logb_lt_logb_iff (by norm_num) (by positivity) (by positivity)]
  exact (div_lt_div_iff_of_pos_left hda hs0' hs0).symm

/-- The brighter of two images is farther from black. -/
example (r r' p p' : ℝ) (hr : rmse ⟨[1, 2], fun _ => 0⟩ ⟨[1, 2], fun _ => 1⟩ = .ok r)
    (hr' : rmse ⟨[1, 2], fun _ => 0⟩ ⟨[1, 2], fun _ => 2⟩ = .ok r')
    (hp : psnr 10 ⟨[1, 2], fun _ => 0⟩ ⟨[1, 2], fun _ => 1⟩ = .ok (.finite p))
    (hp' : psnr 10 ⟨[1, 2], fun _ => 0⟩ ⟨[1, 2], fun _ => 2⟩ = .ok (.finite p')) : r < r' ↔ p' < p :=
  C29_decreasing 10 (by norm_num) (pairOf 0) (pairOf 1) (pairOf 0) (pairOf 2) ⟨rfl, by decide⟩ ⟨rfl, by decide⟩
    (fun h => by have := h.2 [0, 0] (by decide); norm_num at this)
    (fun h => by have := h.2 [0, 0] (by decide); norm_num at this) r r' p p' hr hr' hp hp'

/-- **C29.** Scaling both images and the data range by a positive factor changes nothing; adding a
constant to both images changes nothing either. -/
theorem C29_scale (d c t : ℝ) (hc : 0 < c) (a b : NDArray ℝ) (h : Comparable a b) :
    psnr (c * d) (affine c t a) (affine c t b) = psnr d a b := by
  have h' : Comparable (affine c t a) (affine c t b) := h
  have hsame : (affine c t a).Same (affine c t b) ↔ a.Same b := by
    unfold NDArray.Same affine NDArray.map
    simp only
    constructor
    · rintro ⟨h1, h2⟩
      refine ⟨h1, fun i hi => ?_⟩
      have h3 := h2 i hi
      have : c * (a.get i) = c * (b.get i) := by linarith
      exact mul_left_cancel₀ hc.ne' this
    · rintro ⟨h1, h2⟩
      exact ⟨h1, fun i hi => by rw [h2 i hi]⟩
  by_cases hs : a.Same b
  · rw [(C29_infinite_iff _ _ _).2 hs, (C29_infinite_iff _ _ _).2 (hsame.2 hs)]
  · by_cases hd : d = 0
    · subst hd
      rw [mul_zero, C29_zero_range a b h hs, C29_zero_range _ _ h' (fun hh => hs (hsame.1 hh))]
    · obtain ⟨r, hr, hr0, hp⟩ := C29_formula d a b h hs hd
      obtain ⟨r', hr', -, hp'⟩ := C29_formula (c * d) _ _ h' (fun hh => hs (hsame.1 hh))
        (mul_ne_zero hc.ne' hd)
      rw [C28_affine a b h c t r hr] at hr'
      cases hr'
      rw [hp, hp', abs_mul, mul_div_mul_left _ _ (abs_pos.2 hc.ne').ne']

/-- Images 0 and 1 with data range 10: 20 dB. -/
example : psnr 10 ⟨[1, 2], fun _ => 0⟩ ⟨[1, 2], fun _ => 1⟩ = .ok (.finite 20) := by
  have hne : ¬ (⟨[1, 2], fun _ => 0⟩ : NDArray ℝ).Same ⟨[1, 2], fun _ => 1⟩ := by
    rintro ⟨-, h⟩
    have := h [0, 0] (by decide)
    norm_num at this
  obtain ⟨r, hr, -, hp⟩ := C29_formula 10 ⟨[1, 2], fun _ => 0⟩ ⟨[1, 2], fun _ => 1⟩ ⟨rfl, by decide⟩ hne
    (by norm_num)
  rw [rmse_eq (show Comparable (⟨[1, 2], fun _ => 0⟩ : NDArray ℝ) ⟨[1, 2], fun _ => 1⟩ from ⟨rfl, by decide⟩)] at hr
  norm_num [indices, NDArray.size, List.range_succ] at hr
  rw [hp, ← hr]
  norm_num

end Viqa
