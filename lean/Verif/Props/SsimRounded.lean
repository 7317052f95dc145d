import Verif.Model.SsimRounded
import Verif.Lemmas.Rounding
import Verif.Props.NoiseRounded

/-!
Properties C138 and C139: SSIM in floating point arithmetic.
-/

namespace Viqa

private theorem p24 : 1 ≤ 24 := by norm_num

theorem divRounded_ne (a b : ℝ) (hb : b ≠ 0) : divRounded a b = .fin (fl 24 (a / b)) := by
  unfold divRounded npDiv
  rw [if_neg hb]

theorem divRounded_zero : divRounded 0 0 = .nan := by
  unfold divRounded npDiv
  rw [if_pos rfl, if_pos rfl]

theorem fl_one : fl 24 (1 : ℝ) = 1 := by
  have := fl_int (K := ℝ) (p := 24) (by norm_num) 1 (by norm_num)
  simpa using this

/-- The two products of the luminance agree for equal means. -/
theorem luminance_identical (big c1 u : ℝ) (hu : Representable 24 u) : luminanceRounded big c1 u u = 1 := by
  unfold luminanceRounded
  have e : fl 24 (fl 24 (2 * u) * u) = fl 24 (fl 24 (u * u) + fl 24 (u * u)) := by
    rw [fl_two_mul, fl_of_representable p24 hu, mul_assoc, fl_two_mul, ← two_mul, fl_two_mul, fl_fl p24]
  rw [e]
  by_cases h : fl 24 (fl 24 (fl 24 (u * u) + fl 24 (u * u)) + c1) = 0
  · rw [h, divRounded_zero]; rfl
  · rw [divRounded_ne _ _ h, div_self h, fl_one]; rfl

/-- Numerator and denominator of structure and contrast are the same two numbers for equal variances. -/
theorem contrast_structure_identical (big c2 v : ℝ) (hv : Representable 24 v) (hc : 0 ≤ c2) :
    contrastRounded big c2 v v = 1 ∧ structureRounded big (c2 / 2) v v v = 1 ∨
    ∃ n d : ℝ, 0 < n ∧ 0 < d ∧ contrastRounded big c2 v v = fl 24 (d / n) ∧
      structureRounded big (c2 / 2) v v v = fl 24 (n / d) := by
  unfold contrastRounded structureRounded
  by_cases hneg : v < 0
  · left
    rw [if_pos (Or.inl hneg), if_pos (Or.inl hneg)]
    exact ⟨rfl, rfl⟩
  · rw [if_neg (by simpa using hneg), if_neg (by simpa using hneg)]
    have hv0 : 0 ≤ v := not_lt.1 hneg
    have hs : 0 ≤ fl 24 (Real.sqrt v) := fl_nonneg p24 (Real.sqrt_nonneg v)
    have e1 : fl 24 (fl 24 (fl 24 (2 * fl 24 (Real.sqrt v)) * fl 24 (Real.sqrt v)) + c2)
        = 2 * fl 24 (fl 24 (fl 24 (Real.sqrt v) * fl 24 (Real.sqrt v)) + c2 / 2) := by
      rw [fl_two_mul 24 (fl 24 (Real.sqrt v)), fl_fl p24, mul_assoc, fl_two_mul 24 (_ * _), ← fl_two_mul 24 (_ + _)]
      congr 1
      ring
    have e2 : fl 24 (fl 24 (v + v) + c2) = 2 * fl 24 (v + c2 / 2) := by
      rw [← two_mul, fl_two_mul, fl_of_representable p24 hv, ← fl_two_mul]
      congr 1
      ring
    rw [e1, e2]
    by_cases h0 : v = 0 ∧ c2 = 0
    · left
      obtain ⟨rfl, rfl⟩ := h0
      simp [fl_zero, divRounded_zero, nanToNum]
    · right
      have hpos : 0 < v + c2 / 2 := by
        rcases lt_or_eq_of_le hv0 with h | h
        · linarith
        · rcases lt_or_eq_of_le hc with h' | h'
          · linarith
          · exact absurd ⟨h.symm, h'.symm⟩ h0
      have hn := fl_pos p24 hpos
      have hd : 0 < fl 24 (fl 24 (fl 24 (Real.sqrt v) * fl 24 (Real.sqrt v)) + c2 / 2) := by
        apply fl_pos p24
        rcases lt_or_eq_of_le hv0 with h | h
        · have := fl_pos p24 (Real.sqrt_pos.2 h)
          have := fl_pos p24 (mul_pos this this)
          linarith
        · have h2 : 0 < c2 / 2 := by rw [← h] at hpos; linarith
          have := fl_nonneg p24 (mul_nonneg hs hs)
          linarith
      refine ⟨_, _, hn, hd, ?_, ?_⟩
      · rw [divRounded_ne _ _ (by linarith), mul_div_mul_left _ _ (by norm_num : (2 : ℝ) ≠ 0)]
        rfl
      · rw [divRounded_ne _ _ hd.ne']
        rfl

/-- **C138**, one position: an image compared with itself has the index 1 up to `2 ^ (-22)`, for every image and
every filter. -/
theorem C138_local {P : Type} (F : (P → ℝ) → ℝ) (x : P → ℝ) (big norm c1 c2 : ℝ) (h2 : 0 ≤ c2) :
    |ssimRounded big norm c1 c2 (localStats F x x) - 1| ≤ 1 / 2 ^ 22 := by
  unfold ssimRounded localStats
  simp only
  rw [luminance_identical big c1 _ (fl_representable 24 _), one_mul]
  rcases contrast_structure_identical big c2 (covRounded norm (fl 24 (F fun q => fl 24 (x q * x q))) (fl 24 (F x)) (fl 24 (F x)))
    (by unfold covRounded; exact fl_representable 24 _) h2 with ⟨hc, hs⟩ | ⟨n, d, hn, hd, hc, hs⟩
  · rw [hc, hs, fl_one, one_mul, fl_one]; norm_num
  · rw [hc, hs, fl_fl p24]
    have a1 := fl_le_mul 24 (div_pos hd hn).le
    have a2 := mul_le_fl 24 (div_pos hd hn).le
    have b1 := fl_le_mul 24 (div_pos hn hd).le
    have b2 := mul_le_fl 24 (div_pos hn hd).le
    have hA := fl_nonneg p24 (div_pos hd hn).le
    have hB := fl_nonneg p24 (div_pos hn hd).le
    have c1 := fl_le_mul 24 (mul_nonneg hA hB)
    have c2 := mul_le_fl 24 (mul_nonneg hA hB)
    have e : d / n * (n / d) = 1 := by field_simp
    have u1 : fl 24 (d / n) * fl 24 (n / d) ≤ (1 + 1 / 2 ^ 24) ^ 2 := by
      calc fl 24 (d / n) * fl 24 (n / d) ≤ (d / n * (1 + 1 / 2 ^ 24)) * (n / d * (1 + 1 / 2 ^ 24)) :=
            mul_le_mul a1 b1 hB (by positivity)
        _ = (d / n * (n / d)) * (1 + 1 / 2 ^ 24) ^ 2 := by ring
        _ = _ := by rw [e, one_mul]
    have u2 : (1 - 1 / 2 ^ 24) ^ 2 ≤ fl 24 (d / n) * fl 24 (n / d) := by
      calc ((1 : ℝ) - 1 / 2 ^ 24) ^ 2 = (d / n * (n / d)) * (1 - 1 / 2 ^ 24) ^ 2 := by rw [e, one_mul]
        _ = (d / n * (1 - 1 / 2 ^ 24)) * (n / d * (1 - 1 / 2 ^ 24)) := by ring
        _ ≤ _ := mul_le_mul a2 b2 (mul_nonneg (div_pos hn hd).le (by norm_num)) hA
    rw [abs_le]
    constructor
    · have : ((1 : ℝ) - 1 / 2 ^ 24) ^ 2 * (1 - 1 / 2 ^ 24) ≤ fl 24 (fl 24 (d / n) * fl 24 (n / d)) :=
        (mul_le_mul_of_nonneg_right u2 (by norm_num)).trans c2
      norm_num at this ⊢
      linarith
    · have : fl 24 (fl 24 (d / n) * fl 24 (n / d)) ≤ ((1 : ℝ) + 1 / 2 ^ 24) ^ 2 * (1 + 1 / 2 ^ 24) :=
        c1.trans (mul_le_mul_of_nonneg_right u1 (by norm_num))
      norm_num at this ⊢
      linarith

/-- Sums grow with their values. -/
theorem Summation.eval_le (p : ℕ) (hp : 1 ≤ p) (t : Summation) (f g : ℝ → ℝ) (h : ∀ v ∈ t.leaves, f v ≤ g v) :
    (t.map f).eval p ≤ (t.map g).eval p := by
  induction t with
  | leaf v => exact h v (by simp [Summation.leaves])
  | node l r hl hr =>
    simp only [Summation.leaves, List.mem_append] at h
    exact fl_mono hp (add_le_add (hl fun v hv => h v (Or.inl hv)) (hr fun v hv => h v (Or.inr hv)))

theorem Summation.map_id (t : Summation) : t.map id = t := by
  induction t with
  | leaf v => rfl
  | node l r hl hr => simp [Summation.map, hl, hr]

theorem Summation.size_map (f : ℝ → ℝ) (t : Summation) : (t.map f).size = t.size := by
  unfold Summation.size; rw [Summation.leaves_map, List.length_map]

/-- A mean lies between bounds of its values that have few bits. -/
theorem meanRounded_bounds (p : ℕ) (hp : 1 ≤ p) (t : Summation) (a b e : ℤ)
    (ha : t.size * |a| ≤ 2 ^ p) (hb : t.size * |b| ≤ 2 ^ p)
    (h : ∀ v ∈ t.leaves, (a : ℝ) * 2 ^ e ≤ v ∧ v ≤ b * 2 ^ e) :
    (a : ℝ) * 2 ^ e ≤ meanRounded p t ∧ meanRounded p t ≤ b * 2 ^ e := by
  have hn : (0 : ℝ) < t.size := by exact_mod_cast t.size_pos
  have hn1 : (1 : ℤ) ≤ t.size := by exact_mod_cast t.size_pos
  have key : ∀ c : ℤ, t.size * |c| ≤ 2 ^ p → (t.map (fun _ => (c : ℝ) * 2 ^ e)).eval p = t.size * (c * 2 ^ e) ∧
      viaDouble p ((t.size * (c * 2 ^ e) : ℝ) / t.size) = c * 2 ^ e := by
    intro c hc
    constructor
    · rw [Summation.eval_exact p hp e _ (fun _ => c) (by
        intro v hv
        rw [Summation.leaves_map, List.mem_map] at hv
        obtain ⟨w, -, rfl⟩ := hv
        rfl) (by
        rw [Summation.leaves_map]
        simp only [List.map_const', List.sum_replicate, nsmul_eq_mul, List.length_replicate]
        exact hc), Summation.leaves_map]
      simp only [List.map_const', List.sum_replicate, nsmul_eq_mul]
      rfl
    · rw [mul_div_assoc, mul_div_cancel₀ _ hn.ne']
      exact viaDouble_of_representable hp ⟨c, e, by nlinarith [abs_nonneg c], rfl⟩
  obtain ⟨a1, a2⟩ := key a ha
  obtain ⟨b1, b2⟩ := key b hb
  have g1 := t.eval_le p hp (fun _ => (a : ℝ) * 2 ^ e) id (fun v hv => (h v hv).1)
  have g2 := t.eval_le p hp id (fun _ => (b : ℝ) * 2 ^ e) (fun v hv => (h v hv).2)
  rw [a1, Summation.map_id] at g1
  rw [b1, Summation.map_id] at g2
  unfold meanRounded
  constructor
  · rw [← a2]; exact fl_mono hp (fl_mono (by omega) (div_le_div_of_nonneg_right g1 hn.le))
  · rw [← b2]; exact fl_mono hp (fl_mono (by omega) (div_le_div_of_nonneg_right g2 hn.le))

/-- **C138.** SSIM of an image with itself in floating point arithmetic is 1 up to `2 ^ (-22)`: for every image,
every filter at each of the positions `pos`, every data range and every order of the last additions (images of
up to `2 ^ 30` positions). -/
theorem C138_identical {P Q : Type} (F : Q → (P → ℝ) → ℝ) (x : P → ℝ) (big norm c1 c2 : ℝ) (h2 : 0 ≤ c2)
    (pos : List Q) (hpos : pos.length ≤ 2 ^ 30) (t : Summation)
    (ht : t.leaves = pos.map (fun q => ssimRounded big norm c1 c2 (localStats (F q) x x))) :
    |meanRounded 53 t - 1| ≤ 1 / 2 ^ 22 := by
  have hsz : (t.size : ℤ) ≤ 2 ^ 30 := by
    unfold Summation.size
    rw [ht, List.length_map]
    exact_mod_cast hpos
  have := meanRounded_bounds 53 (by norm_num) t (2 ^ 22 - 1) (2 ^ 22 + 1) (-22)
    (by rw [abs_of_nonneg (by norm_num)]; nlinarith) (by rw [abs_of_nonneg (by norm_num)]; nlinarith) (by
      intro v hv
      rw [ht, List.mem_map] at hv
      obtain ⟨q, -, rfl⟩ := hv
      have := abs_le.1 (C138_local (F q) x big norm c1 c2 h2)
      constructor
      · have h := this.1
        norm_num at h ⊢
        linarith
      · have h := this.2
        norm_num at h ⊢
        linarith)
  rw [abs_le]
  constructor
  · have h := this.1
    norm_num at h ⊢
    linarith
  · have h := this.2
    norm_num at h ⊢
    linarith

/-- Two positions. -/
example (big : ℝ) (x : Bool → ℝ) : |meanRounded 53 (.node (.leaf (ssimRounded big 1 1 1 (localStats (fun z : Bool → ℝ => z true) x x)))
    (.leaf (ssimRounded big 1 1 1 (localStats (fun z : Bool → ℝ => z false) x x)))) - 1| ≤ 1 / 2 ^ 22 :=
  C138_identical (fun q z => z q) x big 1 1 1 (by norm_num) [true, false] (by norm_num) _ rfl

/-- **C138.** Exchanging the images does not change the index at all, rounding included. -/
theorem C138_symmetric {P : Type} (F : (P → ℝ) → ℝ) (x y : P → ℝ) (big norm c1 c2 : ℝ) :
    ssimRounded big norm c1 c2 (localStats F x y) = ssimRounded big norm c1 c2 (localStats F y x) := by
  have hl : ∀ u w : ℝ, Representable 24 u → Representable 24 w →
      luminanceRounded big c1 u w = luminanceRounded big c1 w u := by
    intro u w hu hw
    unfold luminanceRounded
    have e : fl 24 (2 * u) * w = fl 24 (2 * w) * u := by
      rw [fl_two_mul, fl_two_mul, fl_of_representable p24 hu, fl_of_representable p24 hw]; ring
    rw [e, add_comm (fl 24 (u * u))]
  have hc : ∀ a b : ℝ, contrastRounded big c2 a b = contrastRounded big c2 b a := by
    intro a b
    unfold contrastRounded
    have e : fl 24 (2 * fl 24 (Real.sqrt a)) * fl 24 (Real.sqrt b) = fl 24 (2 * fl 24 (Real.sqrt b)) * fl 24 (Real.sqrt a) := by
      rw [fl_two_mul, fl_two_mul, fl_fl p24, fl_fl p24]; ring
    rw [e, add_comm a b]
    simp only [or_comm]
  have hs : ∀ a b w : ℝ, structureRounded big (c2 / 2) a b w = structureRounded big (c2 / 2) b a w := by
    intro a b w
    unfold structureRounded
    rw [mul_comm (fl 24 (Real.sqrt a))]
    simp only [or_comm]
  have hw : ∀ m a b : ℝ, covRounded norm m a b = covRounded norm m b a := by
    intro m a b
    unfold covRounded
    rw [mul_comm a b]
  have hxy : (fun q => fl 24 (x q * y q)) = fun q => fl 24 (y q * x q) := by
    funext q; rw [mul_comm]
  unfold ssimRounded localStats
  simp only
  rw [hl _ _ (fl_representable 24 _) (fl_representable 24 _), hc, hs, hxy, hw _ (fl 24 (F x)) (fl 24 (F y))]

example (big : ℝ) : ssimRounded big (49 / 48) 1 1 (localStats (fun z : Bool → ℝ => (z true + z false) / 2) (fun b => if b then 3 else 5) (fun _ => 1)) =
    ssimRounded big (49 / 48) 1 1 (localStats (fun z : Bool → ℝ => (z true + z false) / 2) (fun _ => 1) (fun b => if b then 3 else 5)) :=
  C138_symmetric _ _ _ _ _ _ _

/-! ### C139: how far from 1 -/

/-- Weights of a filter: none is negative and their sum is 1. -/
def Weights {P : Type} [Fintype P] (k : P → ℝ) : Prop := (∀ q, 0 ≤ k q) ∧ ∑ q, k q = 1

/-- A filter is accurate: its stored result is the weighted mean up to four units of rounding of the largest
value. -/
def Accurate {P : Type} [Fintype P] (k : P → ℝ) (F : (P → ℝ) → ℝ) : Prop :=
  ∀ (z : P → ℝ) (b : ℝ), (∀ q, |z q| ≤ b) → |fl 24 (F z) - ∑ q, k q * z q| ≤ b / 2 ^ 22

section
variable {P : Type} [Fintype P] (k : P → ℝ)

theorem weighted_abs_le (hk : Weights k) (z : P → ℝ) (b : ℝ) (hz : ∀ q, |z q| ≤ b) : |∑ q, k q * z q| ≤ b := by
  calc |∑ q, k q * z q| ≤ ∑ q, |k q * z q| := Finset.abs_sum_le_sum_abs _ _
    _ ≤ ∑ q, k q * b := Finset.sum_le_sum fun q _ => by
        rw [abs_mul, abs_of_nonneg (hk.1 q)]; exact mul_le_mul_of_nonneg_left (hz q) (hk.1 q)
    _ = b := by rw [← Finset.sum_mul, hk.2, one_mul]

/-- The correctly rounded filter is accurate. -/
theorem exact_accurate (hk : Weights k) : Accurate k (fun z => ∑ q, k q * z q) := by
  intro z b hz
  have h1 := weighted_abs_le k hk z b hz
  have h2 := fl_error 24 (∑ q, k q * z q)
  have h0 := abs_nonneg (∑ q, k q * z q)
  have h3 : |∑ q, k q * z q| / 2 ^ 24 ≤ b / 2 ^ 22 := div_le_div₀ (h0.trans h1) h1 (by norm_num) (by norm_num)
  exact h2.trans h3

/-- Mean of squares and square of means. -/
theorem weighted_sq (hk : Weights k) (z : P → ℝ) : (∑ q, k q * z q) ^ 2 ≤ ∑ q, k q * (z q * z q) := by
  have h : 0 ≤ ∑ q, k q * (z q - ∑ q, k q * z q) ^ 2 :=
    Finset.sum_nonneg fun q _ => mul_nonneg (hk.1 q) (sq_nonneg _)
  have e : ∑ q, k q * (z q - ∑ q, k q * z q) ^ 2 =
      ∑ q, k q * (z q * z q) - 2 * (∑ q, k q * z q) * (∑ q, k q * z q) + (∑ q, k q * z q) ^ 2 * ∑ q, k q := by
    have g : ∀ m : ℝ, ∑ q, k q * (z q - m) ^ 2 =
        ∑ q, k q * (z q * z q) - 2 * m * (∑ q, k q * z q) + m ^ 2 * ∑ q, k q := by
      intro m
      rw [Finset.mul_sum, Finset.mul_sum, ← Finset.sum_sub_distrib, ← Finset.sum_add_distrib]
      exact Finset.sum_congr rfl fun q _ => by ring
    exact g _
  rw [e, hk.2] at h
  nlinarith

/-- Twice the covariance is at most the sum of the variances. -/
theorem weighted_cov (hk : Weights k) (x y : P → ℝ) :
    2 * |∑ q, k q * (x q * y q) - (∑ q, k q * x q) * ∑ q, k q * y q| ≤
      (∑ q, k q * (x q * x q) - (∑ q, k q * x q) * ∑ q, k q * x q) +
        (∑ q, k q * (y q * y q) - (∑ q, k q * y q) * ∑ q, k q * y q) := by
  have h1 := weighted_sq k hk (fun q => x q + y q)
  have h2 := weighted_sq k hk (fun q => x q - y q)
  have e1 : ∑ q, k q * (x q + y q) = (∑ q, k q * x q) + ∑ q, k q * y q := by
    rw [← Finset.sum_add_distrib]; exact Finset.sum_congr rfl fun q _ => by ring
  have e2 : ∑ q, k q * (x q - y q) = (∑ q, k q * x q) - ∑ q, k q * y q := by
    rw [← Finset.sum_sub_distrib]; exact Finset.sum_congr rfl fun q _ => by ring
  have e3 : ∑ q, k q * ((x q + y q) * (x q + y q)) =
      (∑ q, k q * (x q * x q)) + 2 * (∑ q, k q * (x q * y q)) + ∑ q, k q * (y q * y q) := by
    rw [Finset.mul_sum, ← Finset.sum_add_distrib, ← Finset.sum_add_distrib]
    exact Finset.sum_congr rfl fun q _ => by ring
  have e4 : ∑ q, k q * ((x q - y q) * (x q - y q)) =
      (∑ q, k q * (x q * x q)) - 2 * (∑ q, k q * (x q * y q)) + ∑ q, k q * (y q * y q) := by
    rw [Finset.mul_sum, ← Finset.sum_sub_distrib, ← Finset.sum_add_distrib]
    exact Finset.sum_congr rfl fun q _ => by ring
  rw [e1, e3] at h1
  rw [e2, e4] at h2
  rw [← abs_two, ← abs_mul, abs_le]
  norm_num
  constructor <;> nlinarith

/-- The computed covariance and the real one. -/
theorem covRounded_near (F : (P → ℝ) → ℝ) (hk : Weights k) (hF : Accurate k F) (x y : P → ℝ) (M norm : ℝ)
    (hx : ∀ q, |x q| ≤ M) (hy : ∀ q, |y q| ≤ M) (hM : 0 ≤ M) (hn : 0 ≤ norm) (hn2 : norm ≤ 2) :
    |covRounded norm (fl 24 (F fun q => fl 24 (x q * y q))) (fl 24 (F x)) (fl 24 (F y))
      - norm * (∑ q, k q * (x q * y q) - (∑ q, k q * x q) * ∑ q, k q * y q)| ≤ 41 * (M * M) / 2 ^ 24 := by
  have gx := hF x M hx
  have gy := hF y M hy
  have bx := weighted_abs_le k hk x M hx
  have by' := weighted_abs_le k hk y M hy
  have hxy : ∀ q, |x q * y q| ≤ M * M := fun q => by
    rw [abs_mul]; exact mul_le_mul (hx q) (hy q) (abs_nonneg _) hM
  have bxy := weighted_abs_le k hk (fun q => x q * y q) (M * M) hxy
  have gxy := hF (fun q => fl 24 (x q * y q)) (M * M * (1 + 1 / 2 ^ 24)) (fun q =>
    (abs_fl_le 24 _).trans (mul_le_mul_of_nonneg_right (hxy q) (by norm_num)))
  have gd : |∑ q, k q * fl 24 (x q * y q) - ∑ q, k q * (x q * y q)| ≤ M * M / 2 ^ 24 := by
    rw [← Finset.sum_sub_distrib]
    simp only [← mul_sub]
    exact weighted_abs_le k hk _ _ fun q => (fl_error 24 _).trans (div_le_div_of_nonneg_right (hxy q) (by norm_num))
  generalize fl 24 (F fun q => fl 24 (x q * y q)) = uxy at *
  generalize fl 24 (F x) = ux at *
  generalize fl 24 (F y) = uy at *
  generalize ∑ q, k q * fl 24 (x q * y q) = s1 at *
  generalize ∑ q, k q * (x q * y q) = exy at *
  generalize ∑ q, k q * x q = ex at *
  generalize ∑ q, k q * y q = ey at *
  have hMM : 0 ≤ M * M := mul_nonneg hM hM
  unfold covRounded
  have a1 : |ux| ≤ M * (1 + 1 / 2 ^ 22) := by
    have := abs_sub_abs_le_abs_sub ux ex
    linarith
  have a2 : |uy| ≤ M * (1 + 1 / 2 ^ 22) := by
    have := abs_sub_abs_le_abs_sub uy ey
    linarith
  -- the product of the means
  have b1 : |ux * uy - ex * ey| ≤ M * M * (9 / 2 ^ 24) := by
    have e : ux * uy - ex * ey = (ux - ex) * uy + ex * (uy - ey) := by ring
    rw [e]
    refine (abs_add_le _ _).trans ?_
    rw [abs_mul, abs_mul]
    have c1 := mul_le_mul gx a2 (abs_nonneg _) (by positivity)
    have c2 := mul_le_mul bx gy (abs_nonneg _) hM
    norm_num at *
    nlinarith
  have b2 : |ux * uy| ≤ M * M * (1 + 3 / 2 ^ 22) := by
    rw [abs_mul]
    have := mul_le_mul a1 a2 (abs_nonneg _) (by positivity)
    norm_num at *
    nlinarith
  have b3 : |fl 24 (ux * uy) - ux * uy| ≤ M * M * (1 + 3 / 2 ^ 22) / 2 ^ 24 :=
    (fl_error 24 (ux * uy)).trans (div_le_div_of_nonneg_right b2 (by norm_num))
  generalize fl 24 (ux * uy) = pr at *
  have hcov : |exy - ex * ey| ≤ M * M * 2 := by
    have h1 := abs_mul ex ey
    have h2 := mul_le_mul bx by' (abs_nonneg _) hM
    have h3 := abs_sub exy (ex * ey)
    linarith
  have d1 : |uxy - pr - (exy - ex * ey)| ≤ M * M * (31 / 2 / 2 ^ 24) := by
    have g1 := abs_le.1 gxy
    have g2 := abs_le.1 gd
    have g3 := abs_le.1 b1
    have g4 := abs_le.1 b3
    rw [abs_le]
    norm_num at g1 g2 g3 g4 ⊢
    constructor <;> linarith
  have d2 : |uxy - pr| ≤ M * M * (9 / 4) := by
    have g1 := abs_le.1 d1
    have g2 := abs_le.1 hcov
    rw [abs_le]
    norm_num at g1 g2 ⊢
    constructor <;> linarith
  have d3 : |fl 24 (uxy - pr) - (uxy - pr)| ≤ M * M * (9 / 4) / 2 ^ 24 :=
    (fl_error 24 _).trans (div_le_div_of_nonneg_right d2 (by norm_num))
  generalize fl 24 (uxy - pr) = d at *
  have d4 : |d - (exy - ex * ey)| ≤ M * M * (71 / 4 / 2 ^ 24) := by
    have g1 := abs_le.1 d1
    have g2 := abs_le.1 d3
    rw [abs_le]
    norm_num at g1 g2 ⊢
    constructor <;> linarith
  have d5 : |d| ≤ M * M * (9 / 4) := by
    have g1 := abs_le.1 d4
    have g2 := abs_le.1 hcov
    rw [abs_le]
    norm_num at g1 g2 ⊢
    constructor <;> linarith
  have f1 : |norm * d - norm * (exy - ex * ey)| ≤ 2 * (M * M * (71 / 4 / 2 ^ 24)) := by
    rw [← mul_sub, abs_mul, abs_of_nonneg hn]
    exact mul_le_mul hn2 d4 (abs_nonneg _) (by norm_num)
  have f2 : |norm * d| ≤ 2 * (M * M * (9 / 4)) := by
    rw [abs_mul, abs_of_nonneg hn]
    exact mul_le_mul hn2 d5 (abs_nonneg _) (by norm_num)
  have f3 : |fl 24 (norm * d) - norm * d| ≤ 2 * (M * M * (9 / 4)) / 2 ^ 24 :=
    (fl_error 24 _).trans (div_le_div_of_nonneg_right f2 (by norm_num))
  have g1 := abs_le.1 f1
  have g2 := abs_le.1 f3
  rw [abs_le]
  norm_num at g1 g2 ⊢
  constructor <;> linarith
end

/-- The luminance is at most 1 up to seven units of rounding. -/
theorem luminance_le (big c1 u w : ℝ) (hu : Representable 24 u) (hc : 0 ≤ c1) :
    |luminanceRounded big c1 u w| ≤ 1 + 1 / 2 ^ 21 := by
  unfold luminanceRounded
  have e : fl 24 (fl 24 (2 * u) * w) = 2 * fl 24 (u * w) := by
    rw [fl_two_mul, fl_of_representable p24 hu, mul_assoc, fl_two_mul]
  rw [e]
  set S := u * u + w * w + c1 with hS
  have hS0 : 0 ≤ S := by nlinarith [mul_self_nonneg u, mul_self_nonneg w]
  have n1 : |fl 24 (2 * fl 24 (u * w) + c1)| ≤ S * (1 + 1 / 2 ^ 24) ^ 2 := by
    refine (abs_fl_le 24 _).trans ?_
    have a1 := abs_fl_le 24 (u * w)
    have a2 := abs_add_le (2 * fl 24 (u * w)) c1
    rw [abs_mul, abs_two, abs_of_nonneg hc] at a2
    have a3 : 2 * |u * w| ≤ u * u + w * w := by
      rw [abs_mul]
      nlinarith [sq_nonneg (|u| - |w|), abs_mul_abs_self u, abs_mul_abs_self w]
    have a4 : |2 * fl 24 (u * w) + c1| ≤ S * (1 + 1 / 2 ^ 24) := by
      rw [hS]
      linarith
    calc _ ≤ S * (1 + 1 / 2 ^ 24) * (1 + 1 / 2 ^ 24) := mul_le_mul_of_nonneg_right a4 (by norm_num)
      _ = _ := by ring
  have n2 : S * (1 - 1 / 2 ^ 24) ^ 3 ≤ fl 24 (fl 24 (fl 24 (u * u) + fl 24 (w * w)) + c1) := by
    have a1 := mul_le_fl 24 (mul_self_nonneg u)
    have a2 := mul_le_fl 24 (mul_self_nonneg w)
    have b1 := fl_nonneg p24 (mul_self_nonneg u)
    have b2 := fl_nonneg p24 (mul_self_nonneg w)
    have a3 := mul_le_fl 24 (add_nonneg b1 b2)
    have b3 := fl_nonneg p24 (add_nonneg b1 b2)
    have a4 := mul_le_fl 24 (add_nonneg b3 hc)
    have q : S * (1 - 1 / 2 ^ 24) ^ 2 ≤ fl 24 (fl 24 (u * u) + fl 24 (w * w)) + c1 := by
      norm_num at a1 a2 a3 ⊢
      nlinarith
    refine le_trans ?_ a4
    calc _ = S * (1 - 1 / 2 ^ 24) ^ 2 * (1 - 1 / 2 ^ 24) := by ring
      _ ≤ _ := mul_le_mul_of_nonneg_right q (by norm_num)
  generalize fl 24 (2 * fl 24 (u * w) + c1) = A at *
  generalize fl 24 (fl 24 (fl 24 (u * u) + fl 24 (w * w)) + c1) = B at *
  rcases eq_or_lt_of_le hS0 with h | h
  · rw [← h, zero_mul] at n1
    have hA : A = 0 := abs_nonpos_iff.1 n1
    by_cases hB : B = 0
    · rw [hA, hB, divRounded_zero]; simp [nanToNum]
    · rw [divRounded_ne _ _ hB, hA, zero_div, fl_zero]; simp [nanToNum]; norm_num
  · have hB : 0 < B := lt_of_lt_of_le (mul_pos h (by norm_num)) n2
    rw [divRounded_ne _ _ hB.ne']
    simp only [nanToNum]
    have r1 : |A / B| ≤ (1 + 1 / 2 ^ 24) ^ 2 / (1 - 1 / 2 ^ 24) ^ 3 := by
      rw [abs_div, abs_of_pos hB]
      calc |A| / B ≤ S * (1 + 1 / 2 ^ 24) ^ 2 / (S * (1 - 1 / 2 ^ 24) ^ 3) :=
            div_le_div₀ (by positivity) n1 (mul_pos h (by norm_num)) n2
        _ = _ := mul_div_mul_left _ _ h.ne'
    refine (abs_fl_le 24 _).trans ((mul_le_mul_of_nonneg_right r1 (by norm_num)).trans ?_)
    norm_num

/-- Contrast times structure is at most 1 up to 1/80, given nearly the variances and the covariance of some
numbers. -/
theorem contrast_structure_le (big c2 vx vy vxy a b w e : ℝ) (hc : 0 < c2) (he : 4 * e ≤ c2 * (3 / 250))
    (hw : 2 * |w| ≤ a + b) (h1 : |vx - a| ≤ e) (h2 : |vy - b| ≤ e) (h3 : |vxy - w| ≤ e) :
    |contrastRounded big c2 vx vy * structureRounded big (c2 / 2) vx vy vxy| ≤ 1 + 1 / 80 := by
  unfold contrastRounded structureRounded
  by_cases hneg : vx < 0 ∨ vy < 0
  · rw [if_pos hneg, if_pos hneg]
    simp [nanToNum]
  · rw [if_neg hneg, if_neg hneg]
    push Not at hneg
    have hsx := fl_nonneg p24 (Real.sqrt_nonneg vx)
    have hsy := fl_nonneg p24 (Real.sqrt_nonneg vy)
    have e1 : fl 24 (fl 24 (fl 24 (2 * fl 24 (Real.sqrt vx)) * fl 24 (Real.sqrt vy)) + c2)
        = 2 * fl 24 (fl 24 (fl 24 (Real.sqrt vx) * fl 24 (Real.sqrt vy)) + c2 / 2) := by
      rw [fl_two_mul 24 (fl 24 (Real.sqrt vx)), fl_fl p24, mul_assoc, fl_two_mul 24 (_ * _), ← fl_two_mul 24 (_ + _)]
      congr 1
      ring
    rw [e1]
    have hD : 0 < fl 24 (fl 24 (fl 24 (Real.sqrt vx) * fl 24 (Real.sqrt vy)) + c2 / 2) :=
      fl_pos p24 (add_pos_of_nonneg_of_pos (fl_nonneg p24 (mul_nonneg hsx hsy)) (by linarith))
    generalize fl 24 (fl 24 (fl 24 (Real.sqrt vx) * fl 24 (Real.sqrt vy)) + c2 / 2) = D at *
    have hv : 0 ≤ vx + vy := add_nonneg hneg.1 hneg.2
    set S := vx + vy + c2 with hS
    have hS0 : 0 < S := by linarith
    have hB : S * (1 - 1 / 2 ^ 24) ^ 2 ≤ fl 24 (fl 24 (vx + vy) + c2) := by
      have a1 := mul_le_fl 24 hv
      have b1 := fl_nonneg p24 hv
      have a2 := mul_le_fl 24 (add_nonneg b1 hc.le)
      refine le_trans ?_ a2
      have q : S * (1 - 1 / 2 ^ 24) ≤ fl 24 (vx + vy) + c2 := by
        norm_num at a1 ⊢
        nlinarith
      calc _ = S * (1 - 1 / 2 ^ 24) * (1 - 1 / 2 ^ 24) := by ring
        _ ≤ _ := mul_le_mul_of_nonneg_right q (by norm_num)
    have hA : 2 * |fl 24 (vxy + c2 / 2)| ≤ S * (1 + 3 / 250) * (1 + 1 / 2 ^ 24) := by
      have a1 := abs_fl_le 24 (vxy + c2 / 2)
      have a2 : 2 * |vxy + c2 / 2| ≤ S * (1 + 3 / 250) := by
        have := abs_add_le vxy (c2 / 2)
        rw [abs_of_pos (by linarith : 0 < c2 / 2)] at this
        have t1 := abs_sub_abs_le_abs_sub vxy w
        have t2 := (abs_le.1 h1).1
        have t3 := (abs_le.1 h2).1
        nlinarith
      nlinarith
    have hB0 : 0 < fl 24 (fl 24 (vx + vy) + c2) := lt_of_lt_of_le (mul_pos hS0 (by norm_num)) hB
    generalize fl 24 (fl 24 (vx + vy) + c2) = B at *
    generalize fl 24 (vxy + c2 / 2) = A at *
    rw [divRounded_ne _ _ hB0.ne', divRounded_ne _ _ hD.ne']
    simp only [nanToNum]
    rw [abs_mul]
    have r1 := abs_fl_le 24 (2 * D / B)
    have r2 := abs_fl_le 24 (A / D)
    have r3 : |2 * D / B| * |A / D| ≤ (1 + 3 / 250) * (1 + 1 / 2 ^ 24) / (1 - 1 / 2 ^ 24) ^ 2 := by
      rw [← abs_mul]
      have e2 : 2 * D / B * (A / D) = 2 * A / B := by field_simp
      rw [e2, abs_div, abs_mul, abs_two, abs_of_pos hB0]
      calc 2 * |A| / B ≤ S * (1 + 3 / 250) * (1 + 1 / 2 ^ 24) / (S * (1 - 1 / 2 ^ 24) ^ 2) :=
            div_le_div₀ (by positivity) hA (mul_pos hS0 (by norm_num)) hB
        _ = S * ((1 + 3 / 250) * (1 + 1 / 2 ^ 24)) / (S * (1 - 1 / 2 ^ 24) ^ 2) := by ring
        _ = _ := mul_div_mul_left _ _ hS0.ne'
    calc |fl 24 (2 * D / B)| * |fl 24 (A / D)|
        ≤ (|2 * D / B| * (1 + 1 / 2 ^ 24)) * (|A / D| * (1 + 1 / 2 ^ 24)) :=
          mul_le_mul r1 r2 (abs_nonneg _) (by positivity)
      _ = (|2 * D / B| * |A / D|) * (1 + 1 / 2 ^ 24) ^ 2 := by ring
      _ ≤ ((1 + 3 / 250) * (1 + 1 / 2 ^ 24) / (1 - 1 / 2 ^ 24) ^ 2) * (1 + 1 / 2 ^ 24) ^ 2 :=
          mul_le_mul_of_nonneg_right r3 (by norm_num)
      _ ≤ _ := by norm_num

/-- The statement of C139 for one position, for windows of the type `P`: the index is at most 1 in absolute
value up to 1/64, under the condition `C` on the largest absolute pixel value and the constant `c2`. -/
def SsimBounded (C : ℝ → ℝ → Prop) : Prop :=
  ∀ (P : Type) [Fintype P] (k : P → ℝ) (F : (P → ℝ) → ℝ) (x y : P → ℝ) (big norm c1 c2 M : ℝ),
    Weights k → Accurate k F → (∀ q, |x q| ≤ M) → (∀ q, |y q| ≤ M) → (∀ q, Representable 24 (x q)) →
    (∀ q, Representable 24 (y q)) → 0 ≤ norm → norm ≤ 2 → 0 ≤ c1 → 0 < c2 → C M c2 →
    |ssimRounded big norm c1 c2 (localStats F x y)| ≤ 1 + 1 / 64

/-- **C139**, one position: the index is at most 1 up to 1/64 if no pixel is larger than the data range times
about 1.04. -/
theorem C139_local_partial : SsimBounded (fun M c2 => M * M ≤ 1200 * c2) := by
  intro P _ k F x y big norm c1 c2 M hk hF hx hy _ _ hn hn2 h1 h2 hC
  have hM : 0 ≤ M := by
    by_contra h
    have : ∀ q : P, False := fun q => absurd ((abs_nonneg _).trans (hx q)) h
    have e : ∑ q, k q = 0 := Finset.sum_eq_zero fun q _ => (this q).elim
    rw [hk.2] at e
    norm_num at e
  have nxy := covRounded_near k F hk hF x y M norm hx hy hM hn hn2
  have nxx := covRounded_near k F hk hF x x M norm hx hx hM hn hn2
  have nyy := covRounded_near k F hk hF y y M norm hy hy hM hn hn2
  have hw := weighted_cov k hk x y
  unfold ssimRounded localStats
  simp only
  have hl := luminance_le big c1 (fl 24 (F x)) (fl 24 (F y)) (fl_representable 24 _) h1
  have hcs := contrast_structure_le big c2 _ _ _ _ _ _ _ h2 (by norm_num; linarith) (by
    have := mul_le_mul_of_nonneg_left hw hn
    rw [abs_mul, abs_of_nonneg hn]
    linarith) nxx nyy nxy
  generalize covRounded norm (fl 24 (F fun q => fl 24 (x q * x q))) (fl 24 (F x)) (fl 24 (F x)) = vx at *
  generalize covRounded norm (fl 24 (F fun q => fl 24 (y q * y q))) (fl 24 (F y)) (fl 24 (F y)) = vy at *
  generalize covRounded norm (fl 24 (F fun q => fl 24 (x q * y q))) (fl 24 (F x)) (fl 24 (F y)) = vxy at *
  generalize luminanceRounded big c1 (fl 24 (F x)) (fl 24 (F y)) = l at *
  generalize contrastRounded big c2 vx vy = c at *
  generalize structureRounded big (c2 / 2) vx vy vxy = s at *
  have t1 := abs_fl_le 24 (fl 24 (l * c) * s)
  have t2 := abs_fl_le 24 (l * c)
  rw [abs_mul] at t1 t2
  rw [abs_mul] at hcs
  have t3 : |fl 24 (l * c)| * |s| ≤ (1 + 1 / 2 ^ 21) * (1 + 1 / 80) * (1 + 1 / 2 ^ 24) := by
    calc |fl 24 (l * c)| * |s| ≤ |l| * |c| * (1 + 1 / 2 ^ 24) * |s| := mul_le_mul_of_nonneg_right t2 (abs_nonneg _)
      _ = |l| * (|c| * |s|) * (1 + 1 / 2 ^ 24) := by ring
      _ ≤ _ := mul_le_mul_of_nonneg_right (mul_le_mul hl hcs (by positivity) (by norm_num)) (by norm_num)
  refine t1.trans ((mul_le_mul_of_nonneg_right t3 (by norm_num)).trans ?_)
  norm_num

/-- The constants: the data range and the factor 0.03 as float64. -/
theorem ssimConst_ge (dr M : ℝ) (hM : 0 ≤ M) (h : M ≤ dr) : M * M ≤ 1200 * ssimConst (fl 53 (3 / 100)) dr := by
  unfold ssimConst
  have hdr : 0 ≤ dr := hM.trans h
  have k0 : 0 ≤ fl 53 ((3 : ℝ) / 100) := fl_nonneg (by norm_num) (by norm_num)
  have k1 := mul_le_fl 53 (by norm_num : (0 : ℝ) ≤ 3 / 100)
  have p0 := fl_nonneg (p := 53) (by norm_num) (mul_nonneg k0 hdr)
  have p1 := mul_le_fl 53 (mul_nonneg k0 hdr)
  have q0 := fl_nonneg (p := 53) (by norm_num) (mul_nonneg p0 p0)
  have q1 := mul_le_fl 53 (mul_nonneg p0 p0)
  have r1 := mul_le_fl 24 q0
  generalize fl 53 ((3 : ℝ) / 100) = k at *
  generalize fl 53 (k * dr) = a at *
  generalize fl 53 (a * a) = b at *
  generalize fl 24 b = c at *
  have a1 : M * (149 / 5000) ≤ a := by
    have : M * (299 / 10000) ≤ k * dr := by
      have hk : 299 / 10000 ≤ k := by norm_num at k1 ⊢; linarith
      nlinarith [mul_le_mul h hk (by norm_num) hdr]
    norm_num at p1 ⊢
    nlinarith
  have a2 : M * (149 / 5000) * (M * (149 / 5000)) ≤ a * a := mul_le_mul a1 a1 (by positivity) p0
  have hMM : 0 ≤ M * M := mul_nonneg hM hM
  norm_num at q1 r1 a2 ⊢
  nlinarith

/-- **C139**, partially: the SSIM of images with no pixel larger than the data range, with `k_2 = 0.03`, lies
between -1 and 1 up to 1/64 in floating point arithmetic, for every accurate filter and every order of the last
additions. Missing: images with pixels far larger than the data range, see `C139_refuted`. -/
theorem C139_bounded_partial {P Q : Type} [Fintype P] (k : P → ℝ) (hk : Weights k) (F : Q → (P → ℝ) → ℝ)
    (hF : ∀ q, Accurate k (F q)) (x y : Q → P → ℝ) (big norm c1 dr : ℝ) (hn : 0 ≤ norm) (hn2 : norm ≤ 2)
    (h1 : 0 ≤ c1) (hdr : 0 < dr) (hx : ∀ q i, |x q i| ≤ dr) (hy : ∀ q i, |y q i| ≤ dr)
    (rx : ∀ q i, Representable 24 (x q i)) (ry : ∀ q i, Representable 24 (y q i))
    (pos : List Q) (hpos : pos.length ≤ 2 ^ 40) (t : Summation)
    (ht : t.leaves = pos.map (fun q => ssimRounded big norm c1 (ssimConst (fl 53 (3 / 100)) dr) (localStats (F q) (x q) (y q)))) :
    |meanRounded 53 t| ≤ 1 + 1 / 64 := by
  have hc2 : 0 < ssimConst (fl 53 (3 / 100)) dr := by
    have := ssimConst_ge dr dr hdr.le le_rfl
    nlinarith [mul_pos hdr hdr]
  have hsz : (t.size : ℤ) ≤ 2 ^ 40 := by
    unfold Summation.size
    rw [ht, List.length_map]
    exact_mod_cast hpos
  have := meanRounded_bounds 53 (by norm_num) t (-65) 65 (-6)
    (by rw [abs_neg, abs_of_nonneg (by norm_num)]; nlinarith) (by rw [abs_of_nonneg (by norm_num)]; nlinarith) (by
      intro v hv
      rw [ht, List.mem_map] at hv
      obtain ⟨q, -, rfl⟩ := hv
      have := abs_le.1 (C139_local_partial P k (F q) (x q) (y q) big norm c1 _ dr hk (hF q) (hx q) (hy q) (rx q) (ry q) hn hn2 h1 hc2
        (ssimConst_ge dr dr hdr.le le_rfl))
      constructor
      · have h := this.1
        norm_num at h ⊢
        linarith
      · have h := this.2
        norm_num at h ⊢
        linarith)
  rw [abs_le]
  constructor
  · have h := this.1
    norm_num at h ⊢
    linarith
  · have h := this.2
    norm_num at h ⊢
    linarith

/-- A rounding computed with rational numbers. -/
theorem fl_value (p : ℕ) (x v : ℚ) (h : fl p x = v) : fl p (x : ℝ) = (v : ℝ) := by rw [← fl_ratCast, h]

/-- A row of seven pixels: `n` times 3000.25, then 3000. -/
def stripe (n i : ℕ) : ℚ := if i < n then 12001 / 4 else 3000

/-- An image of 7 × 7 pixels with equal rows. -/
noncomputable def stripes (n : ℕ) : Fin 7 × Fin 7 → ℝ := fun q => (stripe n q.2.val : ℝ)

theorem stripes_values (n : ℕ) (q : Fin 7 × Fin 7) : stripes n q = 3000.25 ∨ stripes n q = 3000 := by
  unfold stripes stripe
  split
  · left; norm_num
  · right; norm_num

theorem stripes_representable (n : ℕ) (q : Fin 7 × Fin 7) : Representable 24 (stripes n q) := by
  rcases stripes_values n q with h | h
  · exact ⟨12001, -2, by norm_num, by rw [h]; norm_num⟩
  · exact ⟨3000, 0, by norm_num, by rw [h]; norm_num⟩

/-- The window of the default size: 7 × 7 pixels. -/
theorem box_weights : Weights (fun _ : Fin 7 × Fin 7 => (1 : ℝ) / 49) :=
  ⟨fun _ => by norm_num, by simp [Finset.sum_const]⟩

theorem box_stripes (f : Fin 7 × Fin 7 → ℝ) (g : ℕ → ℚ) (h : ∀ q, f q = (g q.2.val : ℝ)) (v : ℚ)
    (hv : fl 24 ((g 0 + g 1 + g 2 + g 3 + g 4 + g 5 + g 6) / 7) = v) :
    fl 24 (∑ q : Fin 7 × Fin 7, 1 / 49 * f q) = (v : ℝ) := by
  rw [← fl_value 24 _ v hv]
  congr 1
  simp only [h, Fintype.sum_prod_type, Fin.sum_univ_seven]
  push_cast
  norm_num
  ring

/-- The five means of the two images. -/
theorem stripes_stats : localStats (fun z => ∑ q : Fin 7 × Fin 7, 1 / 49 * z q) (stripes 1) (stripes 3) =
    ⟨((6144073 / 2048 : ℚ) : ℝ), ((12288439 / 4096 : ℚ) : ℝ), ((9000214 : ℚ) : ℝ), ((9000643 : ℚ) : ℝ), ((9000429 : ℚ) : ℝ)⟩ := by
  have hp : ∀ (a b : ℕ) (q : Fin 7 × Fin 7),
      fl 24 (stripes a q * stripes b q) = ((fl 24 (stripe a q.2.val * stripe b q.2.val) : ℚ) : ℝ) := by
    intro a b q
    rw [fl_ratCast, Rat.cast_mul]
    rfl
  unfold localStats
  simp only
  rw [box_stripes (stripes 1) (stripe 1) (fun _ => rfl) (6144073 / 2048) (by decide +kernel),
    box_stripes (stripes 3) (stripe 3) (fun _ => rfl) (12288439 / 4096) (by decide +kernel),
    box_stripes (fun q => fl 24 (stripes 1 q * stripes 1 q)) (fun i => fl 24 (stripe 1 i * stripe 1 i)) (hp 1 1) 9000214
      (by decide +kernel),
    box_stripes (fun q => fl 24 (stripes 3 q * stripes 3 q)) (fun i => fl 24 (stripe 3 i * stripe 3 i)) (hp 3 3) 9000643
      (by decide +kernel),
    box_stripes (fun q => fl 24 (stripes 1 q * stripes 3 q)) (fun i => fl 24 (stripe 1 i * stripe 3 i)) (hp 1 3) 9000429
      (by decide +kernel)]

theorem covRounded_cast (n a b c : ℚ) :
    covRounded (n : ℝ) (a : ℝ) (b : ℝ) (c : ℝ) = ((fl 24 (n * fl 24 (a - fl 24 (b * c))) : ℚ) : ℝ) := by
  unfold covRounded
  simp only [fl_ratCast, Rat.cast_mul, Rat.cast_sub]

/-- Luminance of rational means. -/
theorem luminance_cast (big : ℝ) (c a b : ℚ)
    (h : fl 24 (fl 24 (fl 24 (a * a) + fl 24 (b * b)) + c) ≠ 0) :
    luminanceRounded big (c : ℝ) (a : ℝ) (b : ℝ) = ((fl 24 (fl 24 (fl 24 (fl 24 (2 * a) * b) + c) /
      fl 24 (fl 24 (fl 24 (a * a) + fl 24 (b * b)) + c)) : ℚ) : ℝ) := by
  unfold luminanceRounded
  have h' : fl 24 (fl 24 (fl 24 ((a : ℝ) * a) + fl 24 ((b : ℝ) * b)) + (c : ℝ)) ≠ 0 := by
    have := (Rat.cast_ne_zero (α := ℝ)).2 h
    simpa only [fl_ratCast, Rat.cast_mul, Rat.cast_add] using this
  rw [divRounded_ne _ _ h']
  simp only [nanToNum, fl_ratCast, Rat.cast_mul, Rat.cast_add, Rat.cast_div, Rat.cast_ofNat]

/-- The index of the two images with the data range 1 and default arguments is larger than 2000. -/
theorem C139_actual (big : ℝ) : 2000 ≤ ssimRounded big (fl 24 (49 / 48)) (ssimConst (fl 53 (1 / 100)) 1)
    (ssimConst (fl 53 (3 / 100)) 1)
    (localStats (fun z => ∑ q : Fin 7 × Fin 7, 1 / 49 * z q) (stripes 1) (stripes 3)) := by
  have hn : fl 24 ((49 : ℝ) / 48) = ((8563371 / 8388608 : ℚ) : ℝ) := by
    rw [← fl_value 24 (49 / 48) _ (by decide +kernel)]; push_cast; rfl
  have hc : ∀ k : ℚ, ssimConst (fl 53 (k : ℝ)) 1 = ((fl 24 (fl 53 (fl 53 (fl 53 k * 1) * fl 53 (fl 53 k * 1))) : ℚ) : ℝ) := by
    intro k
    unfold ssimConst
    simp only [fl_ratCast, Rat.cast_mul, Rat.cast_one]
  have h1 : ssimConst (fl 53 ((1 : ℝ) / 100)) 1 = ((13743895 / 137438953472 : ℚ) : ℝ) := by
    have := hc (1 / 100)
    rw [show fl 24 (fl 53 (fl 53 (fl 53 (1 / 100 : ℚ) * 1) * fl 53 (fl 53 (1 / 100) * 1))) = 13743895 / 137438953472 by decide +kernel] at this
    rw [← this]; push_cast; rfl
  have h2 : ssimConst (fl 53 ((3 : ℝ) / 100)) 1 = ((7730941 / 8589934592 : ℚ) : ℝ) := by
    have := hc (3 / 100)
    rw [show fl 24 (fl 53 (fl 53 (fl 53 (3 / 100 : ℚ) * 1) * fl 53 (fl 53 (3 / 100) * 1))) = 7730941 / 8589934592 by decide +kernel] at this
    rw [← this]; push_cast; rfl
  rw [hn, h1, h2, stripes_stats]
  unfold ssimRounded
  simp only
  rw [covRounded_cast, covRounded_cast, covRounded_cast, luminance_cast _ _ _ _ (by decide +kernel)]
  rw [show fl 24 (8563371 / 8388608 * fl 24 (9000214 - fl 24 (6144073 / 2048 * (6144073 / 2048))) : ℚ) = 0 by decide +kernel,
    show fl 24 (8563371 / 8388608 * fl 24 (9000643 - fl 24 (12288439 / 4096 * (12288439 / 4096))) : ℚ) = 0 by decide +kernel,
    show fl 24 (8563371 / 8388608 * fl 24 (9000429 - fl 24 (6144073 / 2048 * (12288439 / 4096))) : ℚ) = 8563371 / 8388608 by
      decide +kernel]
  have hcon : contrastRounded big ((7730941 / 8589934592 : ℚ) : ℝ) ((0 : ℚ) : ℝ) ((0 : ℚ) : ℝ) = 1 := by
    unfold contrastRounded
    have h0 : fl 24 ((7730941 / 8589934592 : ℚ) : ℝ) ≠ 0 := by
      rw [Ne, fl_eq_zero_iff p24]; norm_num
    simp only [Rat.cast_zero, Real.sqrt_zero, fl_zero, mul_zero, add_zero, zero_add, lt_irrefl, or_self, if_false]
    rw [divRounded_ne _ _ h0, div_self h0, fl_one]
    rfl
  have hstr : structureRounded big (((7730941 / 8589934592 : ℚ) : ℝ) / 2) ((0 : ℚ) : ℝ) ((0 : ℚ) : ℝ) ((8563371 / 8388608 : ℚ) : ℝ)
      = ((fl 24 (fl 24 (8563371 / 8388608 + 7730941 / 8589934592 / 2) / fl 24 (7730941 / 8589934592 / 2)) : ℚ) : ℝ) := by
    unfold structureRounded
    have h0 : fl 24 (((7730941 / 8589934592 : ℚ) : ℝ) / 2) ≠ 0 := by
      rw [Ne, fl_eq_zero_iff p24]; norm_num
    simp only [Rat.cast_zero, Real.sqrt_zero, fl_zero, mul_zero, zero_add, lt_irrefl, or_self, if_false]
    rw [divRounded_ne _ _ h0]
    simp only [nanToNum, fl_ratCast, Rat.cast_add, Rat.cast_div, Rat.cast_ofNat]
  rw [hcon, hstr, mul_one, ← fl_ratCast, ← Rat.cast_mul, ← fl_ratCast, ← Rat.cast_ofNat, Rat.cast_le]
  decide +kernel

/-- **C139 refuted:** with no condition on the pixel values SSIM exceeds 1, and by far. -/
theorem C139_refuted : ¬ SsimBounded (fun _ _ => True) := by
  intro h
  have hb : ∀ n q, |stripes n q| ≤ 4000 := by
    intro n q
    rcases stripes_values n q with e | e <;> rw [e] <;> norm_num [abs_of_pos]
  have hc : 0 < ssimConst (fl 53 (3 / 100)) 1 := by
    have := ssimConst_ge 1 1 zero_le_one le_rfl
    linarith
  have hc1 : 0 ≤ ssimConst (fl 53 (1 / 100)) 1 := by
    unfold ssimConst
    exact fl_nonneg p24 (fl_nonneg (by norm_num) (mul_self_nonneg _))
  have h1 := h (Fin 7 × Fin 7) (fun _ => 1 / 49) (fun z => ∑ q : Fin 7 × Fin 7, 1 / 49 * z q) (stripes 1) (stripes 3) 0
    (fl 24 (49 / 48)) (ssimConst (fl 53 (1 / 100)) 1) (ssimConst (fl 53 (3 / 100)) 1) 4000 box_weights
    (exact_accurate _ box_weights) (hb 1) (hb 3) (stripes_representable 1) (stripes_representable 3)
    (fl_nonneg p24 (by norm_num))
    ((fl_le_mul 24 (by norm_num)).trans (by norm_num)) hc1 hc trivial
  have h2 := C139_actual 0
  have h3 := le_abs_self (ssimRounded 0 (fl 24 (49 / 48)) (ssimConst (fl 53 (1 / 100)) 1) (ssimConst (fl 53 (3 / 100)) 1)
    (localStats (fun z => ∑ q : Fin 7 × Fin 7, 1 / 49 * z q) (stripes 1) (stripes 3)))
  linarith

/-- The partial result applied: the same two images with the data range 4000. -/
example (big : ℝ) : |ssimRounded big (fl 24 (49 / 48)) (ssimConst (fl 53 (1 / 100)) 4000) (ssimConst (fl 53 (3 / 100)) 4000)
    (localStats (fun z => ∑ q : Fin 7 × Fin 7, 1 / 49 * z q) (stripes 1) (stripes 3))| ≤ 1 + 1 / 64 := by
  have hb : ∀ n q, |stripes n q| ≤ 4000 := by
    intro n q
    rcases stripes_values n q with e | e <;> rw [e] <;> norm_num [abs_of_pos]
  have hc := ssimConst_ge 4000 4000 (by norm_num) le_rfl
  exact C139_local_partial _ _ _ _ _ _ _ _ _ 4000 box_weights (exact_accurate _ box_weights) (hb 1) (hb 3)
    (stripes_representable 1) (stripes_representable 3) (fl_nonneg p24 (by norm_num))
    ((fl_le_mul 24 (by norm_num)).trans (by norm_num))
    (by unfold ssimConst; exact fl_nonneg p24 (fl_nonneg (by norm_num) (mul_self_nonneg _))) (by linarith) hc

/-- C138 applied to an image whose variance is lost by rounding. -/
example (big : ℝ) : |ssimRounded big (fl 24 (49 / 48)) (ssimConst (fl 53 (1 / 100)) 1) (ssimConst (fl 53 (3 / 100)) 1)
    (localStats (fun z => ∑ q : Fin 7 × Fin 7, 1 / 49 * z q) (stripes 1) (stripes 1)) - 1| ≤ 1 / 2 ^ 22 :=
  C138_local _ _ _ _ _ _ (by unfold ssimConst; exact fl_nonneg p24 (fl_nonneg (by norm_num) (mul_self_nonneg _)))

/-- The mean over two positions. -/
example (big : ℝ) : |meanRounded 53 (.node
    (.leaf (ssimRounded big 1 1 (ssimConst (fl 53 (3 / 100)) 4000) (localStats (fun z => ∑ q : Fin 7 × Fin 7, 1 / 49 * z q) (stripes 1) (stripes 3))))
    (.leaf (ssimRounded big 1 1 (ssimConst (fl 53 (3 / 100)) 4000) (localStats (fun z => ∑ q : Fin 7 × Fin 7, 1 / 49 * z q) (stripes 2) (stripes 3)))))| ≤
    1 + 1 / 64 := by
  have hb : ∀ n q, |stripes n q| ≤ 4000 := by
    intro n q
    rcases stripes_values n q with e | e <;> rw [e] <;> norm_num [abs_of_pos]
  exact C139_bounded_partial (Q := Bool) _ box_weights (fun _ => _) (fun _ => exact_accurate _ box_weights) (fun b => stripes (if b then 1 else 2))
    (fun _ => stripes 3) big 1 1 4000 (by norm_num) (by norm_num) (by norm_num) (by norm_num) (fun _ => hb _) (fun _ => hb _)
    (fun _ => stripes_representable _) (fun _ => stripes_representable _) [true, false] (by norm_num) _ rfl

end Viqa
