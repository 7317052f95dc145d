import Verif.Props.SsimRounded
import Verif.Props.NoiseAccuracy

/-!
Property C194: accuracy of SSIM in floating point arithmetic.
-/

namespace Viqa

private theorem p24 : 1 ≤ 24 := by norm_num

/-- Mean and covariance of a window with the weights `k`, in exact arithmetic. -/
noncomputable def Spec.windowMean {P : Type} [Fintype P] (k x : P → ℝ) : ℝ := ∑ q, k q * x q
noncomputable def Spec.windowCov {P : Type} [Fintype P] (k x y : P → ℝ) : ℝ :=
  ∑ q, k q * ((x q - Spec.windowMean k x) * (y q - Spec.windowMean k y))

/-- The index of Wang et al. in exact arithmetic. -/
noncomputable def Spec.ssimIndex {P : Type} [Fintype P] (k : P → ℝ) (norm c1 c2 : ℝ) (x y : P → ℝ) : ℝ :=
  ((2 * (Spec.windowMean k x * Spec.windowMean k y) + c1) * (2 * (norm * Spec.windowCov k x y) + c2)) /
    ((Spec.windowMean k x ^ 2 + Spec.windowMean k y ^ 2 + c1) *
      (norm * Spec.windowCov k x x + norm * Spec.windowCov k y y + c2))

theorem windowCov_eq {P : Type} [Fintype P] (k x y : P → ℝ) (hk : Weights k) : Spec.windowCov k x y =
    ∑ q, k q * (x q * y q) - (∑ q, k q * x q) * ∑ q, k q * y q := by
  have g : ∀ m n : ℝ, ∑ q, k q * ((x q - m) * (y q - n)) =
      ∑ q, k q * (x q * y q) - m * (∑ q, k q * y q) - n * (∑ q, k q * x q) + m * n * ∑ q, k q := by
    intro m n
    rw [Finset.mul_sum, Finset.mul_sum, Finset.mul_sum, ← Finset.sum_sub_distrib, ← Finset.sum_sub_distrib,
      ← Finset.sum_add_distrib]
    exact Finset.sum_congr rfl fun q _ => by ring
  unfold Spec.windowCov
  rw [g, hk.2]
  unfold Spec.windowMean
  ring

/-- Quotients of nearby numbers. -/
theorem quotient_near (A B T S η : ℝ) (hS : 0 < S) (hA : |A - T| ≤ η * S) (hB : |B - S| ≤ η * S) (hT : |T| ≤ S)
    (h0 : 0 ≤ η) (h1 : η < 1) : 0 < B ∧ |A / B - T / S| ≤ 2 * η / (1 - η) := by
  have b1 := abs_le.1 hB
  have hB0 : S * (1 - η) ≤ B := by linarith [b1.1]
  have hp : 0 < S * (1 - η) := mul_pos hS (by linarith)
  have hB1 : 0 < B := lt_of_lt_of_le hp hB0
  refine ⟨hB1, ?_⟩
  have e : A / B - T / S = ((A - T) * S - T * (B - S)) / (S * B) := by field_simp; ring
  rw [e, abs_div, abs_of_pos (mul_pos hS hB1)]
  have n : |(A - T) * S - T * (B - S)| ≤ S * (S * (2 * η)) := by
    refine (abs_sub _ _).trans ?_
    rw [abs_mul, abs_mul, abs_of_pos hS]
    have m1 := mul_le_mul_of_nonneg_right hA hS.le
    have m2 := mul_le_mul hT hB (abs_nonneg _) hS.le
    nlinarith
  calc |(A - T) * S - T * (B - S)| / (S * B) ≤ S * (S * (2 * η)) / (S * (S * (1 - η))) :=
        div_le_div₀ (by positivity) n (mul_pos hS hp) (mul_le_mul_of_nonneg_left hB0 hS.le)
    _ = 2 * η / (1 - η) := by
        rw [mul_div_mul_left _ _ hS.ne', mul_div_mul_left _ _ hS.ne']

/-- Products of nearby numbers, the error compared with squares. -/
theorem product_near (ux uy ex ey t c1 : ℝ) (hx : |ux - ex| ≤ t) (hy : |uy - ey| ≤ t)
    (ht : 2 ^ 30 * (t * t) ≤ c1) :
    |ux * uy - ex * ey| ≤ (ex * ex + ey * ey + c1) / 2 ^ 15 := by
  have t0 : 0 ≤ t := (abs_nonneg _).trans hx
  have e : ux * uy - ex * ey = (ux - ex) * (uy - ey) + ((ux - ex) * ey + ex * (uy - ey)) := by ring
  have m1 : |(ux - ex) * (uy - ey)| ≤ t * t := by
    rw [abs_mul]; exact mul_le_mul hx hy (abs_nonneg _) t0
  have m2 : |(ux - ex) * ey| ≤ t * |ey| := by
    rw [abs_mul]; exact mul_le_mul_of_nonneg_right hx (abs_nonneg _)
  have m3 : |ex * (uy - ey)| ≤ t * |ex| := by
    rw [abs_mul, mul_comm]; exact mul_le_mul_of_nonneg_right hy (abs_nonneg _)
  have a1 := abs_add_le ((ux - ex) * (uy - ey)) ((ux - ex) * ey + ex * (uy - ey))
  have a2 := abs_add_le ((ux - ex) * ey) (ex * (uy - ey))
  have q1 := sq_nonneg (|ex| - 2 ^ 14 * t)
  have q2 := sq_nonneg (|ey| - 2 ^ 14 * t)
  have s1 := abs_mul_abs_self ex
  have s2 := abs_mul_abs_self ey
  rw [e, le_div_iff₀ (by norm_num)]
  have h : |(ux - ex) * (uy - ey) + ((ux - ex) * ey + ex * (uy - ey))| ≤ t * t + t * |ey| + t * |ex| := by linarith
  refine (mul_le_mul_of_nonneg_right h (by norm_num)).trans ?_
  norm_num at ht ⊢
  nlinarith [mul_self_nonneg t]

/-- The computed luminance and the exact one. -/
theorem luminance_near (big c1 M ux uy ex ey : ℝ) (hu : Representable 24 ux) (hc : 0 < c1) (hM : M * M ≤ 12000 * c1)
    (hx : |ux - ex| ≤ M / 2 ^ 22) (hy : |uy - ey| ≤ M / 2 ^ 22) :
    |luminanceRounded big c1 ux uy - (2 * (ex * ey) + c1) / (ex ^ 2 + ey ^ 2 + c1)| ≤ 1 / 4000 := by
  have ht : 2 ^ 30 * (M / 2 ^ 22 * (M / 2 ^ 22)) ≤ c1 := by
    have : (2 : ℝ) ^ 30 * (M / 2 ^ 22 * (M / 2 ^ 22)) = M * M / 2 ^ 14 := by norm_num; ring
    rw [this, div_le_iff₀ (by norm_num)]
    norm_num
    linarith
  have p1 := product_near ux uy ex ey _ c1 hx hy ht
  have p2 := product_near ux ux ex ex _ c1 hx hx ht
  have p3 := product_near uy uy ey ey _ c1 hy hy ht
  unfold luminanceRounded
  have e : fl 24 (fl 24 (2 * ux) * uy) = 2 * fl 24 (ux * uy) := by
    rw [fl_two_mul, fl_of_representable p24 hu, mul_assoc, fl_two_mul]
  rw [e, sq, sq]
  set S := ex * ex + ey * ey + c1 with hS
  have x0 := mul_self_nonneg ex
  have y0 := mul_self_nonneg ey
  have hS0 : 0 < S := by linarith
  have hxy : 2 * |ex * ey| ≤ ex * ex + ey * ey := by
    rw [abs_mul]
    nlinarith [sq_nonneg (|ex| - |ey|), abs_mul_abs_self ex, abs_mul_abs_self ey]
  have xy := abs_le.1 (le_refl |ex * ey|)
  have P1 := abs_le.1 p1
  have P2 := abs_le.1 p2
  have P3 := abs_le.1 p3
  have hN : |2 * (ex * ey) + c1| ≤ S := by
    rw [abs_le]
    constructor <;> linarith
  -- numerator
  have b1 : |ux * uy| ≤ S := by
    rw [abs_le]
    norm_num at P1 ⊢
    constructor <;> linarith
  have f1 := abs_le.1 ((fl_error 24 (ux * uy)).trans (div_le_div_of_nonneg_right b1 (by norm_num)))
  generalize fl 24 (ux * uy) = pr at *
  have b2 : |2 * pr + c1| ≤ 2 * S := by
    rw [abs_le]
    norm_num at P1 f1 ⊢
    constructor <;> linarith
  have f2 := abs_le.1 ((fl_error 24 (2 * pr + c1)).trans (div_le_div_of_nonneg_right b2 (by norm_num)))
  generalize fl 24 (2 * pr + c1) = A at *
  have hA : |A - (2 * (ex * ey) + c1)| ≤ 1 / 2 ^ 13 * S := by
    rw [abs_le]
    norm_num at P1 f1 f2 ⊢
    constructor <;> linarith
  -- denominator
  have d0 : |ux * ux| ≤ 2 * S := by
    rw [abs_le]
    norm_num at P2 ⊢
    constructor <;> linarith
  have d1 : |uy * uy| ≤ 2 * S := by
    rw [abs_le]
    norm_num at P3 ⊢
    constructor <;> linarith
  have g1 := abs_le.1 ((fl_error 24 (ux * ux)).trans (div_le_div_of_nonneg_right d0 (by norm_num)))
  have g2 := abs_le.1 ((fl_error 24 (uy * uy)).trans (div_le_div_of_nonneg_right d1 (by norm_num)))
  generalize fl 24 (ux * ux) = px at *
  generalize fl 24 (uy * uy) = py at *
  have d2 : |px + py| ≤ 2 * S := by
    rw [abs_le]
    norm_num at P2 P3 g1 g2 ⊢
    constructor <;> linarith
  have g3 := abs_le.1 ((fl_error 24 (px + py)).trans (div_le_div_of_nonneg_right d2 (by norm_num)))
  generalize fl 24 (px + py) = pp at *
  have d3 : |pp + c1| ≤ 2 * S := by
    rw [abs_le]
    norm_num at P2 P3 g1 g2 g3 ⊢
    constructor <;> linarith
  have g4 := abs_le.1 ((fl_error 24 (pp + c1)).trans (div_le_div_of_nonneg_right d3 (by norm_num)))
  generalize fl 24 (pp + c1) = B at *
  have hB : |B - S| ≤ 1 / 2 ^ 13 * S := by
    rw [abs_le]
    norm_num at P2 P3 g1 g2 g3 g4 ⊢
    constructor <;> linarith
  obtain ⟨hB0, hq⟩ := quotient_near A B (2 * (ex * ey) + c1) S (1 / 2 ^ 13) hS0 hA hB hN (by norm_num) (by norm_num)
  rw [divRounded_ne _ _ hB0.ne']
  simp only [nanToNum]
  have hT : |(2 * (ex * ey) + c1) / S| ≤ 1 := by
    rw [abs_div, abs_of_pos hS0]; exact (div_le_one hS0).2 hN
  have hQ : |A / B| ≤ 2 := by
    have q := abs_le.1 hq
    have r := abs_le.1 hT
    rw [abs_le]
    norm_num at q ⊢
    constructor <;> linarith
  have r1 := abs_le.1 ((fl_error 24 (A / B)).trans (div_le_div_of_nonneg_right hQ (by norm_num)))
  have q := abs_le.1 hq
  rw [abs_le]
  norm_num at q r1 ⊢
  constructor <;> linarith

/-- Contrast times structure and the exact value, unless a computed variance is negative. -/
theorem contrast_structure_near (big c2 vx vy vxy a b w e : ℝ) (hc : 0 < c2) (he : e ≤ c2 * (3 / 1000))
    (hw : 2 * |w| ≤ a + b) (h1 : |vx - a| ≤ e) (h2 : |vy - b| ≤ e) (h3 : |vxy - w| ≤ e) (hvx : 0 ≤ vx) (hvy : 0 ≤ vy) :
    |contrastRounded big c2 vx vy * structureRounded big (c2 / 2) vx vy vxy - (2 * w + c2) / (a + b + c2)| ≤ 1 / 80 := by
  unfold contrastRounded structureRounded
  have hneg : ¬ (vx < 0 ∨ vy < 0) := by push Not; exact ⟨hvx, hvy⟩
  rw [if_neg hneg, if_neg hneg]
  have hsx := fl_nonneg p24 (Real.sqrt_nonneg vx)
  have hsy := fl_nonneg p24 (Real.sqrt_nonneg vy)
  have e1 : fl 24 (fl 24 (fl 24 (2 * fl 24 (Real.sqrt vx)) * fl 24 (Real.sqrt vy)) + c2)
      = 2 * fl 24 (fl 24 (fl 24 (Real.sqrt vx) * fl 24 (Real.sqrt vy)) + c2 / 2) := by
    rw [fl_two_mul 24 (fl 24 (Real.sqrt vx)), fl_fl p24, mul_assoc, fl_two_mul 24 (_ * _), ← fl_two_mul 24 (_ + _)]
    congr 1
    ring
  rw [e1]
  have hD : 0 < fl 24 (fl 24 (fl 24 (Real.sqrt vx) * fl 24 (Real.sqrt vy)) + c2 / 2) :=
    fl_pos p24 (add_pos_of_nonneg_of_pos (fl_nonneg p24 (mul_nonneg hsx hsy)) (by linarith))
  generalize fl 24 (fl 24 (fl 24 (Real.sqrt vx) * fl 24 (Real.sqrt vy)) + c2 / 2) = D at *
  have w0 := abs_nonneg w
  set S := a + b + c2 with hS
  have hS0 : 0 < S := by linarith
  have hcS : c2 ≤ S := by linarith
  have H1 := abs_le.1 h1
  have H2 := abs_le.1 h2
  have H3 := abs_le.1 h3
  have W := abs_le.1 (le_refl |w|)
  have hT : |2 * w + c2| ≤ S := by
    rw [abs_le]
    constructor <;> linarith
  have b1 : |vxy + c2 / 2| ≤ S := by
    rw [abs_le]
    constructor <;> linarith
  have f1 := abs_le.1 ((fl_error 24 (vxy + c2 / 2)).trans (div_le_div_of_nonneg_right b1 (by norm_num)))
  generalize fl 24 (vxy + c2 / 2) = A at *
  have hA : |2 * A - (2 * w + c2)| ≤ 601 / 100000 * S := by
    rw [abs_le]
    norm_num at f1 ⊢
    constructor <;> linarith
  have b2 : |vx + vy| ≤ 2 * S := by
    rw [abs_le]
    constructor <;> linarith
  have f2 := abs_le.1 ((fl_error 24 (vx + vy)).trans (div_le_div_of_nonneg_right b2 (by norm_num)))
  generalize fl 24 (vx + vy) = v at *
  have b3 : |v + c2| ≤ 4 * S := by
    rw [abs_le]
    norm_num at f2 ⊢
    constructor <;> linarith
  have f3 := abs_le.1 ((fl_error 24 (v + c2)).trans (div_le_div_of_nonneg_right b3 (by norm_num)))
  generalize fl 24 (v + c2) = B at *
  have hB : |B - S| ≤ 601 / 100000 * S := by
    rw [abs_le]
    norm_num at f2 f3 ⊢
    constructor <;> linarith
  obtain ⟨hB0, hq⟩ := quotient_near (2 * A) B (2 * w + c2) S (601 / 100000) hS0 hA hB hT (by norm_num) (by norm_num)
  rw [divRounded_ne _ _ hB0.ne', divRounded_ne _ _ hD.ne']
  simp only [nanToNum]
  have hR : |(2 * w + c2) / S| ≤ 1 := by
    rw [abs_div, abs_of_pos hS0]; exact (div_le_one hS0).2 hT
  have hQ : |2 * A / B| ≤ 2 := by
    have q := abs_le.1 hq
    have r := abs_le.1 hR
    rw [abs_le]
    norm_num at q ⊢
    constructor <;> linarith
  -- the two roundings
  have e2 : 2 * D / B * (A / D) = 2 * A / B := by field_simp
  have r1 := fl_error 24 (2 * D / B)
  have r2 := fl_error 24 (A / D)
  generalize fl 24 (2 * D / B) = c at *
  generalize fl 24 (A / D) = s at *
  generalize 2 * D / B = c' at *
  generalize A / D = s' at *
  have k : |c * s - c' * s'| ≤ |c' * s'| * (3 / 2 ^ 24) := by
    have e3 : c * s - c' * s' = (c - c') * (s - s') + ((c - c') * s' + c' * (s - s')) := by ring
    have m1 : |(c - c') * (s - s')| ≤ |c'| / 2 ^ 24 * (|s'| / 2 ^ 24) := by
      rw [abs_mul]; exact mul_le_mul r1 r2 (abs_nonneg _) (by positivity)
    have m2 : |(c - c') * s'| ≤ |c'| / 2 ^ 24 * |s'| := by
      rw [abs_mul]; exact mul_le_mul_of_nonneg_right r1 (abs_nonneg _)
    have m3 : |c' * (s - s')| ≤ |c'| * (|s'| / 2 ^ 24) := by
      rw [abs_mul]; exact mul_le_mul_of_nonneg_left r2 (abs_nonneg _)
    have a1 := abs_add_le ((c - c') * (s - s')) ((c - c') * s' + c' * (s - s'))
    have a2 := abs_add_le ((c - c') * s') (c' * (s - s'))
    have z : 0 ≤ |c'| * |s'| := by positivity
    have p : (2 : ℝ) ^ 24 = 16777216 := by norm_num
    rw [p] at m1 m2 m3 ⊢
    rw [e3, abs_mul c' s']
    nlinarith
  rw [e2] at k
  have K := abs_le.1 (k.trans (mul_le_mul_of_nonneg_right hQ (by norm_num)))
  have q := abs_le.1 hq
  rw [abs_le]
  norm_num at q K ⊢
  constructor <;> linarith

/-- The statement of C194 for one position, for windows of the type `P`: the computed index is the exact one up to
1/64, for images with pixels up to about the data range and windows with the condition `C` on the largest absolute
pixel value and the two variances. -/
def SsimAccurate (C : ℝ → ℝ → ℝ → Prop) : Prop :=
  ∀ (P : Type) [Fintype P] (k : P → ℝ) (F : (P → ℝ) → ℝ) (x y : P → ℝ) (big norm c1 c2 M : ℝ),
    Weights k → Accurate k F → (∀ q, |x q| ≤ M) → (∀ q, |y q| ≤ M) → (∀ q, Representable 24 (x q)) →
    (∀ q, Representable 24 (y q)) → 1 ≤ norm → norm ≤ 2 → 0 < c1 → 0 < c2 → M * M ≤ 12000 * c1 → M * M ≤ 1200 * c2 →
    C M (norm * Spec.windowCov k x x) (norm * Spec.windowCov k y y) →
    |ssimRounded big norm c1 c2 (localStats F x y) - Spec.ssimIndex k norm c1 c2 x y| ≤ 1 / 64

/-- Both variances are larger than the error they are computed with, or none is. -/
def SameTexture (M a b : ℝ) : Prop :=
  (M * M / 400000 ≤ a ∧ M * M / 400000 ≤ b) ∨ (a ≤ M * M / 400000 ∧ b ≤ M * M / 400000)

/-- **C194**, one position: the computed index is the exact one up to 1/64 if both windows are nearly uniform or none is. -/
theorem C194_local_partial : SsimAccurate SameTexture := by
  intro P _ k F x y big norm c1 c2 M hk hF hx hy _ _ hn1 hn2 h1 h2 hC1 hC2 hT
  have hn : 0 ≤ norm := by linarith
  have hM : 0 ≤ M := by
    by_contra h
    have : ∀ q : P, False := fun q => absurd ((abs_nonneg _).trans (hx q)) h
    have e : ∑ q, k q = 0 := Finset.sum_eq_zero fun q _ => (this q).elim
    rw [hk.2] at e
    norm_num at e
  have nxy := covRounded_near k F hk hF x y M norm hx hy hM hn hn2
  have nxx := covRounded_near k F hk hF x x M norm hx hx hM hn hn2
  have nyy := covRounded_near k F hk hF y y M norm hy hy hM hn hn2
  have hw := weighted_cov k hk x y
  have vx0 := weighted_sq k hk x
  have vy0 := weighted_sq k hk y
  rw [← windowCov_eq k x y hk] at nxy hw
  rw [← windowCov_eq k x x hk] at nxx hw
  rw [← windowCov_eq k y y hk] at nyy hw
  have ax : 0 ≤ norm * Spec.windowCov k x x := mul_nonneg hn (by rw [windowCov_eq k x x hk]; nlinarith)
  have ay : 0 ≤ norm * Spec.windowCov k y y := mul_nonneg hn (by rw [windowCov_eq k y y hk]; nlinarith)
  have hw' : 2 * |norm * Spec.windowCov k x y| ≤ norm * Spec.windowCov k x x + norm * Spec.windowCov k y y := by
    have := mul_le_mul_of_nonneg_left hw hn
    rw [abs_mul, abs_of_nonneg hn]
    linarith
  have hl := luminance_near big c1 M (fl 24 (F x)) (fl 24 (F y)) (∑ q, k q * x q) (∑ q, k q * y q) (fl_representable 24 _) h1 hC1
    (hF x M hx) (hF y M hy)
  have hL : |(2 * (Spec.windowMean k x * Spec.windowMean k y) + c1) / (Spec.windowMean k x ^ 2 + Spec.windowMean k y ^ 2 + c1)| ≤ 1 := by
    have p : 0 < Spec.windowMean k x ^ 2 + Spec.windowMean k y ^ 2 + c1 := by positivity
    rw [abs_div, abs_of_pos p, div_le_one p, abs_le]
    constructor <;> nlinarith [sq_nonneg (Spec.windowMean k x + Spec.windowMean k y), sq_nonneg (Spec.windowMean k x - Spec.windowMean k y)]
  change |_ - (2 * (Spec.windowMean k x * Spec.windowMean k y) + c1) / (Spec.windowMean k x ^ 2 + Spec.windowMean k y ^ 2 + c1)| ≤ _ at hl
  have e : Spec.ssimIndex k norm c1 c2 x y =
      (2 * (Spec.windowMean k x * Spec.windowMean k y) + c1) / (Spec.windowMean k x ^ 2 + Spec.windowMean k y ^ 2 + c1) *
      ((2 * (norm * Spec.windowCov k x y) + c2) / (norm * Spec.windowCov k x x + norm * Spec.windowCov k y y + c2)) := by
    unfold Spec.ssimIndex
    rw [mul_div_mul_comm]
  rw [e]
  unfold ssimRounded localStats
  simp only
  generalize (2 * (Spec.windowMean k x * Spec.windowMean k y) + c1) / (Spec.windowMean k x ^ 2 + Spec.windowMean k y ^ 2 + c1) = L at *
  generalize norm * Spec.windowCov k x y = w at *
  generalize norm * Spec.windowCov k x x = a at *
  generalize norm * Spec.windowCov k y y = b at *
  generalize covRounded norm (fl 24 (F fun q => fl 24 (x q * x q))) (fl 24 (F x)) (fl 24 (F x)) = vx at *
  generalize covRounded norm (fl 24 (F fun q => fl 24 (y q * y q))) (fl 24 (F y)) (fl 24 (F y)) = vy at *
  generalize covRounded norm (fl 24 (F fun q => fl 24 (x q * y q))) (fl 24 (F x)) (fl 24 (F y)) = vxy at *
  generalize luminanceRounded big c1 (fl 24 (F x)) (fl 24 (F y)) = l at *
  have hMM : 0 ≤ M * M := mul_nonneg hM hM
  have w0 := abs_nonneg w
  have W := abs_le.1 (le_refl |w|)
  have hS0 : 0 < a + b + c2 := by linarith
  have hcs : |contrastRounded big c2 vx vy * structureRounded big (c2 / 2) vx vy vxy - (2 * w + c2) / (a + b + c2)| ≤ 1 / 80 := by
    by_cases hneg : vx < 0 ∨ vy < 0
    · have hs : contrastRounded big c2 vx vy * structureRounded big (c2 / 2) vx vy vxy = 1 := by
        unfold contrastRounded structureRounded
        rw [if_pos hneg, if_pos hneg]
        simp [nanToNum]
      have hab : a ≤ M * M / 400000 ∧ b ≤ M * M / 400000 := by
        rcases hT with h | h
        · have X := (abs_le.1 nxx).1
          have Y := (abs_le.1 nyy).1
          norm_num at X Y
          rcases hneg with g | g
          · exfalso; linarith [h.1]
          · exfalso; linarith [h.2]
        · exact h
      rw [hs, show 1 - (2 * w + c2) / (a + b + c2) = (a + b - 2 * w) / (a + b + c2) by field_simp; ring,
        abs_div, abs_of_pos hS0, div_le_iff₀ hS0, abs_le]
      constructor <;> linarith [hab.1, hab.2]
    · push Not at hneg
      exact contrast_structure_near big c2 vx vy vxy a b w _ h2 (by norm_num; linarith) hw' nxx nyy nxy hneg.1 hneg.2
  have hR : |(2 * w + c2) / (a + b + c2)| ≤ 1 := by
    rw [abs_div, abs_of_pos hS0, div_le_one hS0, abs_le]
    constructor <;> linarith
  generalize (2 * w + c2) / (a + b + c2) = T at *
  generalize contrastRounded big c2 vx vy = c at *
  generalize structureRounded big (c2 / 2) vx vy vxy = s at *
  have t1 := fl_error 24 (fl 24 (l * c) * s)
  have t2 := fl_error 24 (l * c)
  generalize fl 24 (fl 24 (l * c) * s) = r at *
  generalize fl 24 (l * c) = lc at *
  have hla : |l| ≤ 1 + 1 / 4000 := by
    have := abs_sub_abs_le_abs_sub l L
    linarith
  have hca : |c * s| ≤ 1 + 1 / 80 := by
    have := abs_sub_abs_le_abs_sub (c * s) T
    linarith
  have u1 : |lc * s - l * (c * s)| ≤ (1 + 1 / 4000) * (1 + 1 / 80) / 2 ^ 24 := by
    rw [show lc * s - l * (c * s) = (lc - l * c) * s by ring, abs_mul]
    calc |lc - l * c| * |s| ≤ |l * c| / 2 ^ 24 * |s| := mul_le_mul_of_nonneg_right t2 (abs_nonneg _)
      _ = |l| * |c * s| / 2 ^ 24 := by rw [abs_mul, abs_mul]; ring
      _ ≤ _ := div_le_div_of_nonneg_right (mul_le_mul hla hca (abs_nonneg _) (by norm_num)) (by norm_num)
  have u2 : |l * (c * s) - L * T| ≤ 1 / 4000 * (1 + 1 / 80) + 1 / 80 := by
    rw [show l * (c * s) - L * T = (l - L) * (c * s) + L * (c * s - T) by ring]
    refine (abs_add_le _ _).trans ?_
    rw [abs_mul (l - L), abs_mul L]
    have g1 := mul_le_mul hl hca (abs_nonneg _) (by norm_num)
    have g2 := mul_le_mul hL hcs (abs_nonneg _) (by norm_num)
    linarith
  have u3 : |L * T| ≤ 1 := by
    rw [abs_mul]
    exact mul_le_one₀ hL (abs_nonneg _) hR
  have U1 := abs_le.1 u1
  have U2 := abs_le.1 u2
  have U3 := abs_le.1 u3
  have u4 : |lc * s| ≤ 2 := by
    rw [abs_le]
    norm_num at U1 U2 ⊢
    constructor <;> linarith
  have U4 := abs_le.1 (t1.trans (div_le_div_of_nonneg_right u4 (by norm_num)))
  rw [abs_le]
  norm_num at U1 U2 U4 ⊢
  constructor <;> linarith

theorem list_sum_abs_le (l : List ℝ) (b : ℝ) (h : ∀ v ∈ l, |v| ≤ b) : |l.sum| ≤ l.length * b := by
  induction l with
  | nil => simp
  | cons v l ih =>
    rw [List.sum_cons, List.length_cons]
    push_cast
    have := ih fun w hw => h w (List.mem_cons_of_mem _ hw)
    have := h v List.mem_cons_self
    have := abs_add_le v l.sum
    linarith

theorem list_sum_sub {Q : Type} (l : List Q) (f g : Q → ℝ) : (l.map fun q => f q - g q).sum = (l.map f).sum - (l.map g).sum := by
  induction l with
  | nil => simp
  | cons v l ih => simp only [List.map_cons, List.sum_cons, ih]; ring

/-- Sums of numbers of any sign: the error is small compared with the sum of the absolute values. -/
theorem Summation.eval_near (t : Summation) (b : ℝ) (h : ∀ v ∈ t.leaves, |v| ≤ b) (hs : t.size ≤ 2 ^ 40) :
    |t.eval 53 - t.leaves.sum| ≤ t.size * b * (t.depth / 2 ^ 52) := by
  induction t with
  | leaf v => simp [Summation.eval, Summation.leaves, Summation.depth]
  | node l r hl hr =>
    have b0 : 0 ≤ b := by
      obtain ⟨v, hv⟩ := List.exists_mem_of_length_pos (Summation.node l r).size_pos
      exact (abs_nonneg _).trans (h v hv)
    have hd := Summation.depth_lt_size (Summation.node l r)
    simp only [Summation.leaves, List.mem_append] at h
    have es : (Summation.node l r).size = l.size + r.size := by simp [Summation.size, Summation.leaves]
    rw [es] at hs hd ⊢
    have gl := hl (fun v hv => h v (Or.inl hv)) (by omega)
    have gr := hr (fun v hv => h v (Or.inr hv)) (by omega)
    have sl := list_sum_abs_le l.leaves b fun v hv => h v (Or.inl hv)
    have sr := list_sum_abs_le r.leaves b fun v hv => h v (Or.inr hv)
    change |_| ≤ (l.size : ℝ) * b at sl
    change |_| ≤ (r.size : ℝ) * b at sr
    simp only [Summation.eval, Summation.leaves, List.sum_append, Summation.depth] at hd ⊢
    have hm1 : (l.depth : ℝ) ≤ (max l.depth r.depth : ℕ) := by exact_mod_cast le_max_left _ _
    have hm2 : (r.depth : ℝ) ≤ (max l.depth r.depth : ℕ) := by exact_mod_cast le_max_right _ _
    have hm3 : ((max l.depth r.depth : ℕ) : ℝ) ≤ 2 ^ 40 := by
      have : max l.depth r.depth ≤ 2 ^ 40 := by omega
      exact_mod_cast this
    push_cast
    rw [Nat.cast_max] at hm1 hm2 hm3
    generalize max (l.depth : ℝ) (r.depth : ℝ) = m at *
    have L0 : (0 : ℝ) ≤ l.size := Nat.cast_nonneg _
    have R0 : (0 : ℝ) ≤ r.size := Nat.cast_nonneg _
    generalize (l.size : ℝ) = nl at *
    generalize (r.size : ℝ) = nr at *
    have ml : |l.eval 53 - l.leaves.sum| ≤ nl * b * (m / 2 ^ 52) :=
      gl.trans (mul_le_mul_of_nonneg_left (div_le_div_of_nonneg_right hm1 (by norm_num)) (by positivity))
    have mr : |r.eval 53 - r.leaves.sum| ≤ nr * b * (m / 2 ^ 52) :=
      gr.trans (mul_le_mul_of_nonneg_left (div_le_div_of_nonneg_right hm2 (by norm_num)) (by positivity))
    have f := fl_error 53 (l.eval 53 + r.eval 53)
    have e0 : 0 ≤ (nl + nr) * b := by positivity
    have s1 : |l.eval 53 + r.eval 53| ≤ 2 * ((nl + nr) * b) := by
      have k : (nl + nr) * b * (m / 2 ^ 52) ≤ (nl + nr) * b * 1 :=
        mul_le_mul_of_nonneg_left (by rw [div_le_one (by norm_num)]; exact hm3.trans (by norm_num)) e0
      have A := abs_le.1 ml
      have B := abs_le.1 mr
      have C := abs_le.1 sl
      have D := abs_le.1 sr
      rw [abs_le]
      constructor <;> nlinarith
    have F := abs_le.1 (f.trans (div_le_div_of_nonneg_right s1 (by norm_num)))
    have A := abs_le.1 ml
    have B := abs_le.1 mr
    have e1 : (nl + nr) * b * ((m + 1) / 2 ^ 52) =
        nl * b * (m / 2 ^ 52) + nr * b * (m / 2 ^ 52) + 2 * ((nl + nr) * b) / 2 ^ 53 := by
      ring
    rw [e1, abs_le]
    constructor <;> linarith

/-- Means of numbers of any sign. -/
theorem meanRounded_near (t : Summation) (b : ℝ) (h : ∀ v ∈ t.leaves, |v| ≤ b) (hs : t.size ≤ 2 ^ 40) :
    |meanRounded 53 t - Spec.mean t.leaves| ≤ b / 2 ^ 11 := by
  have hn : (0 : ℝ) < t.size := by exact_mod_cast t.size_pos
  have b0 : 0 ≤ b := by
    obtain ⟨v, hv⟩ := List.exists_mem_of_length_pos t.size_pos
    exact (abs_nonneg _).trans (h v hv)
  have hd : (t.depth : ℝ) ≤ 2 ^ 40 := by
    have := t.depth_lt_size
    have : t.depth ≤ 2 ^ 40 := by omega
    exact_mod_cast this
  have e := t.eval_near b h hs
  have sl := list_sum_abs_le t.leaves b h
  rw [meanRounded_double]
  unfold Spec.mean
  change |_ - t.leaves.sum / (t.size : ℝ)| ≤ _
  change |_| ≤ (t.size : ℝ) * b at sl
  generalize (t.size : ℝ) = n at *
  generalize t.leaves.sum = S at *
  generalize t.eval 53 = E at *
  generalize (t.depth : ℝ) = d at *
  have e1 : |E / n - S / n| ≤ b / 2 ^ 12 := by
    rw [← sub_div, abs_div, abs_of_pos hn, div_le_iff₀ hn]
    refine e.trans ?_
    have : d / 2 ^ 52 ≤ 1 / 2 ^ 12 := by
      rw [div_le_div_iff₀ (by norm_num) (by norm_num)]
      norm_num at hd ⊢
      linarith
    have := mul_le_mul_of_nonneg_left this (by positivity : 0 ≤ n * b)
    refine this.trans (le_of_eq ?_)
    ring
  have e2 : |S / n| ≤ b := by
    rw [abs_div, abs_of_pos hn, div_le_iff₀ hn]; linarith
  have e3 : |E / n| ≤ 2 * b := by
    have A := abs_le.1 e1
    have B := abs_le.1 e2
    rw [abs_le]
    norm_num at A ⊢
    constructor <;> linarith
  have F := abs_le.1 ((fl_error 53 (E / n)).trans (div_le_div_of_nonneg_right e3 (by norm_num)))
  have A := abs_le.1 e1
  rw [abs_le]
  norm_num at A F ⊢
  constructor <;> linarith

/-- The first constant of SSIM, with the factor 0.01. -/
theorem ssimConst_first (dr M : ℝ) (hM : 0 ≤ M) (h : M ≤ dr) : M * M ≤ 12000 * ssimConst (fl 53 (1 / 100)) dr := by
  unfold ssimConst
  have hdr : 0 ≤ dr := hM.trans h
  have k0 : 0 ≤ fl 53 ((1 : ℝ) / 100) := fl_nonneg (by norm_num) (by norm_num)
  have k1 := mul_le_fl 53 (by norm_num : (0 : ℝ) ≤ 1 / 100)
  have p0 := fl_nonneg (p := 53) (by norm_num) (mul_nonneg k0 hdr)
  have p1 := mul_le_fl 53 (mul_nonneg k0 hdr)
  have q0 := fl_nonneg (p := 53) (by norm_num) (mul_nonneg p0 p0)
  have q1 := mul_le_fl 53 (mul_nonneg p0 p0)
  have r1 := mul_le_fl 24 q0
  generalize fl 53 ((1 : ℝ) / 100) = k at *
  generalize fl 53 (k * dr) = a at *
  generalize fl 53 (a * a) = b at *
  generalize fl 24 b = c at *
  have a1 : M * (98 / 10000) ≤ a := by
    have : M * (99 / 10000) ≤ k * dr := by
      have hk : 99 / 10000 ≤ k := by norm_num at k1 ⊢; linarith
      nlinarith [mul_le_mul h hk (by norm_num) hdr]
    norm_num at p1 ⊢
    nlinarith
  have a2 : M * (98 / 10000) * (M * (98 / 10000)) ≤ a * a := mul_le_mul a1 a1 (by positivity) p0
  have hMM : 0 ≤ M * M := mul_nonneg hM hM
  norm_num at q1 r1 a2 ⊢
  nlinarith

/-- **C194**, partially: with default constants and no pixel larger than the data range, the SSIM of two images in
floating point arithmetic is the mean of the exact indices up to 1/60 if at every position both windows are nearly
uniform or none is, for every accurate filter and every order of the last additions. Missing: images with positions at
which only one of the two windows is nearly uniform, see `C194_refuted`. -/
theorem C194_mean_partial {P Q : Type} [Fintype P] (k : P → ℝ) (hk : Weights k) (F : Q → (P → ℝ) → ℝ)
    (hF : ∀ q, Accurate k (F q)) (x y : Q → P → ℝ) (big norm dr : ℝ) (hn : 1 ≤ norm) (hn2 : norm ≤ 2)
    (hdr : 0 < dr) (hx : ∀ q i, |x q i| ≤ dr) (hy : ∀ q i, |y q i| ≤ dr)
    (rx : ∀ q i, Representable 24 (x q i)) (ry : ∀ q i, Representable 24 (y q i))
    (htx : ∀ q, SameTexture dr (norm * Spec.windowCov k (x q) (x q)) (norm * Spec.windowCov k (y q) (y q)))
    (pos : List Q) (hpos : pos.length ≤ 2 ^ 40) (t : Summation)
    (ht : t.leaves = pos.map (fun q => ssimRounded big norm (ssimConst (fl 53 (1 / 100)) dr) (ssimConst (fl 53 (3 / 100)) dr)
      (localStats (F q) (x q) (y q)))) :
    |meanRounded 53 t - Spec.mean (pos.map fun q => Spec.ssimIndex k norm (ssimConst (fl 53 (1 / 100)) dr)
      (ssimConst (fl 53 (3 / 100)) dr) (x q) (y q))| ≤ 1 / 60 := by
  have c2 := ssimConst_ge dr dr hdr.le le_rfl
  have c1 := ssimConst_first dr dr hdr.le le_rfl
  have hc2 : 0 < ssimConst (fl 53 (3 / 100)) dr := by nlinarith [mul_pos hdr hdr]
  have hc1 : 0 < ssimConst (fl 53 (1 / 100)) dr := by nlinarith [mul_pos hdr hdr]
  have loc := fun q => C194_local_partial P k (F q) (x q) (y q) big norm _ _ dr hk (hF q) (hx q) (hy q) (rx q) (ry q) hn hn2
    hc1 hc2 c1 c2 (htx q)
  have bnd := fun q => C139_local_partial P k (F q) (x q) (y q) big norm (ssimConst (fl 53 (1 / 100)) dr) _ dr hk (hF q) (hx q) (hy q)
    (rx q) (ry q) (by linarith) hn2 hc1.le hc2 c2
  generalize ssimConst (fl 53 (1 / 100)) dr = C1 at *
  generalize ssimConst (fl 53 (3 / 100)) dr = C2 at *
  have hsz : t.size = pos.length := by
    unfold Summation.size
    rw [ht, List.length_map]
  have h1 := meanRounded_near t (1 + 1 / 64) (by
    intro v hv
    rw [ht, List.mem_map] at hv
    obtain ⟨q, -, rfl⟩ := hv
    exact bnd q) (by rw [hsz]; exact hpos)
  have hp : (0 : ℝ) < pos.length := by
    have := t.size_pos
    rw [hsz] at this
    exact_mod_cast this
  have h2 : |Spec.mean t.leaves - Spec.mean (pos.map fun q => Spec.ssimIndex k norm C1 C2 (x q) (y q))| ≤ 1 / 64 := by
    rw [ht]
    unfold Spec.mean
    rw [List.length_map, List.length_map, ← sub_div, abs_div, abs_of_pos hp, div_le_iff₀ hp]
    have := list_sum_abs_le (pos.map fun q => ssimRounded big norm C1 C2 (localStats (F q) (x q) (y q)) -
      Spec.ssimIndex k norm C1 C2 (x q) (y q)) (1 / 64) (by
        intro v hv
        rw [List.mem_map] at hv
        obtain ⟨q, -, rfl⟩ := hv
        exact loc q)
    rw [List.length_map, list_sum_sub] at this
    linarith
  have A := abs_le.1 h1
  have B := abs_le.1 h2
  rw [abs_le]
  norm_num at A B ⊢
  constructor <;> linarith

/-- A nearly uniform window: a column of 1/2 + 1/8192, then 1/2. -/
def flatColumn (i : ℕ) : ℚ := if i < 1 then 4097 / 8192 else 1 / 2
/-- A window of bright and dark columns. -/
def barColumn (i : ℕ) : ℚ := if i % 2 = 0 then 1 else 0

noncomputable def flatWindow : Fin 7 × Fin 7 → ℝ := fun q => (flatColumn q.2.val : ℝ)
noncomputable def barWindow : Fin 7 × Fin 7 → ℝ := fun q => (barColumn q.2.val : ℝ)

theorem flat_values (q : Fin 7 × Fin 7) : flatWindow q = 4097 / 8192 ∨ flatWindow q = 1 / 2 := by
  unfold flatWindow flatColumn
  split
  · left; norm_num
  · right; norm_num

theorem bar_values (q : Fin 7 × Fin 7) : barWindow q = 1 ∨ barWindow q = 0 := by
  unfold barWindow barColumn
  split
  · left; norm_num
  · right; norm_num

theorem flat_representable (q : Fin 7 × Fin 7) : Representable 24 (flatWindow q) := by
  rcases flat_values q with h | h
  · exact ⟨4097, -13, by norm_num, by rw [h]; norm_num⟩
  · exact ⟨1, -1, by norm_num, by rw [h]; norm_num⟩

theorem bar_representable (q : Fin 7 × Fin 7) : Representable 24 (barWindow q) := by
  rcases bar_values q with h | h
  · exact ⟨1, 0, by norm_num, by rw [h]; norm_num⟩
  · exact ⟨0, 0, by norm_num, by rw [h]; norm_num⟩

theorem flat_le (q : Fin 7 × Fin 7) : |flatWindow q| ≤ 1 := by
  rcases flat_values q with h | h <;> rw [h] <;> norm_num [abs_of_pos]

theorem bar_le (q : Fin 7 × Fin 7) : |barWindow q| ≤ 1 := by
  rcases bar_values q with h | h <;> rw [h] <;> norm_num

theorem const_first : ssimConst (fl 53 ((1 : ℝ) / 100)) 1 = ((13743895 / 137438953472 : ℚ) : ℝ) := by
  have : ssimConst (fl 53 (((1 / 100 : ℚ) : ℝ))) 1 =
      ((fl 24 (fl 53 (fl 53 (fl 53 (1 / 100 : ℚ) * 1) * fl 53 (fl 53 (1 / 100 : ℚ) * 1))) : ℚ) : ℝ) := by
    unfold ssimConst
    simp only [fl_ratCast, Rat.cast_mul, Rat.cast_one]
  rw [show fl 24 (fl 53 (fl 53 (fl 53 (1 / 100 : ℚ) * 1) * fl 53 (fl 53 (1 / 100) * 1))) = 13743895 / 137438953472 by decide +kernel] at this
  rw [← this]; push_cast; rfl

theorem const_second : ssimConst (fl 53 ((3 : ℝ) / 100)) 1 = ((7730941 / 8589934592 : ℚ) : ℝ) := by
  have : ssimConst (fl 53 (((3 / 100 : ℚ) : ℝ))) 1 =
      ((fl 24 (fl 53 (fl 53 (fl 53 (3 / 100 : ℚ) * 1) * fl 53 (fl 53 (3 / 100 : ℚ) * 1))) : ℚ) : ℝ) := by
    unfold ssimConst
    simp only [fl_ratCast, Rat.cast_mul, Rat.cast_one]
  rw [show fl 24 (fl 53 (fl 53 (fl 53 (3 / 100 : ℚ) * 1) * fl 53 (fl 53 (3 / 100) * 1))) = 7730941 / 8589934592 by decide +kernel] at this
  rw [← this]; push_cast; rfl

/-- The computed index of the two windows with the data range 1 and default arguments: above 0.98. -/
theorem C194_actual (big : ℝ) : 49 / 50 ≤ ssimRounded big (fl 24 (49 / 48)) (ssimConst (fl 53 (1 / 100)) 1)
    (ssimConst (fl 53 (3 / 100)) 1)
    (localStats (fun z => ∑ q : Fin 7 × Fin 7, 1 / 49 * z q) flatWindow barWindow) := by
  have hn : fl 24 ((49 : ℝ) / 48) = ((8563371 / 8388608 : ℚ) : ℝ) := by
    rw [← fl_value 24 (49 / 48) _ (by decide +kernel)]; push_cast; rfl
  have hx : fl 24 (∑ q : Fin 7 × Fin 7, 1 / 49 * flatWindow q) =
      ((fl 24 ((flatColumn 0 + flatColumn 1 + flatColumn 2 + flatColumn 3 + flatColumn 4 + flatColumn 5 + flatColumn 6) / 7) : ℚ) : ℝ) :=
    box_stripes flatWindow flatColumn (fun _ => rfl) _ rfl
  have hy : fl 24 (∑ q : Fin 7 × Fin 7, 1 / 49 * barWindow q) =
      ((fl 24 ((barColumn 0 + barColumn 1 + barColumn 2 + barColumn 3 + barColumn 4 + barColumn 5 + barColumn 6) / 7) : ℚ) : ℝ) :=
    box_stripes barWindow barColumn (fun _ => rfl) _ rfl
  have hxx : fl 24 (∑ q : Fin 7 × Fin 7, 1 / 49 * fl 24 (flatWindow q * flatWindow q)) = (((8389193/33554432) : ℚ) : ℝ) :=
    box_stripes (fun q => fl 24 (flatWindow q * flatWindow q)) (fun i => fl 24 (flatColumn i * flatColumn i)) (fun q => by
      rw [fl_ratCast, Rat.cast_mul]; rfl) _ (by decide +kernel)
  rw [show fl 24 ((flatColumn 0 + flatColumn 1 + flatColumn 2 + flatColumn 3 + flatColumn 4 + flatColumn 5 + flatColumn 6) / 7) = (8388901/16777216) by
    decide +kernel] at hx
  rw [show fl 24 ((barColumn 0 + barColumn 1 + barColumn 2 + barColumn 3 + barColumn 4 + barColumn 5 + barColumn 6) / 7) = (9586981/16777216) by
    decide +kernel] at hy
  rw [hn, const_first, const_second]
  unfold ssimRounded localStats
  simp only
  rw [hx, hy, hxx, covRounded_cast]
  have hneg : (((fl 24 (8563371 / 8388608 * fl 24 ((8389193/33554432) - fl 24 ((8388901/16777216) * ((8388901/16777216))))) : ℚ)) : ℝ) < 0 := by
    rw [← Rat.cast_zero (α := ℝ), Rat.cast_lt]; decide +kernel
  generalize covRounded (((8563371 / 8388608 : ℚ)) : ℝ) (fl 24 (∑ q : Fin 7 × Fin 7, 1 / 49 * fl 24 (barWindow q * barWindow q))) _ _ = vy
  generalize covRounded (((8563371 / 8388608 : ℚ)) : ℝ) (fl 24 (∑ q : Fin 7 × Fin 7, 1 / 49 * fl 24 (flatWindow q * barWindow q))) _ _ = vxy
  unfold contrastRounded structureRounded
  rw [if_pos (Or.inl hneg), if_pos (Or.inl hneg)]
  simp only [nanToNum, mul_one]
  rw [luminance_cast _ _ _ _ (by decide +kernel), fl_fl p24, ← fl_ratCast, show (49 : ℝ) / 50 = ((49 / 50 : ℚ) : ℝ) by norm_num, Rat.cast_le]
  decide +kernel

/-- The exact index of the two windows: below 0.01. -/
theorem C194_exact : Spec.ssimIndex (fun _ : Fin 7 × Fin 7 => (1 : ℝ) / 49) (fl 24 (49 / 48)) (ssimConst (fl 53 (1 / 100)) 1)
    (ssimConst (fl 53 (3 / 100)) 1) flatWindow barWindow ≤ 1 / 100 := by
  have hn : fl 24 ((49 : ℝ) / 48) = ((8563371 / 8388608 : ℚ) : ℝ) := by
    rw [← fl_value 24 (49 / 48) _ (by decide +kernel)]; push_cast; rfl
  rw [hn, const_first, const_second]
  unfold Spec.ssimIndex
  rw [windowCov_eq _ _ _ box_weights, windowCov_eq _ _ _ box_weights, windowCov_eq _ _ _ box_weights]
  unfold Spec.windowMean flatWindow barWindow flatColumn barColumn
  simp only [Fintype.sum_prod_type, Fin.sum_univ_seven]
  norm_num

/-- **C194 refuted:** without the condition the computed index may be close to 1 although the exact one is close to 0. -/
theorem C194_refuted : ¬ SsimAccurate (fun _ _ _ => True) := by
  intro h
  have c2 := ssimConst_ge 1 1 zero_le_one le_rfl
  have c1 := ssimConst_first 1 1 zero_le_one le_rfl
  have h1 := h (Fin 7 × Fin 7) (fun _ => 1 / 49) (fun z => ∑ q : Fin 7 × Fin 7, 1 / 49 * z q) flatWindow barWindow 0
    (fl 24 (49 / 48)) (ssimConst (fl 53 (1 / 100)) 1) (ssimConst (fl 53 (3 / 100)) 1) 1 box_weights
    (exact_accurate _ box_weights) flat_le bar_le flat_representable bar_representable
    ((by norm_num : (1 : ℝ) ≤ 49 / 48 * (1 - 1 / 2 ^ 24)).trans (mul_le_fl 24 (by norm_num)))
    ((fl_le_mul 24 (by norm_num)).trans (by norm_num)) (by linarith) (by linarith) c1 c2 trivial
  have h2 := C194_actual 0
  have h3 := C194_exact
  have := (abs_le.1 h1).2
  linarith

/-- The partial result applied: a window of bars and its negative. -/
example (big : ℝ) : |ssimRounded big 1 (ssimConst (fl 53 (1 / 100)) 1) (ssimConst (fl 53 (3 / 100)) 1)
    (localStats (fun z => ∑ q : Fin 7 × Fin 7, 1 / 49 * z q) barWindow (fun q => 1 - barWindow q)) -
    Spec.ssimIndex (fun _ : Fin 7 × Fin 7 => (1 : ℝ) / 49) 1 (ssimConst (fl 53 (1 / 100)) 1) (ssimConst (fl 53 (3 / 100)) 1)
      barWindow (fun q => 1 - barWindow q)| ≤ 1 / 64 := by
  have c2 := ssimConst_ge 1 1 zero_le_one le_rfl
  have c1 := ssimConst_first 1 1 zero_le_one le_rfl
  refine C194_local_partial _ _ _ _ _ _ _ _ _ 1 box_weights (exact_accurate _ box_weights) bar_le ?_ bar_representable ?_
    le_rfl (by norm_num) (by linarith) (by linarith) c1 c2 (Or.inl ⟨?_, ?_⟩)
  · intro q
    rcases bar_values q with h | h <;> rw [h] <;> norm_num
  · intro q
    rcases bar_values q with h | h <;> rw [h]
    · exact ⟨0, 0, by norm_num, by norm_num⟩
    · exact ⟨1, 0, by norm_num, by norm_num⟩
  · rw [windowCov_eq _ _ _ box_weights]
    unfold barWindow barColumn
    simp only [Fintype.sum_prod_type, Fin.sum_univ_seven]
    norm_num
  · rw [windowCov_eq _ _ _ box_weights]
    unfold barWindow barColumn
    simp only [Fintype.sum_prod_type, Fin.sum_univ_seven]
    norm_num

/-- The mean over two positions: an image compared with itself and two uniform windows. -/
example (big : ℝ) (x : Bool → Fin 7 × Fin 7 → ℝ) (hx : x = fun b => if b then barWindow else fun _ => 1) :
    |meanRounded 53 (.node
      (.leaf (ssimRounded big 1 (ssimConst (fl 53 (1 / 100)) 1) (ssimConst (fl 53 (3 / 100)) 1)
        (localStats (fun z => ∑ q : Fin 7 × Fin 7, 1 / 49 * z q) (x true) (x true))))
      (.leaf (ssimRounded big 1 (ssimConst (fl 53 (1 / 100)) 1) (ssimConst (fl 53 (3 / 100)) 1)
        (localStats (fun z => ∑ q : Fin 7 × Fin 7, 1 / 49 * z q) (x false) (x false))))) -
      Spec.mean ([true, false].map fun q => Spec.ssimIndex (fun _ : Fin 7 × Fin 7 => (1 : ℝ) / 49) 1 (ssimConst (fl 53 (1 / 100)) 1)
        (ssimConst (fl 53 (3 / 100)) 1) (x q) (x q))| ≤ 1 / 60 := by
  have hb : ∀ q i, |x q i| ≤ 1 := by
    intro q i
    rw [hx]
    cases q
    · simp
    · exact bar_le i
  have hr : ∀ q i, Representable 24 (x q i) := by
    intro q i
    rw [hx]
    cases q
    · exact ⟨1, 0, by norm_num, by norm_num⟩
    · exact bar_representable i
  exact C194_mean_partial _ box_weights (fun _ => _) (fun _ => exact_accurate _ box_weights) x x big 1 1 le_rfl (by norm_num)
    zero_lt_one hb hb hr hr (fun q => (le_total _ _).imp (fun h => ⟨h, h⟩) (fun h => ⟨h, h⟩)) [true, false] (by norm_num) _ rfl

end Viqa
