import Verif.Props.UqiRounded

/-! C203: accuracy of UQI in floating point arithmetic. -/

namespace Viqa

/-- The universal quality index of Wang and Bovik in exact arithmetic. -/
noncomputable def Spec.uqiIndex {P : Type} [Fintype P] (k : P → ℝ) (x y : P → ℝ) : ℝ :=
  4 * Spec.windowCov k x y * Spec.windowMean k x * Spec.windowMean k y /
    ((Spec.windowCov k x x + Spec.windowCov k y y) * (Spec.windowMean k x ^ 2 + Spec.windowMean k y ^ 2))

/-- The computed luminance without a constant and the exact one, for positive means. -/
theorem luminance_near_zero (big ux uy ex ey : ℝ) (hu : Representable 24 ux) (hx0 : 0 < ex) (hy0 : 0 < ey)
    (hx : |ux - ex| ≤ ex / 4000) (hy : |uy - ey| ≤ ey / 4000) :
    |luminanceRounded big 0 ux uy - 2 * (ex * ey) / (ex ^ 2 + ey ^ 2)| ≤ 1 / 400 := by
  have X := abs_le.1 hx
  have Y := abs_le.1 hy
  have pn : ∀ u e v f : ℝ, 0 < e → 0 < f → -(e / 4000) ≤ u - e → u - e ≤ e / 4000 → -(f / 4000) ≤ v - f → v - f ≤ f / 4000 →
      -(e * f / 1900) ≤ u * v - e * f ∧ u * v - e * f ≤ e * f / 1900 := by
    intro u e v f he hf h1 h2 h3 h4
    have ef := mul_pos he hf
    have hv0 : 0 ≤ v := by linarith
    have a1 := mul_le_mul_of_nonneg_right (by linarith : u ≤ e * (4001 / 4000)) hv0
    have a2 := mul_le_mul_of_nonneg_left (by linarith : v ≤ f * (4001 / 4000)) he.le
    have a3 := mul_le_mul_of_nonneg_right (by linarith : e * (3999 / 4000) ≤ u) hv0
    have a4 := mul_le_mul_of_nonneg_left (by linarith : f * (3999 / 4000) ≤ v) he.le
    constructor <;> nlinarith
  have P1 := pn ux ex uy ey hx0 hy0 X.1 X.2 Y.1 Y.2
  have P2 := pn ux ex ux ex hx0 hx0 X.1 X.2 X.1 X.2
  have P3 := pn uy ey uy ey hy0 hy0 Y.1 Y.2 Y.1 Y.2
  unfold luminanceRounded
  have e : fl 24 (fl 24 (2 * ux) * uy) = 2 * fl 24 (ux * uy) := by
    rw [fl_two_mul, fl_of_representable (by norm_num) hu, mul_assoc, fl_two_mul]
  rw [e, sq, sq, add_zero, add_zero]
  set S := ex * ex + ey * ey with hS
  have x0 := mul_pos hx0 hx0
  have y0 := mul_pos hy0 hy0
  have xy0 := mul_pos hx0 hy0
  have hS0 : 0 < S := by linarith
  have hxy : 2 * (ex * ey) ≤ S := by nlinarith [sq_nonneg (ex - ey)]
  have hN : |2 * (ex * ey)| ≤ S := by rw [abs_of_pos (by linarith)]; exact hxy
  have b1 : |ux * uy| ≤ S := by
    rw [abs_le]; constructor <;> linarith
  have f1 := abs_le.1 ((fl_error 24 (ux * uy)).trans (div_le_div_of_nonneg_right b1 (by norm_num)))
  generalize fl 24 (ux * uy) = pr at *
  have b2 : |2 * pr| ≤ 3 * S := by
    rw [abs_le]
    norm_num at f1 ⊢
    constructor <;> linarith
  have f2 := abs_le.1 ((fl_error 24 (2 * pr)).trans (div_le_div_of_nonneg_right b2 (by norm_num)))
  generalize fl 24 (2 * pr) = A at *
  have hA : |A - 2 * (ex * ey)| ≤ 1 / 1800 * S := by
    rw [abs_le]
    norm_num at f1 f2 ⊢
    constructor <;> linarith
  have d0 : |ux * ux| ≤ 2 * S := by rw [abs_le]; constructor <;> linarith
  have d1 : |uy * uy| ≤ 2 * S := by rw [abs_le]; constructor <;> linarith
  have g1 := abs_le.1 ((fl_error 24 (ux * ux)).trans (div_le_div_of_nonneg_right d0 (by norm_num)))
  have g2 := abs_le.1 ((fl_error 24 (uy * uy)).trans (div_le_div_of_nonneg_right d1 (by norm_num)))
  generalize fl 24 (ux * ux) = px at *
  generalize fl 24 (uy * uy) = py at *
  have d2 : |px + py| ≤ 2 * S := by
    rw [abs_le]
    norm_num at g1 g2 ⊢
    constructor <;> linarith
  have g3 := abs_le.1 ((fl_error 24 (px + py)).trans (div_le_div_of_nonneg_right d2 (by norm_num)))
  generalize fl 24 (px + py) = pp at *
  have d3 : |pp| ≤ 2 * S := by
    rw [abs_le]
    norm_num at g1 g2 g3 ⊢
    constructor <;> linarith
  have g4 := abs_le.1 ((fl_error 24 pp).trans (div_le_div_of_nonneg_right d3 (by norm_num)))
  generalize fl 24 pp = B at *
  have hB : |B - S| ≤ 1 / 1800 * S := by
    rw [abs_le]
    norm_num at g1 g2 g3 g4 ⊢
    constructor <;> linarith
  obtain ⟨hB0, hq⟩ := quotient_near A B (2 * (ex * ey)) S (1 / 1800) hS0 hA hB hN (by norm_num) (by norm_num)
  rw [divRounded_ne _ _ hB0.ne']
  simp only [nanToNum]
  have hT : |2 * (ex * ey) / S| ≤ 1 := by
    rw [abs_div, abs_of_pos hS0]; exact (div_le_one hS0).2 hN
  have hQ : |A / B| ≤ 2 := by
    have q := abs_le.1 hq
    have r := abs_le.1 hT
    rw [abs_le]
    norm_num at q ⊢
    constructor <;> linarith
  have r1 := abs_le.1 ((fl_error 24 (A / B)).trans (div_le_div_of_nonneg_right hQ (by norm_num)))
  have q := abs_le.1 hq
  rw [abs_le]
  norm_num at q r1 ⊢
  constructor <;> linarith

/-- The computed contrast times structure without constants and the exact value. -/
theorem contrast_structure_near_zero (big vx vy vxy a b w e : ℝ) (he0 : 0 ≤ e) (ha : e < a) (hb : e < b) (he : 350 * e ≤ a + b)
    (hw : 2 * |w| ≤ a + b) (h1 : |vx - a| ≤ e) (h2 : |vy - b| ≤ e) (h3 : |vxy - w| ≤ e) :
    |contrastRounded big 0 vx vy * structureRounded big 0 vx vy vxy - 2 * w / (a + b)| ≤ 1 / 80 := by
  have X := abs_le.1 h1
  have Y := abs_le.1 h2
  have Z := abs_le.1 h3
  have W := abs_le.1 (le_refl |w|)
  have hx : 0 < vx := by linarith
  have hy : 0 < vy := by linarith
  have p24' : 1 ≤ 24 := by norm_num
  unfold contrastRounded structureRounded
  have hneg : ¬ (vx < 0 ∨ vy < 0) := by push Not; exact ⟨hx.le, hy.le⟩
  rw [if_neg hneg, if_neg hneg]
  have hsx := fl_pos p24' (Real.sqrt_pos.2 hx)
  have hsy := fl_pos p24' (Real.sqrt_pos.2 hy)
  have e1 : fl 24 (fl 24 (fl 24 (2 * fl 24 (Real.sqrt vx)) * fl 24 (Real.sqrt vy)) + 0)
      = 2 * fl 24 (fl 24 (fl 24 (Real.sqrt vx) * fl 24 (Real.sqrt vy)) + 0) := by
    rw [fl_two_mul 24 (fl 24 (Real.sqrt vx)), fl_fl p24', mul_assoc, fl_two_mul 24 (_ * _), ← fl_two_mul 24 (_ + _)]
    congr 1
    ring
  rw [e1]
  have hD : 0 < fl 24 (fl 24 (fl 24 (Real.sqrt vx) * fl 24 (Real.sqrt vy)) + 0) := by
    rw [add_zero]
    exact fl_pos p24' (fl_pos p24' (mul_pos hsx hsy))
  generalize fl 24 (fl 24 (fl 24 (Real.sqrt vx) * fl 24 (Real.sqrt vy)) + 0) = D at *
  rw [add_zero, add_zero]
  set S := a + b with hS
  have hS0 : 0 < S := by linarith
  have c1 : |vx + vy| ≤ 2 * S := by rw [abs_le]; constructor <;> linarith
  have f1 := abs_le.1 ((fl_error 24 (vx + vy)).trans (div_le_div_of_nonneg_right c1 (by norm_num)))
  generalize fl 24 (vx + vy) = B1 at *
  have c2 : |B1| ≤ 3 * S := by
    rw [abs_le]
    norm_num at f1 ⊢
    constructor <;> linarith
  have f2 := abs_le.1 ((fl_error 24 B1).trans (div_le_div_of_nonneg_right c2 (by norm_num)))
  generalize fl 24 B1 = B at *
  have c3 : |vxy| ≤ 2 * S := by rw [abs_le]; constructor <;> linarith
  have f3 := abs_le.1 ((fl_error 24 vxy).trans (div_le_div_of_nonneg_right c3 (by norm_num)))
  generalize fl 24 vxy = A at *
  have hA : |2 * A - 2 * w| ≤ 1 / 170 * S := by
    rw [abs_le]
    norm_num at f3 ⊢
    constructor <;> linarith
  have hB : |B - S| ≤ 1 / 170 * S := by
    rw [abs_le]
    norm_num at f1 f2 ⊢
    constructor <;> linarith
  have hT : |2 * w| ≤ S := by rw [abs_mul, abs_two]; exact hw
  obtain ⟨hB0, hq⟩ := quotient_near (2 * A) B (2 * w) S (1 / 170) hS0 hA hB hT (by norm_num) (by norm_num)
  rw [divRounded_ne _ _ hB0.ne', divRounded_ne _ _ hD.ne']
  simp only [nanToNum]
  have hT1 : |2 * w / S| ≤ 1 := by
    rw [abs_div, abs_of_pos hS0]; exact (div_le_one hS0).2 hT
  have Q := abs_le.1 hq
  have T := abs_le.1 hT1
  have hQ : |2 * A / B| ≤ 2 := by
    rw [abs_le]
    norm_num at Q ⊢
    constructor <;> linarith
  have e2 : 2 * D / B * (A / D) = 2 * A / B := by field_simp
  have r1 := fl_error 24 (2 * D / B)
  have r2 := fl_error 24 (A / D)
  have r3 := abs_fl_le 24 (2 * D / B)
  rw [← e2] at hQ Q
  generalize 2 * D / B = p at *
  generalize A / D = s at *
  have k1 : |fl 24 p * fl 24 s - p * s| ≤ |p * s| * (3 / 2 ^ 24) := by
    rw [show fl 24 p * fl 24 s - p * s = fl 24 p * (fl 24 s - s) + (fl 24 p - p) * s by ring]
    refine (abs_add_le _ _).trans ?_
    rw [abs_mul, abs_mul, abs_mul p s]
    have m1 := mul_le_mul r3 r2 (abs_nonneg _) (by positivity)
    have m2 := mul_le_mul_of_nonneg_right r1 (abs_nonneg s)
    have ps := mul_nonneg (abs_nonneg p) (abs_nonneg s)
    norm_num at m1 m2 ⊢
    nlinarith
  have K := abs_le.1 (k1.trans (mul_le_mul_of_nonneg_right hQ (by norm_num)))
  rw [abs_le]
  norm_num at K Q ⊢
  constructor <;> linarith

/-- Of numbers between 0 and `M`, the variance is at most `M` times the mean. -/
theorem windowCov_le_mean {P : Type} [Fintype P] (k x : P → ℝ) (hk : Weights k) (M : ℝ) (h0 : ∀ q, 0 ≤ x q) (hM : ∀ q, x q ≤ M) :
    Spec.windowCov k x x ≤ M * ∑ q, k q * x q := by
  rw [windowCov_eq k x x hk]
  have h1 : ∑ q, k q * (x q * x q) ≤ M * ∑ q, k q * x q := by
    rw [Finset.mul_sum]
    refine Finset.sum_le_sum fun q _ => ?_
    have := mul_le_mul_of_nonneg_right (hM q) (h0 q)
    nlinarith [mul_le_mul_of_nonneg_left this (hk.1 q)]
  nlinarith [mul_self_nonneg (∑ q, k q * x q)]

/-- The statement of C203 for one position: the computed index differs from the one of Wang and Bovik by at most 1/60,
under the condition `C` on the largest pixel value and the two variances. -/
def UqiAccurate (C : ℝ → ℝ → ℝ → Prop) : Prop :=
  ∀ (P : Type) [Fintype P] (k : P → ℝ) (F : (P → ℝ) → ℝ) (x y : P → ℝ) (big norm M : ℝ),
    Weights k → Accurate k F → (∀ q, 0 ≤ x q) → (∀ q, 0 ≤ y q) → (∀ q, x q ≤ M) → (∀ q, y q ≤ M) → (∀ q, Representable 24 (x q)) →
    (∀ q, Representable 24 (y q)) → 1 ≤ norm → norm ≤ 2 → 0 < M → C M (Spec.windowCov k x x) (Spec.windowCov k y y) →
    |ssimRounded big norm 0 0 (localStats F x y) - Spec.uqiIndex k x y| ≤ 1 / 60

/-- **C203**, one position: accurate if both variances are at least the square of the brightest pixel divided by 1000. -/
theorem C203_local_partial : UqiAccurate (fun M a b => M * M ≤ 1000 * a ∧ M * M ≤ 1000 * b) := by
  intro P _ k F x y big norm M hk hF x0 y0 xM yM _ _ hn1 hn2 hM ⟨hCx, hCy⟩
  have hn : 0 < norm := by linarith
  have hx : ∀ q, |x q| ≤ M := fun q => by rw [abs_of_nonneg (x0 q)]; exact xM q
  have hy : ∀ q, |y q| ≤ M := fun q => by rw [abs_of_nonneg (y0 q)]; exact yM q
  have nxy := covRounded_near k F hk hF x y M norm hx hy hM.le hn.le hn2
  have nxx := covRounded_near k F hk hF x x M norm hx hx hM.le hn.le hn2
  have nyy := covRounded_near k F hk hF y y M norm hy hy hM.le hn.le hn2
  have hw := weighted_cov k hk x y
  rw [← windowCov_eq k x y hk] at nxy hw
  rw [← windowCov_eq k x x hk] at nxx hw
  rw [← windowCov_eq k y y hk] at nyy hw
  have mx := windowCov_le_mean k x hk M x0 xM
  have my := windowCov_le_mean k y hk M y0 yM
  have ex : M ≤ 1000 * ∑ q, k q * x q := le_of_mul_le_mul_left (by nlinarith) hM
  have ey : M ≤ 1000 * ∑ q, k q * y q := le_of_mul_le_mul_left (by nlinarith) hM
  have hl := luminance_near_zero big (fl 24 (F x)) (fl 24 (F y)) (∑ q, k q * x q) (∑ q, k q * y q) (fl_representable 24 _)
    (by linarith) (by linarith) ((hF x M hx).trans (by norm_num; linarith)) ((hF y M hy).trans (by norm_num; linarith))
  have e : Spec.uqiIndex k x y = 2 * ((∑ q, k q * x q) * ∑ q, k q * y q) / ((∑ q, k q * x q) ^ 2 + (∑ q, k q * y q) ^ 2) *
      (2 * (norm * Spec.windowCov k x y) / (norm * Spec.windowCov k x x + norm * Spec.windowCov k y y)) := by
    unfold Spec.uqiIndex Spec.windowMean
    rw [← mul_add, mul_left_comm 2 norm, mul_div_mul_left _ _ hn.ne', ← mul_div_mul_comm, mul_comm (Spec.windowCov k x x + _)]
    congr 1
    ring
  rw [e]
  have hL : |2 * ((∑ q, k q * x q) * ∑ q, k q * y q) / ((∑ q, k q * x q) ^ 2 + (∑ q, k q * y q) ^ 2)| ≤ 1 := by
    have p : 0 < (∑ q, k q * x q) ^ 2 + (∑ q, k q * y q) ^ 2 := by
      have : 0 < ∑ q, k q * x q := by linarith
      positivity
    rw [abs_div, abs_of_pos p, div_le_one p, abs_le]
    constructor <;> nlinarith [sq_nonneg ((∑ q, k q * x q) + ∑ q, k q * y q), sq_nonneg ((∑ q, k q * x q) - ∑ q, k q * y q)]
  have hMM : 0 < M * M := mul_pos hM hM
  have gx : M * M ≤ 1000 * (norm * Spec.windowCov k x x) := by nlinarith
  have gy : M * M ≤ 1000 * (norm * Spec.windowCov k y y) := by nlinarith
  have hw' : 2 * |norm * Spec.windowCov k x y| ≤ norm * Spec.windowCov k x x + norm * Spec.windowCov k y y := by
    have := mul_le_mul_of_nonneg_left hw hn.le
    rw [abs_mul, abs_of_nonneg hn.le]
    linarith
  unfold ssimRounded localStats
  simp only
  rw [zero_div]
  generalize 2 * ((∑ q, k q * x q) * ∑ q, k q * y q) / ((∑ q, k q * x q) ^ 2 + (∑ q, k q * y q) ^ 2) = L at *
  generalize norm * Spec.windowCov k x y = w at *
  generalize norm * Spec.windowCov k x x = a at *
  generalize norm * Spec.windowCov k y y = b at *
  have hcs := contrast_structure_near_zero big _ _ _ a b w _ (by positivity) (by norm_num; linarith) (by norm_num; linarith)
    (by norm_num; linarith) hw' nxx nyy nxy
  generalize covRounded norm (fl 24 (F fun q => fl 24 (x q * x q))) (fl 24 (F x)) (fl 24 (F x)) = vx at *
  generalize covRounded norm (fl 24 (F fun q => fl 24 (y q * y q))) (fl 24 (F y)) (fl 24 (F y)) = vy at *
  generalize covRounded norm (fl 24 (F fun q => fl 24 (x q * y q))) (fl 24 (F x)) (fl 24 (F y)) = vxy at *
  generalize luminanceRounded big 0 (fl 24 (F x)) (fl 24 (F y)) = l at *
  have hS0 : 0 < a + b := by linarith
  have hR : |2 * w / (a + b)| ≤ 1 := by
    rw [abs_div, abs_of_pos hS0, div_le_one hS0, abs_mul, abs_two]
    exact hw'
  generalize 2 * w / (a + b) = T at *
  generalize contrastRounded big 0 vx vy = c at *
  generalize structureRounded big 0 vx vy vxy = s at *
  have t1 := fl_error 24 (fl 24 (l * c) * s)
  have t2 := fl_error 24 (l * c)
  generalize fl 24 (fl 24 (l * c) * s) = r at *
  generalize fl 24 (l * c) = lc at *
  have hla : |l| ≤ 1 + 1 / 400 := by
    have := abs_sub_abs_le_abs_sub l L
    linarith
  have hca : |c * s| ≤ 1 + 1 / 80 := by
    have := abs_sub_abs_le_abs_sub (c * s) T
    linarith
  have u1 : |lc * s - l * (c * s)| ≤ (1 + 1 / 400) * (1 + 1 / 80) / 2 ^ 24 := by
    rw [show lc * s - l * (c * s) = (lc - l * c) * s by ring, abs_mul]
    calc |lc - l * c| * |s| ≤ |l * c| / 2 ^ 24 * |s| := mul_le_mul_of_nonneg_right t2 (abs_nonneg _)
      _ = |l| * |c * s| / 2 ^ 24 := by rw [abs_mul, abs_mul]; ring
      _ ≤ _ := div_le_div_of_nonneg_right (mul_le_mul hla hca (abs_nonneg _) (by norm_num)) (by norm_num)
  have u2 : |l * (c * s) - L * T| ≤ 1 / 400 * (1 + 1 / 80) + 1 / 80 := by
    rw [show l * (c * s) - L * T = (l - L) * (c * s) + L * (c * s - T) by ring]
    refine (abs_add_le _ _).trans ?_
    rw [abs_mul (l - L), abs_mul L]
    have g1 := mul_le_mul hl hca (abs_nonneg _) (by norm_num)
    have g2 := mul_le_mul hL hcs (abs_nonneg _) (by norm_num)
    linarith
  have u3 : |L * T| ≤ 1 := by
    rw [abs_mul]
    exact mul_le_one₀ hL (abs_nonneg _) hR
  have U1 := abs_le.1 u1
  have U2 := abs_le.1 u2
  have U3 := abs_le.1 u3
  have u4 : |lc * s| ≤ 2 := by
    rw [abs_le]
    norm_num at U1 U2 ⊢
    constructor <;> linarith
  have U4 := abs_le.1 (t1.trans (div_le_div_of_nonneg_right u4 (by norm_num)))
  rw [abs_le]
  norm_num at U1 U2 U4 ⊢
  constructor <;> linarith

/-- **C203**, partially: the UQI of images without negative pixels whose windows all have a standard deviation of at least a
thirtieth of the brightest pixel differs from the mean of the indices of Wang and Bovik by at most 1/55, for every accurate
filter and every order of the last additions. Missing: images with smoother regions, see `C203_refuted`. -/
theorem C203_mean_partial {P Q : Type} [Fintype P] (k : P → ℝ) (hk : Weights k) (F : Q → (P → ℝ) → ℝ)
    (hF : ∀ q, Accurate k (F q)) (x y : Q → P → ℝ) (big norm M : ℝ) (hn : 1 ≤ norm) (hn2 : norm ≤ 2)
    (hM : 0 < M) (x0 : ∀ q i, 0 ≤ x q i) (y0 : ∀ q i, 0 ≤ y q i) (hx : ∀ q i, x q i ≤ M) (hy : ∀ q i, y q i ≤ M)
    (rx : ∀ q i, Representable 24 (x q i)) (ry : ∀ q i, Representable 24 (y q i))
    (vx : ∀ q, M * M ≤ 1000 * Spec.windowCov k (x q) (x q)) (vy : ∀ q, M * M ≤ 1000 * Spec.windowCov k (y q) (y q))
    (pos : List Q) (hpos : pos.length ≤ 2 ^ 40) (t : Summation)
    (ht : t.leaves = pos.map (fun q => ssimRounded big norm 0 0 (localStats (F q) (x q) (y q)))) :
    |meanRounded 53 t - Spec.mean (pos.map fun q => Spec.uqiIndex k (x q) (y q))| ≤ 1 / 55 := by
  have loc := fun q => C203_local_partial P k (F q) (x q) (y q) big norm M hk (hF q) (x0 q) (y0 q) (hx q) (hy q) (rx q) (ry q) hn hn2
    hM ⟨vx q, vy q⟩
  have bnd := fun q => C202_local_partial P k (F q) (x q) (y q) big norm M hk (hF q)
    (fun i => by rw [abs_of_nonneg (x0 q i)]; exact hx q i) (fun i => by rw [abs_of_nonneg (y0 q i)]; exact hy q i)
    (rx q) (ry q) hn hn2 hM (by linarith [vx q, vy q, mul_pos hM hM])
  have hsz : t.size = pos.length := by
    unfold Summation.size
    rw [ht, List.length_map]
  have h1 := meanRounded_near t (1 + 1 / 64) (by
    intro v hv
    rw [ht, List.mem_map] at hv
    obtain ⟨q, -, rfl⟩ := hv
    exact bnd q) (by rw [hsz]; exact hpos)
  have hp : (0 : ℝ) < pos.length := by
    have := t.size_pos
    rw [hsz] at this
    exact_mod_cast this
  have h2 : |Spec.mean t.leaves - Spec.mean (pos.map fun q => Spec.uqiIndex k (x q) (y q))| ≤ 1 / 60 := by
    rw [ht]
    unfold Spec.mean
    rw [List.length_map, List.length_map, ← sub_div, abs_div, abs_of_pos hp, div_le_iff₀ hp]
    have := list_sum_abs_le (pos.map fun q => ssimRounded big norm 0 0 (localStats (F q) (x q) (y q)) -
      Spec.uqiIndex k (x q) (y q)) (1 / 60) (by
        intro v hv
        rw [List.mem_map] at hv
        obtain ⟨q, -, rfl⟩ := hv
        exact loc q)
    rw [List.length_map, list_sum_sub] at this
    linarith
  have A := abs_le.1 h1
  have B := abs_le.1 h2
  rw [abs_le]
  norm_num at A B ⊢
  constructor <;> linarith

/-- The index of Wang and Bovik lies between -1 and 1. -/
theorem uqiIndex_abs_le {P : Type} [Fintype P] (k : P → ℝ) (hk : Weights k) (x y : P → ℝ) : |Spec.uqiIndex k x y| ≤ 1 := by
  have hw := weighted_cov k hk x y
  rw [← windowCov_eq k x y hk, ← windowCov_eq k x x hk, ← windowCov_eq k y y hk] at hw
  unfold Spec.uqiIndex
  have hv : 0 ≤ Spec.windowCov k x x + Spec.windowCov k y y := (mul_nonneg zero_le_two (abs_nonneg _)).trans hw
  have hm : 0 ≤ Spec.windowMean k x ^ 2 + Spec.windowMean k y ^ 2 := by positivity
  have hu : 2 * |Spec.windowMean k x * Spec.windowMean k y| ≤ Spec.windowMean k x ^ 2 + Spec.windowMean k y ^ 2 := by
    rw [abs_mul]
    nlinarith [sq_nonneg (|Spec.windowMean k x| - |Spec.windowMean k y|), sq_abs (Spec.windowMean k x), sq_abs (Spec.windowMean k y)]
  rw [abs_div, abs_of_nonneg (mul_nonneg hv hm)]
  refine div_le_one_of_le₀ ?_ (mul_nonneg hv hm)
  rw [show 4 * Spec.windowCov k x y * Spec.windowMean k x * Spec.windowMean k y =
    (2 * Spec.windowCov k x y) * (2 * (Spec.windowMean k x * Spec.windowMean k y)) by ring, abs_mul, abs_mul 2, abs_mul 2, abs_two]
  exact mul_le_mul hw hu (by positivity) hv

/-- **C203**, refuted: the index of the faintly striped images is computed as about -3.4e38. -/
theorem C203_refuted : ¬ UqiAccurate (fun _ a b => 0 < a ∧ 0 < b) := by
  intro h
  have hb : ∀ n q, ((faintStripes n q : ℕ) : ℝ) ≤ 2048 := by
    intro n q
    unfold faintStripes
    split <;> norm_num
  have hr : ∀ n q, Representable 24 ((faintStripes n q : ℕ) : ℝ) := by
    intro n q
    have e : (((faintStripes n q : ℕ) : ℤ) : ℝ) = ((faintStripes n q : ℕ) : ℝ) := Int.cast_natCast _
    rw [← e, ← fl_int (p := 24) (by norm_num) _ (by unfold faintStripes; split <;> norm_num)]
    exact fl_representable 24 _
  have h1 := h (Fin 7 × Fin 7) (fun _ => 1 / 49) (fun z => ∑ q : Fin 7 × Fin 7, 1 / 49 * z q)
    (fun q => (faintStripes 2 q : ℝ)) (fun q => (faintStripes 6 q : ℝ)) (2 ^ 127)
    (fl 24 (49 / 48)) 2048 box_weights
    (exact_accurate _ box_weights) (fun _ => Nat.cast_nonneg _) (fun _ => Nat.cast_nonneg _) (hb 2) (hb 6) (hr 2) (hr 6)
    (by
      have := mul_le_fl 24 (by norm_num : (0 : ℝ) ≤ 49 / 48)
      refine le_trans ?_ this
      norm_num)
    ((fl_le_mul 24 (by norm_num)).trans (by norm_num)) (by norm_num) (by
      rw [windowCov_eq _ _ _ box_weights, windowCov_eq _ _ _ box_weights]
      simp only [Fintype.sum_prod_type, Fin.sum_univ_seven, faintStripes]
      norm_num)
  rw [C202_actual] at h1
  have h2 := mul_le_fl 24 (by norm_num : (0 : ℝ) ≤ 8388607 / 8388608 * 2 ^ 127)
  have h3 := (abs_le.1 h1).1
  have h4 := (abs_le.1 (uqiIndex_abs_le _ box_weights (fun q => ((faintStripes 2 q : ℕ) : ℝ)) (fun q => ((faintStripes 6 q : ℕ) : ℝ)))).1
  have h5 : (8388607 / 8388608 * 2 ^ 127 : ℝ) * (1 - 1 / 2 ^ 24) ≤ 2 := by linarith
  norm_num at h5

/-- The partial result applied: stripes with more contrast. -/
example (big : ℝ) : |ssimRounded big (fl 24 (49 / 48)) 0 0
    (localStats (fun z => ∑ q : Fin 7 × Fin 7, 1 / 49 * z q) (fun q => if q.2.val < 2 then 1200 else 1000)
      (fun q => if q.2.val < 6 then 1200 else 1000)) -
    Spec.uqiIndex (fun _ : Fin 7 × Fin 7 => (1 : ℝ) / 49) (fun q => if q.2.val < 2 then 1200 else 1000)
      (fun q => if q.2.val < 6 then 1200 else 1000)| ≤ 1 / 60 := by
  have hr : ∀ n (q : Fin 7 × Fin 7), Representable 24 (if q.2.val < n then (1200 : ℝ) else 1000) := by
    intro n q
    split
    · rw [← Int.cast_ofNat, ← fl_int (p := 24) (by norm_num) 1200 (by norm_num)]; exact fl_representable 24 _
    · rw [← Int.cast_ofNat, ← fl_int (p := 24) (by norm_num) 1000 (by norm_num)]; exact fl_representable 24 _
  refine C203_local_partial _ _ _ _ _ big _ 1200 box_weights (exact_accurate _ box_weights) (fun q => by split <;> norm_num)
    (fun q => by split <;> norm_num) (fun q => by split <;> norm_num) (fun q => by split <;> norm_num) (hr 2) (hr 6)
    (by
      have := mul_le_fl 24 (by norm_num : (0 : ℝ) ≤ 49 / 48)
      refine le_trans ?_ this
      norm_num) ((fl_le_mul 24 (by norm_num)).trans (by norm_num)) (by norm_num) ?_
  rw [windowCov_eq _ _ _ box_weights, windowCov_eq _ _ _ box_weights]
  simp only [Fintype.sum_prod_type, Fin.sum_univ_seven]
  norm_num

end Viqa
