import Verif.Props.SsimBlind

/-! C202: UQI lies between -1 and 1, as computed. UQI is `structural_similarity` with both constants 0
(`src/viqa/fr_metrics/uqi.py` 153-164). -/

namespace Viqa

/-- Contrast times structure without constants is at most 1 up to 1/80, if the sum of the variances is not small. -/
theorem contrast_structure_le_zero (big vx vy vxy a b w e : ℝ) (hab : 0 < a + b - 2 * e) (he : 4 * e ≤ (a + b - 2 * e) * (3 / 250))
    (hw : 2 * |w| ≤ a + b) (h1 : |vx - a| ≤ e) (h2 : |vy - b| ≤ e) (h3 : |vxy - w| ≤ e) :
    |contrastRounded big 0 vx vy * structureRounded big 0 vx vy vxy| ≤ 1 + 1 / 80 := by
  unfold contrastRounded structureRounded
  by_cases hneg : vx < 0 ∨ vy < 0
  · rw [if_pos hneg, if_pos hneg]
    simp [nanToNum]
  · rw [if_neg hneg, if_neg hneg]
    push Not at hneg
    have p24' : 1 ≤ 24 := by norm_num
    have hsx := fl_nonneg p24' (Real.sqrt_nonneg vx)
    have hsy := fl_nonneg p24' (Real.sqrt_nonneg vy)
    have e1 : fl 24 (fl 24 (fl 24 (2 * fl 24 (Real.sqrt vx)) * fl 24 (Real.sqrt vy)) + 0)
        = 2 * fl 24 (fl 24 (fl 24 (Real.sqrt vx) * fl 24 (Real.sqrt vy)) + 0) := by
      rw [fl_two_mul 24 (fl 24 (Real.sqrt vx)), fl_fl p24', mul_assoc, fl_two_mul 24 (_ * _), ← fl_two_mul 24 (_ + _)]
      congr 1
      ring
    rw [e1]
    have hD : 0 ≤ fl 24 (fl 24 (fl 24 (Real.sqrt vx) * fl 24 (Real.sqrt vy)) + 0) := by
      rw [add_zero]
      exact fl_nonneg p24' (fl_nonneg p24' (mul_nonneg hsx hsy))
    generalize fl 24 (fl 24 (fl 24 (Real.sqrt vx) * fl 24 (Real.sqrt vy)) + 0) = D at *
    have hv : 0 ≤ vx + vy := add_nonneg hneg.1 hneg.2
    have t2 := (abs_le.1 h1).1
    have t3 := (abs_le.1 h2).1
    set S := vx + vy with hS
    have hS0 : 0 < S := by linarith
    have hB : S * (1 - 1 / 2 ^ 24) ^ 2 ≤ fl 24 (fl 24 S + 0) := by
      have a1 := mul_le_fl 24 hv
      have b1 := fl_nonneg p24' hv
      have a2 := mul_le_fl 24 b1
      rw [add_zero]
      refine le_trans ?_ a2
      calc _ = S * (1 - 1 / 2 ^ 24) * (1 - 1 / 2 ^ 24) := by ring
        _ ≤ _ := mul_le_mul_of_nonneg_right a1 (by norm_num)
    have hA : 2 * |fl 24 (vxy + 0)| ≤ S * (1 + 3 / 250) * (1 + 1 / 2 ^ 24) := by
      rw [add_zero]
      have a1 := abs_fl_le 24 vxy
      have a2 : 2 * |vxy| ≤ S * (1 + 3 / 250) := by
        have t1 := abs_sub_abs_le_abs_sub vxy w
        nlinarith
      nlinarith
    have hB0 : 0 < fl 24 (fl 24 S + 0) := lt_of_lt_of_le (mul_pos hS0 (by norm_num)) hB
    generalize fl 24 (fl 24 S + 0) = B at *
    generalize fl 24 (vxy + 0) = A at *
    rw [divRounded_ne _ _ hB0.ne']
    rcases hD.eq_or_lt with hD | hD
    · rw [← hD]
      simp only [nanToNum, mul_zero, zero_div, fl_zero, zero_mul, abs_zero]
      norm_num
    rw [divRounded_ne _ _ hD.ne']
    simp only [nanToNum]
    rw [abs_mul]
    have r1 := abs_fl_le 24 (2 * D / B)
    have r2 := abs_fl_le 24 (A / D)
    have r3 : |2 * D / B| * |A / D| ≤ (1 + 3 / 250) * (1 + 1 / 2 ^ 24) / (1 - 1 / 2 ^ 24) ^ 2 := by
      rw [← abs_mul]
      have e2 : 2 * D / B * (A / D) = 2 * A / B := by field_simp
      rw [e2, abs_div, abs_mul, abs_two, abs_of_pos hB0]
      calc 2 * |A| / B ≤ S * (1 + 3 / 250) * (1 + 1 / 2 ^ 24) / (S * (1 - 1 / 2 ^ 24) ^ 2) :=
            div_le_div₀ (by positivity) hA (mul_pos hS0 (by norm_num)) hB
        _ = S * ((1 + 3 / 250) * (1 + 1 / 2 ^ 24)) / (S * (1 - 1 / 2 ^ 24) ^ 2) := by ring
        _ = _ := mul_div_mul_left _ _ hS0.ne'
    calc |fl 24 (2 * D / B)| * |fl 24 (A / D)|
        ≤ (|2 * D / B| * (1 + 1 / 2 ^ 24)) * (|A / D| * (1 + 1 / 2 ^ 24)) :=
          mul_le_mul r1 r2 (abs_nonneg _) (by positivity)
      _ = (|2 * D / B| * |A / D|) * (1 + 1 / 2 ^ 24) ^ 2 := by ring
      _ ≤ ((1 + 3 / 250) * (1 + 1 / 2 ^ 24) / (1 - 1 / 2 ^ 24) ^ 2) * (1 + 1 / 2 ^ 24) ^ 2 :=
          mul_le_mul_of_nonneg_right r3 (by norm_num)
      _ ≤ _ := by norm_num

/-- The statement of C202 for one position: the index without constants is at most 1 in absolute value up to 1/64,
under the condition `C` on the largest absolute pixel value and the sum of the two variances. -/
def UqiBounded (C : ℝ → ℝ → Prop) : Prop :=
  ∀ (P : Type) [Fintype P] (k : P → ℝ) (F : (P → ℝ) → ℝ) (x y : P → ℝ) (big norm M : ℝ),
    Weights k → Accurate k F → (∀ q, |x q| ≤ M) → (∀ q, |y q| ≤ M) → (∀ q, Representable 24 (x q)) →
    (∀ q, Representable 24 (y q)) → 1 ≤ norm → norm ≤ 2 → 0 < M → C M (Spec.windowCov k x x + Spec.windowCov k y y) →
    |ssimRounded big norm 0 0 (localStats F x y)| ≤ 1 + 1 / 64

/-- **C202**, one position: the index is at most 1 up to 1/64 if the variances of both windows add up to at least the
square of the largest pixel divided by 1000. -/
theorem C202_local_partial : UqiBounded (fun M v => M * M ≤ 1000 * v) := by
  intro P _ k F x y big norm M hk hF hx hy _ _ hn hn2 hM hC
  have hn0 : 0 ≤ norm := by linarith
  have nxy := covRounded_near k F hk hF x y M norm hx hy hM.le hn0 hn2
  have nxx := covRounded_near k F hk hF x x M norm hx hx hM.le hn0 hn2
  have nyy := covRounded_near k F hk hF y y M norm hy hy hM.le hn0 hn2
  have hw := weighted_cov k hk x y
  rw [windowCov_eq k x x hk, windowCov_eq k y y hk] at hC
  unfold ssimRounded localStats
  simp only
  rw [zero_div]
  have hMM : 0 < M * M := mul_pos hM hM
  have hl := luminance_le big 0 (fl 24 (F x)) (fl 24 (F y)) (fl_representable 24 _) le_rfl
  generalize hvx : ∑ q, k q * (x q * x q) - (∑ q, k q * x q) * ∑ q, k q * x q = a at *
  generalize hvy : ∑ q, k q * (y q * y q) - (∑ q, k q * y q) * ∑ q, k q * y q = b at *
  have hsum : M * M ≤ 1000 * (norm * a + norm * b) := by
    have h0 : 0 ≤ a + b := by linarith
    nlinarith [mul_le_mul_of_nonneg_right hn h0]
  have hcs := contrast_structure_le_zero big _ _ _ _ _ _ _ (by norm_num; linarith) (by norm_num; linarith) (by
    have := mul_le_mul_of_nonneg_left hw hn0
    rw [abs_mul, abs_of_nonneg hn0]
    linarith) nxx nyy nxy
  generalize covRounded norm (fl 24 (F fun q => fl 24 (x q * x q))) (fl 24 (F x)) (fl 24 (F x)) = vx at *
  generalize covRounded norm (fl 24 (F fun q => fl 24 (y q * y q))) (fl 24 (F y)) (fl 24 (F y)) = vy at *
  generalize covRounded norm (fl 24 (F fun q => fl 24 (x q * y q))) (fl 24 (F x)) (fl 24 (F y)) = vxy at *
  generalize luminanceRounded big 0 (fl 24 (F x)) (fl 24 (F y)) = l at *
  generalize contrastRounded big 0 vx vy = c at *
  generalize structureRounded big 0 vx vy vxy = s at *
  have t1 := abs_fl_le 24 (fl 24 (l * c) * s)
  have t2 := abs_fl_le 24 (l * c)
  rw [abs_mul] at t1 t2
  rw [abs_mul] at hcs
  have t3 : |fl 24 (l * c)| * |s| ≤ (1 + 1 / 2 ^ 21) * (1 + 1 / 80) * (1 + 1 / 2 ^ 24) := by
    calc |fl 24 (l * c)| * |s| ≤ |l| * |c| * (1 + 1 / 2 ^ 24) * |s| := mul_le_mul_of_nonneg_right t2 (abs_nonneg _)
      _ = |l| * (|c| * |s|) * (1 + 1 / 2 ^ 24) := by ring
      _ ≤ _ := mul_le_mul_of_nonneg_right (mul_le_mul hl hcs (by positivity) (by norm_num)) (by norm_num)
  refine t1.trans ((mul_le_mul_of_nonneg_right t3 (by norm_num)).trans ?_)
  norm_num

/-- **C202**, partially: the UQI of images whose windows have a standard deviation of at least about a thirtieth of the
brightest pixel lies between -1 and 1 up to 1/64, for every accurate filter and every order of the last additions.
Missing: images with smoother regions, see `C202_refuted`. -/
theorem C202_bounded_partial {P Q : Type} [Fintype P] (k : P → ℝ) (hk : Weights k) (F : Q → (P → ℝ) → ℝ)
    (hF : ∀ q, Accurate k (F q)) (x y : Q → P → ℝ) (big norm M : ℝ) (hn : 1 ≤ norm) (hn2 : norm ≤ 2)
    (hM : 0 < M) (hx : ∀ q i, |x q i| ≤ M) (hy : ∀ q i, |y q i| ≤ M)
    (rx : ∀ q i, Representable 24 (x q i)) (ry : ∀ q i, Representable 24 (y q i))
    (hv : ∀ q, M * M ≤ 1000 * (Spec.windowCov k (x q) (x q) + Spec.windowCov k (y q) (y q)))
    (pos : List Q) (hpos : pos.length ≤ 2 ^ 40) (t : Summation)
    (ht : t.leaves = pos.map (fun q => ssimRounded big norm 0 0 (localStats (F q) (x q) (y q)))) :
    |meanRounded 53 t| ≤ 1 + 1 / 64 := by
  have hsz : (t.size : ℤ) ≤ 2 ^ 40 := by
    unfold Summation.size
    rw [ht, List.length_map]
    exact_mod_cast hpos
  have := meanRounded_bounds 53 (by norm_num) t (-65) 65 (-6)
    (by rw [abs_neg, abs_of_nonneg (by norm_num)]; nlinarith) (by rw [abs_of_nonneg (by norm_num)]; nlinarith) (by
      intro v hv'
      rw [ht, List.mem_map] at hv'
      obtain ⟨q, -, rfl⟩ := hv'
      have := abs_le.1 (C202_local_partial P k (F q) (x q) (y q) big norm M hk (hF q) (hx q) (hy q) (rx q) (ry q) hn hn2 hM (hv q))
      constructor
      · have h := this.1
        norm_num at h ⊢
        linarith
      · have h := this.2
        norm_num at h ⊢
        linarith)
  rw [abs_le]
  constructor
  · have h := this.1
    norm_num at h ⊢
    linarith
  · have h := this.2
    norm_num at h ⊢
    linarith

/-- **C202**: the UQI of an image with itself is 1 up to 2^-22, whatever is lost in the variances. -/
theorem C202_identical {P Q : Type} (F : Q → (P → ℝ) → ℝ) (x : P → ℝ) (big norm : ℝ) (pos : List Q) (hpos : pos.length ≤ 2 ^ 30)
    (t : Summation) (ht : t.leaves = pos.map (fun q => ssimRounded big norm 0 0 (localStats (F q) x x))) :
    |meanRounded 53 t - 1| ≤ 1 / 2 ^ 22 :=
  C138_identical F x big norm 0 0 le_rfl pos hpos t ht

/-- An image of 11 bits with vertical stripes: the first `n` of seven columns are one gray value brighter. -/
def faintStripes (n : ℕ) : Fin 7 × Fin 7 → ℕ := fun q => if q.2.val < n then 1121 else 1120

theorem faint_eq (n : ℕ) (q : Fin 7 × Fin 7) :
    ((faintStripes n q : ℕ) : ℝ) = (((if q.2.val < n then 1121 else 1120 : ℚ)) : ℝ) := by
  unfold faintStripes
  split <;> norm_num

theorem faint_mul (m n : ℕ) (q : Fin 7 × Fin 7) :
    fl 24 (((faintStripes m q : ℕ) : ℝ) * (faintStripes n q : ℕ)) =
      ((fl 24 ((if q.2.val < m then 1121 else 1120 : ℚ) * (if q.2.val < n then 1121 else 1120 : ℚ)) : ℚ) : ℝ) := by
  rw [faint_eq, faint_eq, ← Rat.cast_mul, fl_ratCast]

theorem contrast_none (big : ℝ) : contrastRounded big 0 0 0 = 1 := by
  unfold contrastRounded
  simp only [lt_irrefl, or_self, if_false, Real.sqrt_zero, fl_zero, mul_zero, add_zero, divRounded_zero, nanToNum]

theorem structure_none (big : ℝ) (w : ℚ) (h : fl 24 w < 0) : structureRounded big (0 / 2) 0 0 (w : ℝ) = -big := by
  unfold structureRounded
  have h0 : fl 24 (w : ℝ) < 0 := by
    rw [← fl_ratCast, ← Rat.cast_zero, Rat.cast_lt]; exact h
  simp only [lt_irrefl, or_self, if_false, Real.sqrt_zero, fl_zero, mul_zero, add_zero, zero_div]
  unfold divRounded npDiv
  rw [if_pos rfl, if_neg h0.ne, if_neg h0.not_gt]
  rfl

/-- The computed UQI of two faintly striped images is a number near the most negative number of float32. -/
theorem C202_actual (big : ℝ) : ssimRounded big (fl 24 (49 / 48)) 0 0
    (localStats (fun z => ∑ q : Fin 7 × Fin 7, 1 / 49 * z q) (fun q => (faintStripes 2 q : ℝ)) (fun q => (faintStripes 6 q : ℝ))) =
      -fl 24 (8388607 / 8388608 * big) := by
  have hn : fl 24 ((49 : ℝ) / 48) = ((8563371 / 8388608 : ℚ) : ℝ) := by
    rw [← fl_value 24 (49 / 48) _ (by decide +kernel)]; push_cast; rfl
  have hx : fl 24 (∑ q : Fin 7 × Fin 7, 1 / 49 * ((faintStripes 2 q : ℕ) : ℝ)) = _ :=
    box_stripes _ (fun j => if j < 2 then 1121 else 1120) (fun q => faint_eq 2 q) _ rfl
  have hy : fl 24 (∑ q : Fin 7 × Fin 7, 1 / 49 * ((faintStripes 6 q : ℕ) : ℝ)) = _ :=
    box_stripes _ (fun j => if j < 6 then 1121 else 1120) (fun q => faint_eq 6 q) _ rfl
  have hm : ∀ m n, fl 24 (∑ q : Fin 7 × Fin 7, 1 / 49 * fl 24 (((faintStripes m q : ℕ) : ℝ) * (faintStripes n q : ℕ))) = _ :=
    fun m n => box_stripes _ (fun j => fl 24 ((if j < m then 1121 else 1120 : ℚ) * (if j < n then 1121 else 1120 : ℚ)))
      (fun q => faint_mul m n q) _ rfl
  have cov : ∀ a b c v : ℚ, fl 24 ((8563371 / 8388608 : ℚ) * fl 24 (a - fl 24 (b * c))) = v →
      covRounded ((8563371 / 8388608 : ℚ) : ℝ) (a : ℝ) (b : ℝ) (c : ℝ) = (v : ℝ) := by
    intro a b c v h
    rw [covRounded_cast, h]
  rw [hn]
  unfold ssimRounded localStats
  simp only
  rw [hx, hy, hm, hm, hm, cov _ _ _ 0 (by decide +kernel), cov _ _ _ 0 (by decide +kernel),
    cov _ _ _ (-8563371 / 67108864) (by decide +kernel), ← Rat.cast_zero (α := ℝ), luminance_cast _ _ _ _ (by decide +kernel)]
  have hlum : ∀ v : ℚ, v = 8388607 / 8388608 → (v : ℝ) = 8388607 / 8388608 := fun v hv => by rw [hv]; push_cast; rfl
  rw [hlum _ (by decide +kernel), Rat.cast_zero]
  rw [contrast_none, structure_none _ _ (by decide +kernel), mul_one]
  have hr : fl 24 ((8388607 : ℝ) / 8388608) = 8388607 / 8388608 := by
    have := fl_value 24 (8388607 / 8388608) (8388607 / 8388608) (by decide +kernel)
    push_cast at this
    exact this
  rw [hr, mul_neg, fl_neg]

/-- **C202**, refuted: two images of 11 bits which differ by one gray value in four of seven columns, and whose UQI is
about the most negative number of float32, -3.4e38. -/
theorem C202_refuted : ¬ UqiBounded (fun _ _ => True) := by
  intro h
  have hb : ∀ n q, |((faintStripes n q : ℕ) : ℝ)| ≤ 2048 := by
    intro n q
    unfold faintStripes
    split <;> norm_num
  have hr : ∀ n q, Representable 24 ((faintStripes n q : ℕ) : ℝ) := by
    intro n q
    have e : (((faintStripes n q : ℕ) : ℤ) : ℝ) = ((faintStripes n q : ℕ) : ℝ) := Int.cast_natCast _
    rw [← e, ← fl_int (p := 24) (by norm_num) _ (by unfold faintStripes; split <;> norm_num)]
    exact fl_representable 24 _
  have h1 := h (Fin 7 × Fin 7) (fun _ => 1 / 49) (fun z => ∑ q : Fin 7 × Fin 7, 1 / 49 * z q)
    (fun q => (faintStripes 2 q : ℝ)) (fun q => (faintStripes 6 q : ℝ)) (2 ^ 127)
    (fl 24 (49 / 48)) 2048 box_weights
    (exact_accurate _ box_weights) (hb 2) (hb 6) (hr 2) (hr 6)
    (by
      have := mul_le_fl 24 (by norm_num : (0 : ℝ) ≤ 49 / 48)
      refine le_trans ?_ this
      norm_num)
    ((fl_le_mul 24 (by norm_num)).trans (by norm_num)) (by norm_num) trivial
  rw [C202_actual, abs_neg] at h1
  have h2 := mul_le_fl 24 (by norm_num : (0 : ℝ) ≤ 8388607 / 8388608 * 2 ^ 127)
  have h3 := le_abs_self (fl 24 ((8388607 : ℝ) / 8388608 * 2 ^ 127))
  have h4 := h2.trans (h3.trans h1)
  norm_num at h4

/-! The same for a volume of 8 bits: one window of 7 x 7 x 7 voxels. -/

/-- The uniform filter of scipy for volumes: means along the three axes, stored as float32 in between. -/
noncomputable def boxThree (z : Fin 7 × Fin 7 × Fin 7 → ℝ) : ℝ :=
  ∑ l : Fin 7, 1 / 7 * fl 24 (∑ j : Fin 7, 1 / 7 * fl 24 (∑ i : Fin 7, 1 / 7 * z (i, j, l)))

/-- A uniform volume except for the voxel in the centre. -/
def centreVoxel (n : ℕ) : Fin 7 × Fin 7 × Fin 7 → ℕ := fun q => if q = (3, 3, 3) then n else 192

theorem boxThree_centre (a b : ℚ) (f : Fin 7 × Fin 7 × Fin 7 → ℝ) (hf : ∀ q, f q = ((if q = (3, 3, 3) then a else b : ℚ) : ℝ)) (v : ℚ)
    (hb : fl 24 ((6 * b + b) / 7) = b)
    (hv : fl 24 ((6 * b + fl 24 ((6 * b + fl 24 ((6 * b + a) / 7)) / 7)) / 7) = v) : fl 24 (boxThree f) = (v : ℝ) := by
  unfold boxThree
  have h1 : ∀ j l, fl 24 (∑ i : Fin 7, 1 / 7 * f (i, j, l)) = ((if (j, l) = (3, 3) then fl 24 ((6 * b + a) / 7) else b : ℚ) : ℝ) := by
    intro j l
    by_cases hj : (j, l) = (3, 3)
    · rw [if_pos hj, sum_seven_centre a b (fun i => f (i, j, l)) (fun i => by rw [hf]; simp [hj]), fl_ratCast]
    · rw [if_neg hj, sum_seven_centre b b (fun i => f (i, j, l)) (fun i => by rw [hf]; simp [hj]), ← fl_ratCast, hb]
  have h2 : ∀ l, fl 24 (∑ j : Fin 7, 1 / 7 * fl 24 (∑ i : Fin 7, 1 / 7 * f (i, j, l))) =
      ((if l = 3 then fl 24 ((6 * b + fl 24 ((6 * b + a) / 7)) / 7) else b : ℚ) : ℝ) := by
    intro l
    by_cases hl : l = 3
    · rw [if_pos hl, sum_seven_centre (fl 24 ((6 * b + a) / 7)) b _ (fun j => by rw [h1]; simp [hl]), fl_ratCast]
    · rw [if_neg hl, sum_seven_centre b b _ (fun j => by rw [h1]; simp [hl]), ← fl_ratCast, hb]
  rw [sum_seven_centre _ _ _ h2, ← hv, fl_ratCast]

theorem centreVoxel_eq (n : ℕ) (q : Fin 7 × Fin 7 × Fin 7) :
    ((centreVoxel n q : ℕ) : ℝ) = ((if q = (3, 3, 3) then (n : ℚ) else 192 : ℚ) : ℝ) := by
  unfold centreVoxel
  split <;> norm_num

theorem centreVoxel_mul (m n : ℕ) (q : Fin 7 × Fin 7 × Fin 7) :
    fl 24 (((centreVoxel m q : ℕ) : ℝ) * (centreVoxel n q : ℕ)) =
      ((if q = (3, 3, 3) then fl 24 ((m : ℚ) * n) else fl 24 (192 * 192) : ℚ) : ℝ) := by
  rw [centreVoxel_eq, centreVoxel_eq, ← Rat.cast_mul, ← fl_ratCast]
  split <;> rfl

/-- The computed UQI of the two volumes with 193 and 191 in the centre. -/
theorem C202_volume (big : ℝ) : ssimRounded big (fl 24 (343 / 342)) 0 0
    (localStats boxThree (fun q => (centreVoxel 193 q : ℝ)) (fun q => (centreVoxel 191 q : ℝ))) = -fl 24 big := by
  have hn : fl 24 ((343 : ℝ) / 342) = ((525821 / 524288 : ℚ) : ℝ) := by
    rw [← fl_value 24 (343 / 342) _ (by decide +kernel)]; push_cast; rfl
  have hx : fl 24 (boxThree (fun q => ((centreVoxel 193 q : ℕ) : ℝ))) = _ :=
    boxThree_centre 193 192 _ (fun q => centreVoxel_eq 193 q) _ (by decide +kernel) rfl
  have hy : fl 24 (boxThree (fun q => ((centreVoxel 191 q : ℕ) : ℝ))) = _ :=
    boxThree_centre 191 192 _ (fun q => centreVoxel_eq 191 q) _ (by decide +kernel) rfl
  have hm : ∀ m n, fl 24 (boxThree (fun q => fl 24 (((centreVoxel m q : ℕ) : ℝ) * (centreVoxel n q : ℕ)))) = _ :=
    fun m n => boxThree_centre _ _ _ (fun q => centreVoxel_mul m n q) _ (by decide +kernel) rfl
  have cov : ∀ a b c v : ℚ, fl 24 ((525821 / 524288 : ℚ) * fl 24 (a - fl 24 (b * c))) = v →
      covRounded ((525821 / 524288 : ℚ) : ℝ) (a : ℝ) (b : ℝ) (c : ℝ) = (v : ℝ) := by
    intro a b c v h
    rw [covRounded_cast, h]
  rw [hn]
  unfold ssimRounded localStats
  simp only
  rw [hx, hy, hm, hm, hm, cov _ _ _ 0 (by decide +kernel), cov _ _ _ 0 (by decide +kernel),
    cov _ _ _ (-525821 / 134217728) (by decide +kernel), ← Rat.cast_zero (α := ℝ), luminance_cast _ _ _ _ (by decide +kernel)]
  have hlum : ∀ v : ℚ, v = 1 → (v : ℝ) = 1 := fun v hv => by rw [hv, Rat.cast_one]
  rw [hlum _ (by decide +kernel), Rat.cast_zero, contrast_none, structure_none _ _ (by decide +kernel), mul_one, fl_one, one_mul, fl_neg]

/-- **C202**, refuted for volumes of 8 bits: two volumes that are uniform except for one voxel, which is one gray value brighter in
the first and one gray value darker in the second, have a UQI of about -3.4e38. -/
theorem C202_volume_refuted : ∃ x y : Fin 7 × Fin 7 × Fin 7 → ℕ, (∀ q, x q < 2 ^ 8 ∧ y q < 2 ^ 8) ∧ (∀ q, x q ≤ y q + 2 ∧ y q ≤ x q + 2) ∧
    ssimRounded (2 ^ 127) (fl 24 (343 / 342)) 0 0 (localStats boxThree (fun q => (x q : ℝ)) (fun q => (y q : ℝ))) < -2 ^ 126 := by
  refine ⟨centreVoxel 193, centreVoxel 191, fun q => ?_, fun q => ?_, ?_⟩
  · unfold centreVoxel; split <;> norm_num
  · unfold centreVoxel; split <;> norm_num
  · rw [C202_volume]
    have h2 := mul_le_fl 24 (by norm_num : (0 : ℝ) ≤ 2 ^ 127)
    have h3 : (2 : ℝ) ^ 126 < 2 ^ 127 * (1 - 1 / 2 ^ 24) := by norm_num
    exact neg_lt_neg (h3.trans_le h2)

/-- One of the two images with itself. -/
example (big : ℝ) : |meanRounded 53 (.leaf (ssimRounded big (fl 24 (49 / 48)) 0 0
    (localStats (fun z => ∑ q : Fin 7 × Fin 7, 1 / 49 * z q) (fun q => (faintStripes 2 q : ℝ)) (fun q => (faintStripes 2 q : ℝ))))) - 1| ≤
    1 / 2 ^ 22 :=
  C202_identical (Q := Unit) (fun _ => _) _ big _ [()] (by norm_num) _ rfl

/-- In exact arithmetic the index of the two images lies between -1 and 1: the variances are not 0. -/
example : Spec.windowCov (fun _ : Fin 7 × Fin 7 => (1 : ℝ) / 49) (fun q => (faintStripes 2 q : ℝ))
    (fun q => (faintStripes 2 q : ℝ)) = 10 / 49 := by
  rw [windowCov_eq _ _ _ box_weights]
  simp only [Fintype.sum_prod_type, Fin.sum_univ_seven, faintStripes]
  norm_num

/-- The partial result applied: the same stripes with more contrast. -/
example (big : ℝ) : |ssimRounded big (fl 24 (49 / 48)) 0 0
    (localStats (fun z => ∑ q : Fin 7 × Fin 7, 1 / 49 * z q) (fun q => if q.2.val < 2 then 1200 else 1000)
      (fun q => if q.2.val < 6 then 1200 else 1000))| ≤ 1 + 1 / 64 := by
  have hr : ∀ n (q : Fin 7 × Fin 7), Representable 24 (if q.2.val < n then (1200 : ℝ) else 1000) := by
    intro n q
    split
    · rw [← Int.cast_ofNat, ← fl_int (p := 24) (by norm_num) 1200 (by norm_num)]; exact fl_representable 24 _
    · rw [← Int.cast_ofNat, ← fl_int (p := 24) (by norm_num) 1000 (by norm_num)]; exact fl_representable 24 _
  refine C202_local_partial _ _ _ _ _ big _ 1200 box_weights (exact_accurate _ box_weights) (fun q => by split <;> norm_num)
    (fun q => by split <;> norm_num) (hr 2) (hr 6)
    (by
      have := mul_le_fl 24 (by norm_num : (0 : ℝ) ≤ 49 / 48)
      refine le_trans ?_ this
      norm_num) ((fl_le_mul 24 (by norm_num)).trans (by norm_num)) (by norm_num) ?_
  rw [windowCov_eq _ _ _ box_weights, windowCov_eq _ _ _ box_weights]
  simp only [Fintype.sum_prod_type, Fin.sum_univ_seven]
  norm_num

end Viqa
