import Verif.Props.Mad
import Mathlib.Analysis.Complex.ExponentialBounds

/-!
C169: worse components never improve MAD.
-/

namespace Viqa

/-- **C169.** The index does not fall if the appearance index grows. -/
theorem C169_appearance {b1 b2 d a a' : ℝ} (h1 : 0 ≤ b1) (hd : 0 ≤ d) (ha : 0 ≤ a) (h : a ≤ a') :
    madCombine b1 b2 d a ≤ madCombine b1 b2 d a' := by
  obtain ⟨-, hq⟩ := madAlpha_range (b2 := b2) h1 hd
  exact mul_le_mul_of_nonneg_left (Real.rpow_le_rpow ha h (by linarith)) (Real.rpow_nonneg hd _)

example : madCombine 0.467 0.130 2 3 ≤ madCombine 0.467 0.130 2 5 :=
  C169_appearance (by norm_num) (by norm_num) (by norm_num) (by norm_num)

/-- `u e^(v - u) ≤ v` up to the maximum of `u e^(-u)`. -/
theorem exp_share {b u v : ℝ} (hb : 0 < b) (huv : u ≤ v) (hv : b * v ≤ 1) : u * Real.exp (b * v) ≤ v * Real.exp (b * u) := by
  have hs0 : 0 ≤ b * (v - u) := mul_nonneg hb.le (by linarith)
  have key : u * Real.exp (b * (v - u)) ≤ v := by
    by_cases hu : u ≤ 0
    · have : 1 ≤ Real.exp (b * (v - u)) := Real.one_le_exp hs0
      nlinarith
    · push Not at hu
      have hs1 : 0 < 1 - b * (v - u) := by nlinarith
      have h1 : 1 - b * (v - u) ≤ Real.exp (-(b * (v - u))) := by
        have := Real.add_one_le_exp (-(b * (v - u)))
        linarith
      have h2 : Real.exp (b * (v - u)) * (1 - b * (v - u)) ≤ 1 := by
        have := mul_le_mul_of_nonneg_left h1 (Real.exp_pos (b * (v - u))).le
        rwa [← Real.exp_add, add_neg_cancel, Real.exp_zero] at this
      have h3 : u ≤ v * (1 - b * (v - u)) := by nlinarith [mul_nonneg (sub_nonneg.2 huv) (sub_nonneg.2 hv)]
      have h4 : u * Real.exp (b * (v - u)) * (1 - b * (v - u)) ≤ v * (1 - b * (v - u)) := by
        calc u * Real.exp (b * (v - u)) * (1 - b * (v - u)) = u * (Real.exp (b * (v - u)) * (1 - b * (v - u))) := by ring
          _ ≤ u * 1 := mul_le_mul_of_nonneg_left h2 hu.le
          _ ≤ _ := by rw [mul_one]; exact h3
      exact le_of_mul_le_mul_right h4 hs1
  have : Real.exp (b * v) = Real.exp (b * (v - u)) * Real.exp (b * u) := by
    rw [← Real.exp_add]; congr 1; ring
  rw [this, ← mul_assoc]
  exact mul_le_mul_of_nonneg_right key (Real.exp_pos _).le

/-- The logarithm of the index. -/
theorem madCombine_log {b1 b2 d a : ℝ} (h1 : 0 ≤ b1) (h2 : 0 ≤ b2) (hd : 0 < d) (ha : 0 < a) :
    madCombine b1 b2 d a = Real.exp ((Real.log d - Real.log a) / (1 + b1 * Real.exp (b2 * Real.log d)) + Real.log a) := by
  unfold madCombine madAlpha
  rw [if_neg (fun h => absurd h.2 (not_lt.2 h2)), Real.rpow_def_of_pos hd, Real.rpow_def_of_pos ha, Real.rpow_def_of_pos hd,
    ← Real.exp_add]
  congr 1
  have hp : 0 < 1 + b1 * Real.exp (b2 * Real.log d) := by positivity
  rw [mul_comm (Real.log d) b2]
  field_simp
  ring

/-- **C169 (partial).** The index does not fall if the detection index grows, as long as the detection index is at most
`e^(1/beta_2)` (about 2000 for the default parameters) times the appearance index. -/
theorem C169_detection_partial {b1 b2 d d' a : ℝ} (h1 : 0 ≤ b1) (h2 : 0 < b2) (hd : 0 ≤ d) (ha : 0 ≤ a) (h : d ≤ d')
    (hle : d' ≤ Real.exp (1 / b2) * a) : madCombine b1 b2 d a ≤ madCombine b1 b2 d' a := by
  rcases hd.eq_or_lt with rfl | hd
  · rw [C39_zero h2]
    exact mul_nonneg (Real.rpow_nonneg h _) (Real.rpow_nonneg ha _)
  rcases ha.eq_or_lt with rfl | ha
  · rw [mul_zero] at hle; linarith
  have hd' : 0 < d' := lt_of_lt_of_le hd h
  rw [madCombine_log h1 h2.le hd ha, madCombine_log h1 h2.le hd' ha, Real.exp_le_exp, add_le_add_iff_right,
    div_le_div_iff₀ (by positivity) (by positivity)]
  have hu : Real.log d - Real.log a ≤ Real.log d' - Real.log a := sub_le_sub_right (Real.log_le_log hd h) _
  have hv : b2 * (Real.log d' - Real.log a) ≤ 1 := by
    have := Real.log_le_log hd' hle
    rw [Real.log_mul (Real.exp_pos _).ne' ha.ne', Real.log_exp] at this
    have h3 : Real.log d' - Real.log a ≤ 1 / b2 := by linarith
    rwa [le_div_iff₀ h2, mul_comm] at h3
  have key := exp_share h2 hu hv
  have e : ∀ z, Real.exp (b2 * Real.log z) = Real.exp (b2 * (Real.log z - Real.log a)) * Real.exp (b2 * Real.log a) := by
    intro z; rw [← Real.exp_add]; congr 1; ring
  rw [e d, e d']
  have hE : 0 ≤ b1 * Real.exp (b2 * Real.log a) := by positivity
  nlinarith [mul_le_mul_of_nonneg_left key hE]

example : madCombine 0.467 0.130 2 3 ≤ madCombine 0.467 0.130 7 3 := by
  refine C169_detection_partial (by norm_num) (by norm_num) (by norm_num) (by norm_num) (by norm_num) ?_
  have := Real.add_one_le_exp (1 / 0.130 : ℝ)
  norm_num at this ⊢
  linarith

/-- **C169 (refuted).** Beyond this bound the index falls: the weight moves to the small appearance index faster than the detection
index grows. With the default parameters and an appearance index of `e^(-20)`, the index of the detection index 1 is larger than
the one of the detection index `e^(100/13)` (about 2190). -/
theorem C169_refuted : ∃ d d' a : ℝ, 0 < a ∧ 0 < d ∧ d < d' ∧ madCombine 0.467 0.130 d' a < madCombine 0.467 0.130 d a := by
  refine ⟨1, Real.exp (100 / 13), Real.exp (-20), Real.exp_pos _, one_pos, Real.one_lt_exp_iff.2 (by norm_num), ?_⟩
  rw [madCombine_log (by norm_num) (by norm_num) (Real.exp_pos _) (Real.exp_pos _),
    madCombine_log (by norm_num) (by norm_num) one_pos (Real.exp_pos _), Real.exp_lt_exp, Real.log_exp, Real.log_exp, Real.log_one]
  norm_num
  have h := Real.exp_one_gt_d9
  rw [div_lt_div_iff₀ (by positivity) (by norm_num)]
  nlinarith

end Viqa
