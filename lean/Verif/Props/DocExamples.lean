import Verif.Props.Uqi
import Verif.Props.Distance
import Mathlib.Algebra.Order.Round
import Mathlib.Tactic.Linarith

/-!
Property C171: the scores of uniform images, which the examples of the documentation show.
-/

namespace Viqa

theorem flat_comparable (sh : List Nat) (h : sh.prod ≠ 0) (c d : ℝ) : Comparable (flat sh c) (flat sh d) := ⟨rfl, h⟩

/-- **C171.** RMSE of two uniform images of any shape is the distance of the gray values. The example of `rmse.py` (4-21)
shows 1 for black and white, 0 for black and black. -/
theorem C171_rmse (sh : List Nat) (h : sh.prod ≠ 0) (c d : ℝ) : rmse (flat sh c) (flat sh d) = .ok |c - d| := by
  rw [rmse_eq (flat_comparable sh h c d)]
  have hs : ((indices (flat sh c).shape).map (fun i => ((flat sh c).get i - (flat sh d).get i) ^ 2)).sum =
      (flat sh c).size * (c - d) ^ 2 := by
    have : (indices (flat sh c).shape).map (fun i => ((flat sh c).get i - (flat sh d).get i) ^ 2) =
        List.replicate (indices sh).length ((c - d) ^ 2) := by
      rw [List.eq_replicate_iff]
      refine ⟨by simp [flat], ?_⟩
      intro v hv
      obtain ⟨i, -, rfl⟩ := List.mem_map.1 hv
      rfl
    rw [this, List.sum_replicate, length_indices, nsmul_eq_mul]
    rfl
  have hne : ((flat sh c).size : ℝ) ≠ 0 := by
    have : (flat sh c).size ≠ 0 := h
    exact_mod_cast this
  rw [hs, mul_div_cancel_left₀ _ hne, Real.sqrt_sq_eq_abs]

example : rmse (flat [256, 256] 0) (flat [256, 256] 1) = .ok 1 ∧ rmse (flat [256, 256] 0) (flat [256, 256] 0) = .ok 0 := by
  rw [C171_rmse _ (by decide), C171_rmse _ (by decide)]
  norm_num

/-- **C171.** PSNR of two uniform images: infinite for equal gray values, otherwise determined by their distance. The example
of `psnr.py` (4-22) shows 0 for black and white with data range 1. -/
theorem C171_psnr (sh : List Nat) (h : sh.prod ≠ 0) (c d r : ℝ) (hr : 0 < r) :
    psnr r (flat sh c) (flat sh c) = .ok .infinite ∧
    (c ≠ d → psnr r (flat sh c) (flat sh d) = .ok (.finite (20 * Real.logb 10 (r / |c - d|)))) := by
  refine ⟨(C29_infinite_iff _ _ _).2 ⟨rfl, fun _ _ => rfl⟩, fun hcd => ?_⟩
  have hns : ¬ (flat sh c).Same (flat sh d) := by
    intro hs
    have h0 := (C28_zero_iff _ _ (flat_comparable sh h c d)).2 hs
    rw [C171_rmse sh h] at h0
    simp only [Except.ok.injEq, abs_eq_zero, sub_eq_zero] at h0
    exact hcd h0
  obtain ⟨v, hv, -, hp⟩ := C29_formula r _ _ (flat_comparable sh h c d) hns hr.ne'
  rw [C171_rmse sh h] at hv
  cases hv
  rw [hp, abs_of_pos hr]

example : psnr 1 (flat [256, 256] 0) (flat [256, 256] 1) = .ok (.finite 0) := by
  rw [(C171_psnr _ (by decide) 0 1 1 (by norm_num)).2 (by norm_num)]
  norm_num

/-- **C171.** SSIM (default arguments) and UQI of uniform images that fit the window are the luminance comparison of the
gray values, with a nonzero data range; for equal gray values they are 1 as in the examples of `ssim.py` and `uqi.py`. -/
theorem C171_ssim_partial (big r : ℝ) (hr : r ≠ 0) (sh : List Nat) (hsh : sh ≠ []) (hfit : ∀ n ∈ sh, 11 ≤ n) (c d : ℝ) :
    structuralSimilarity big {} r (flat sh c) (flat sh d) =
      .ok ((2 * c * d + (r / 100) ^ 2) / (c ^ 2 + d ^ 2 + (r / 100) ^ 2)) ∧
    uqi big r none (flat sh c) (flat sh d) =
      .ok ((2 * c * d + (r / 100) ^ 2) / (c ^ 2 + d ^ 2 + (r / 100) ^ 2)) := by
  have hlum : nanToNum big (luminanceTerm c d ((1 / 100 * r) ^ 2)) =
      (2 * c * d + (r / 100) ^ 2) / (c ^ 2 + d ^ 2 + (r / 100) ^ 2) := by
    have e : 1 / 100 * r = r / 100 := by ring
    have hpos : 0 < (r / 100) ^ 2 := by positivity
    have hb : c ^ 2 + d ^ 2 + (r / 100) ^ 2 ≠ 0 := by positivity
    rw [e]
    simp only [luminanceTerm, npDiv, if_neg hb, nanToNum]
  constructor
  · have hw : SsimArgs.window {} = 11 := by
      have : gaussRadius (3 / 2) = 5 := by
        unfold gaussRadius
        rw [Nat.floor_eq_iff (by norm_num)]
        norm_num
      simp [SsimArgs.window, this]
    rw [ssim_flat big r {} sh c d hsh ⟨by norm_num, by norm_num, by norm_num, by rw [hw]; exact hfit, by rw [hw]⟩
      (Or.inl rfl) (by simp) .reflect (by simp [borderMode]) rfl rfl rfl]
    rw [← hlum]
  · rw [C33_actual, ssim_flat big r _ sh c d hsh ⟨by norm_num, by norm_num, by norm_num, by
        intro n hn
        have := hfit n hn
        simp only [SsimArgs.window]
        simp
        omega, by simp [SsimArgs.window]⟩
      (Or.inr rfl) (by simp) .reflect (by simp [borderMode]) rfl rfl rfl]
    rw [← hlum]

example (big : ℝ) : structuralSimilarity big {} 1 (flat [256, 256] 0) (flat [256, 256] 0) = .ok 1 := by
  rw [(C171_ssim_partial big 1 (by norm_num) [256, 256] (by simp) (by simp) 0 0).1]
  norm_num

/-- `numpy.round(x, 2)` for a number that is not halfway between two hundredths. -/
noncomputable def hundredths (x : ℝ) : ℝ := round (x * 100) / 100

/-- **C171 is false** for the examples of SSIM and UQI with a black and a white image (`ssim.py` 16-27, `uqi.py` 21-32): the
score is not the 0.0 that is shown, and the printed score is 0, not the 1.0 that is shown. -/
theorem C171_refuted (big : ℝ) : ∃ v, structuralSimilarity big {} 1 (flat [256, 256] 0) (flat [256, 256] 1) = .ok v ∧
    uqi big 1 none (flat [256, 256] 0) (flat [256, 256] 1) = .ok v ∧ v ≠ 0 ∧ hundredths v = 0 := by
  obtain ⟨h1, h2⟩ := C171_ssim_partial big 1 (by norm_num) [256, 256] (by simp) (by simp) 0 1
  refine ⟨_, h1, h2, by norm_num, ?_⟩
  have : round ((2 * 0 * 1 + (1 / 100 : ℝ) ^ 2) / (0 ^ 2 + 1 ^ 2 + (1 / 100) ^ 2) * 100) = 0 := by
    rw [round_eq_zero_iff]
    constructor <;> norm_num
  unfold hundredths
  rw [this]
  norm_num

end Viqa
