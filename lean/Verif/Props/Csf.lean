import Verif.Model.Csf
import Mathlib.Analysis.Convex.SpecificFunctions.Basic
import Mathlib.Analysis.SpecialFunctions.Trigonometric.Complex
import Mathlib.Tactic.Linarith
import Mathlib.Tactic.NormNum
import Mathlib.Tactic.Positivity
import Mathlib.Tactic.FieldSimp

/-! C120: the contrast sensitivity of MAD. -/

namespace Viqa

/-! ### The direction -/

theorem cos_four (x : ℝ) : Real.cos (4 * x) = 8 * Real.cos x ^ 4 - 8 * Real.cos x ^ 2 + 1 := by
  rw [show 4 * x = 2 * (2 * x) by ring, Real.cos_two_mul, Real.cos_two_mul]; ring

theorem csfDirection_bounds (z : ℂ) : 0.7 ≤ csfDirection z ∧ csfDirection z ≤ 1 := by
  unfold csfDirection
  have h1 := Real.neg_one_le_cos (4 * z.arg)
  have h2 := Real.cos_le_one (4 * z.arg)
  constructor <;> nlinarith

theorem csfDirection_eq {z : ℂ} (hz : z ≠ 0) :
    csfDirection z = 1.2 * ((z.re / ‖z‖) ^ 4 - (z.re / ‖z‖) ^ 2) + 1 := by
  unfold csfDirection
  rw [cos_four, Complex.cos_arg hz]; ring

theorem norm_sq_parts (z : ℂ) : ‖z‖ ^ 2 = z.re ^ 2 + z.im ^ 2 := by
  rw [← Complex.normSq_eq_norm_sq, Complex.normSq_apply]; ring

/-- The radius is the same for numbers with the same absolute values of their parts, in any order. -/
theorem csfRadius_same {z w : ℂ} (h : z.re ^ 2 = w.re ^ 2 ∧ z.im ^ 2 = w.im ^ 2) : csfRadius z = csfRadius w := by
  have hn : ‖z‖ = ‖w‖ := by
    have : ‖z‖ ^ 2 = ‖w‖ ^ 2 := by rw [norm_sq_parts, norm_sq_parts, h.1, h.2]
    exact (pow_left_inj₀ (norm_nonneg _) (norm_nonneg _) (by norm_num)).1 this
  unfold csfRadius
  by_cases hz : z = 0
  · have hw : w = 0 := by rw [← norm_eq_zero, ← hn, hz, norm_zero]
    rw [hz, hw]
  · have hw : w ≠ 0 := by
      intro hw; rw [hw, norm_zero, norm_eq_zero] at hn; exact hz hn
    have e : (z.re / ‖z‖) ^ 2 = (w.re / ‖w‖) ^ 2 := by rw [div_pow, div_pow, h.1, hn]
    have e4 : (z.re / ‖z‖) ^ 4 = (w.re / ‖w‖) ^ 4 := by
      rw [show 4 = 2 * 2 from rfl, pow_mul, pow_mul, e]
    rw [csfDirection_eq hz, csfDirection_eq hw, e4, e, hn]

theorem csfRadius_swap {z w : ℂ} (h : z.re = w.im ∧ z.im = w.re) : csfRadius z = csfRadius w := by
  have hn : ‖z‖ = ‖w‖ := by
    have : ‖z‖ ^ 2 = ‖w‖ ^ 2 := by rw [norm_sq_parts, norm_sq_parts, h.1, h.2]; ring
    exact (pow_left_inj₀ (norm_nonneg _) (norm_nonneg _) (by norm_num)).1 this
  unfold csfRadius
  by_cases hz : z = 0
  · have hw : w = 0 := by rw [← norm_eq_zero, ← hn, hz, norm_zero]
    rw [hz, hw]
  · have hw : w ≠ 0 := by
      intro hw; rw [hw, norm_zero, norm_eq_zero] at hn; exact hz hn
    rw [csfDirection_eq hz, csfDirection_eq hw, hn, h.1]
    have hp : ‖w‖ ≠ 0 := norm_ne_zero_iff.2 hw
    have hs : (w.im / ‖w‖) ^ 2 = 1 - (w.re / ‖w‖) ^ 2 := by
      rw [div_pow, div_pow, norm_sq_parts]
      have : w.re ^ 2 + w.im ^ 2 ≠ 0 := by rw [← norm_sq_parts]; exact pow_ne_zero _ hp
      field_simp; ring
    have : (w.im / ‖w‖) ^ 4 - (w.im / ‖w‖) ^ 2 = (w.re / ‖w‖) ^ 4 - (w.re / ‖w‖) ^ 2 := by
      rw [show (w.im / ‖w‖) ^ 4 = ((w.im / ‖w‖) ^ 2) ^ 2 by ring, hs]; ring
    rw [this]

/-! ### The grid -/

theorem csfPlane_parts (m n : Nat) (nfreq : ℝ) (i j : Nat) :
    csfPlane m n nfreq i j = ⟨(-(n : ℝ) / 2 + 1 / 2 + j) * (2 * nfreq / n), (-(m : ℝ) / 2 + 1 / 2 + i) * (2 * nfreq / n)⟩ := by
  have : csfPlane m n nfreq i j =
      (((-(n : ℝ) / 2 + 1 / 2 + j) * (2 * nfreq / n) : ℝ) : ℂ) + (((-(m : ℝ) / 2 + 1 / 2 + i) * (2 * nfreq / n) : ℝ) : ℂ) * Complex.I := by
    unfold csfPlane; push_cast; ring
  rw [this]; exact Complex.mk_eq_add_mul_I _ _ |>.symm

/-- Mirrored positions have the same weight. -/
theorem C120_mirror (m n : Nat) (nfreq lam fpeak : ℝ) {i j : Nat} (hi : i < m) (hj : j < n) :
    contrastSensitivity m n nfreq lam fpeak (m - 1 - i) j = contrastSensitivity m n nfreq lam fpeak i j ∧
    contrastSensitivity m n nfreq lam fpeak i (n - 1 - j) = contrastSensitivity m n nfreq lam fpeak i j := by
  have key : ∀ {a k : Nat}, k < a → (-(a : ℝ) / 2 + 1 / 2 + ((a - 1 - k : Nat) : ℝ)) = -(-(a : ℝ) / 2 + 1 / 2 + k) := by
    intro a k h
    rw [Nat.cast_sub (by omega), Nat.cast_sub (by omega)]; push_cast; ring
  constructor
  · unfold contrastSensitivity
    rw [csfRadius_same]
    rw [csfPlane_parts, csfPlane_parts]
    refine ⟨rfl, ?_⟩
    simp only [key hi]; ring
  · unfold contrastSensitivity
    rw [csfRadius_same]
    rw [csfPlane_parts, csfPlane_parts]
    refine ⟨?_, rfl⟩
    simp only [key hj]; ring

/-- Square images: exchanging rows and columns exchanges the weights. The full claim is the same for all
sizes: `contrastSensitivity m n .. i j = contrastSensitivity n m .. j i`. -/
theorem C120_transpose_partial (n : Nat) (nfreq lam fpeak : ℝ) (i j : Nat) :
    contrastSensitivity n n nfreq lam fpeak i j = contrastSensitivity n n nfreq lam fpeak j i := by
  unfold contrastSensitivity
  rw [csfRadius_swap]
  rw [csfPlane_parts, csfPlane_parts]
  exact ⟨rfl, rfl⟩

/-- The weights are positive. -/
theorem C120_positive (m n : Nat) (nfreq lam fpeak : ℝ) (hl : 0 ≤ lam) (i j : Nat) :
    0 < contrastSensitivity m n nfreq lam fpeak i j := by
  unfold contrastSensitivity csfWeight
  split_ifs
  · norm_num
  · have h0 : 0 ≤ csfRadius (csfPlane m n nfreq i j) :=
      div_nonneg (norm_nonneg _) (by have := (csfDirection_bounds (csfPlane m n nfreq i j)).1; norm_num at this; linarith)
    have := mul_nonneg hl h0
    positivity

/-! ### The weight -/

theorem rpow_gap {t u : ℝ} (ht : 0.9 ≤ t) (h : t < u) : (u - t) / (0.0192 + t) ≤ u ^ (1.1 : ℝ) - t ^ (1.1 : ℝ) := by
  have ht0 : 0 < t := by norm_num at ht; linarith
  have e : t ^ (1.1 : ℝ) = t * t ^ (0.1 : ℝ) := by
    rw [show (1.1 : ℝ) = 1 + 0.1 by norm_num, Real.rpow_add ht0, Real.rpow_one]
  have hroot : (0.9895 : ℝ) ≤ t ^ (0.1 : ℝ) := by
    have h1 : (0.9895 : ℝ) = ((0.9895 : ℝ) ^ (10 : ℕ)) ^ (0.1 : ℝ) := by
      rw [← Real.rpow_natCast, ← Real.rpow_mul (by norm_num)]
      norm_num
    rw [h1]
    exact Real.rpow_le_rpow (by positivity) (le_trans (by norm_num) ht) (by norm_num)
  have hb : 1 + 1.1 * ((u - t) / t) ≤ (1 + (u - t) / t) ^ (1.1 : ℝ) :=
    one_add_mul_self_le_rpow_one_add (by have := div_pos (sub_pos.2 h) ht0; linarith) (by norm_num)
  have hu : u ^ (1.1 : ℝ) = t ^ (1.1 : ℝ) * (1 + (u - t) / t) ^ (1.1 : ℝ) := by
    have hq : u = t * (1 + (u - t) / t) := by field_simp; ring
    rw [← Real.mul_rpow ht0.le (by have := div_pos (sub_pos.2 h) ht0; linarith), ← hq]
  have hpos : 0 < t ^ (1.1 : ℝ) := Real.rpow_pos_of_pos ht0 _
  have hm := mul_le_mul_of_nonneg_left hb hpos.le
  rw [← hu] at hm
  have hc : t ^ (1.1 : ℝ) * (1 + 1.1 * ((u - t) / t)) = t ^ (1.1 : ℝ) + 1.1 * t ^ (0.1 : ℝ) * (u - t) := by
    rw [e]
    field_simp
  rw [hc] at hm
  have hden : (0.9192 : ℝ) ≤ 0.0192 + t := by norm_num at ht ⊢; linarith
  have h1 : 1 ≤ (1.1 * t ^ (0.1 : ℝ)) * (0.0192 + t) := by
    have : (1.1 * 0.9895 : ℝ) * 0.9192 ≤ (1.1 * t ^ (0.1 : ℝ)) * (0.0192 + t) :=
      mul_le_mul (by linarith) hden (by norm_num) (by positivity)
    norm_num at this ⊢
    linarith
  rw [div_le_iff₀ (by linarith)]
  nlinarith [mul_le_mul_of_nonneg_right h1 (sub_pos.2 h).le, mul_le_mul_of_nonneg_right hm (show (0 : ℝ) ≤ 0.0192 + t by linarith)]

/-- Beyond the peak the weight falls strictly with the frequency, from `0.9 / lambda` on. This is 7.895 for the default
`lambda` of 0.114; the default peak 7.8909 is the place of the maximum rounded down, so that the weight still grows up
to 7.89091. -/
theorem C120_falls {lam fpeak r s : ℝ} (hl : 0 < lam) (hp : fpeak ≤ r) (h1 : 0.9 ≤ lam * r) (h : r < s) :
    csfWeight lam fpeak s < csfWeight lam fpeak r := by
  unfold csfWeight
  rw [if_neg (by linarith), if_neg (by linarith)]
  set t := lam * r with ht
  set u := lam * s with hu
  have htu : t < u := by rw [ht, hu]; exact mul_lt_mul_of_pos_left h hl
  have hg := rpow_gap h1 htu
  have hden : (0 : ℝ) < 0.0192 + t := by norm_num at h1 ⊢; linarith
  have hx : (u - t) / (0.0192 + t) + 1 < Real.exp ((u - t) / (0.0192 + t)) :=
    Real.add_one_lt_exp (div_pos (by linarith) hden).ne'
  have he := Real.exp_le_exp.2 hg
  have hsplit : Real.exp (-(t ^ (1.1 : ℝ))) = Real.exp (u ^ (1.1 : ℝ) - t ^ (1.1 : ℝ)) * Real.exp (-(u ^ (1.1 : ℝ))) := by
    rw [← Real.exp_add]; congr 1; ring
  rw [hsplit]
  have hpos := Real.exp_pos (-(u ^ (1.1 : ℝ)))
  have : 2.6 * (0.0192 + u) < 2.6 * (0.0192 + t) * Real.exp (u ^ (1.1 : ℝ) - t ^ (1.1 : ℝ)) := by
    have h3 : (0.0192 + t) * ((u - t) / (0.0192 + t) + 1) = 0.0192 + u := by
      field_simp
      ring
    have h4 : (0.0192 + t) * ((u - t) / (0.0192 + t) + 1) < (0.0192 + t) * Real.exp (u ^ (1.1 : ℝ) - t ^ (1.1 : ℝ)) :=
      mul_lt_mul_of_pos_left (lt_of_lt_of_le hx he) hden
    rw [h3] at h4
    linarith
  calc 2.6 * (0.0192 + u) * Real.exp (-(u ^ (1.1 : ℝ)))
      < (2.6 * (0.0192 + t) * Real.exp (u ^ (1.1 : ℝ) - t ^ (1.1 : ℝ))) * Real.exp (-(u ^ (1.1 : ℝ))) :=
        mul_lt_mul_of_pos_right this hpos
    _ = _ := by ring

/-- Low frequencies all get the weight of the peak. -/
theorem C120_low {m n : Nat} {nfreq lam fpeak : ℝ} {i j : Nat}
    (h : ‖csfPlane m n nfreq i j‖ < 0.7 * fpeak) : contrastSensitivity m n nfreq lam fpeak i j = 0.9809 := by
  unfold contrastSensitivity csfWeight
  rw [if_pos]
  have hb := (csfDirection_bounds (csfPlane m n nfreq i j)).1
  have h07 : (0.7 : ℝ) > 0 := by norm_num
  unfold csfRadius
  rw [div_lt_iff₀ (by linarith)]
  have hf : 0 < fpeak := by
    have := norm_nonneg (csfPlane m n nfreq i j)
    nlinarith
  nlinarith

/-- Frequencies are scaled by the number of columns along both axes: the same relative position of the
rows of an image with `c` times as many rows is taken as a `c` times higher frequency. -/
theorem C120_row_frequency {m n : Nat} (nfreq : ℝ) (i j : Nat) (hm : 0 < m) (hn : 0 < n) :
    (csfPlane m n nfreq i j).im = (m : ℝ) / n * (2 * nfreq * ((-(m : ℝ) / 2 + 1 / 2 + i) / m)) ∧
    (csfPlane m n nfreq i j).re = 2 * nfreq * ((-(n : ℝ) / 2 + 1 / 2 + j) / n) := by
  have hm' : (m : ℝ) ≠ 0 := by positivity
  have hn' : (n : ℝ) ≠ 0 := by positivity
  rw [csfPlane_parts]
  constructor
  · field_simp
  · field_simp

/-- The claim that the weights follow the image when its axes are exchanged fails with the default
parameters: 4 rows of 2 pixels against 2 rows of 4 pixels. -/
theorem C120_refuted : ¬ ∀ (m n : Nat) (i j : Nat), i < m → j < n →
    contrastSensitivity m n 32 0.114 7.8909 i j = contrastSensitivity n m 32 0.114 7.8909 j i := by
  intro h
  have h0 := h 4 2 3 1 (by norm_num) (by norm_num)
  have e1 : csfPlane 4 2 32 3 1 = ⟨16, 48⟩ := by
    rw [csfPlane_parts]; norm_num
  have e2 : csfPlane 2 4 32 1 3 = ⟨24, 8⟩ := by
    rw [csfPlane_parts]; norm_num
  have hs : csfRadius ⟨16, 48⟩ = 2 * csfRadius ⟨24, 8⟩ := by
    have hsw : csfRadius (⟨24, 8⟩ : ℂ) = csfRadius (⟨8, 24⟩ : ℂ) := csfRadius_swap ⟨rfl, rfl⟩
    rw [hsw]
    have h2 : (⟨16, 48⟩ : ℂ) = ((2 : ℝ) : ℂ) * ⟨8, 24⟩ := by
      apply Complex.ext <;> simp <;> norm_num
    unfold csfRadius csfDirection
    rw [h2, Complex.arg_real_mul _ (by norm_num), norm_mul, Complex.norm_real]
    norm_num
    ring
  have hr : 24 ≤ csfRadius (⟨24, 8⟩ : ℂ) := by
    have hb := csfDirection_bounds (⟨24, 8⟩ : ℂ)
    have hp : 0 < csfDirection (⟨24, 8⟩ : ℂ) := by have := hb.1; norm_num at this; linarith
    unfold csfRadius
    rw [le_div_iff₀ hp]
    have : 24 ≤ ‖(⟨24, 8⟩ : ℂ)‖ := Complex.re_le_norm ⟨24, 8⟩
    linarith [hb.2]
  have hlt := C120_falls (lam := 0.114) (fpeak := 7.8909) (r := csfRadius (⟨24, 8⟩ : ℂ)) (s := csfRadius (⟨16, 48⟩ : ℂ))
    (by norm_num) (by norm_num; linarith) (by norm_num; linarith) (by rw [hs]; linarith)
  unfold contrastSensitivity at h0
  rw [e1, e2] at h0
  exact absurd h0 (ne_of_lt hlt)

/-- A position whose weight is that of the peak, in an image of 64 x 64 pixels. -/
example : contrastSensitivity 64 64 32 0.114 7.8909 32 33 = 0.9809 := by
  apply C120_low
  have : ‖csfPlane 64 64 32 32 33‖ ^ 2 ≤ 2 ^ 2 := by
    rw [norm_sq_parts, csfPlane_parts]; norm_num
  have := abs_le_of_sq_le_sq' this (by norm_num)
  have h2 := this.2
  norm_num; linarith

example : contrastSensitivity 8 8 32 0.114 7.8909 1 6 = contrastSensitivity 8 8 32 0.114 7.8909 6 1 :=
  C120_transpose_partial 8 _ _ _ 1 6

example : csfWeight 0.114 7.8909 20 < csfWeight 0.114 7.8909 10 :=
  C120_falls (by norm_num) (by norm_num) (by norm_num) (by norm_num)

example : contrastSensitivity 8 6 32 0.114 7.8909 1 2 = contrastSensitivity 8 6 32 0.114 7.8909 6 2 :=
  (C120_mirror 8 6 32 0.114 7.8909 (i := 6) (j := 2) (by norm_num) (by norm_num)).1

example : 0 < contrastSensitivity 8 6 32 0.114 7.8909 0 5 := C120_positive _ _ _ _ _ (by norm_num) _ _

/-- In an image of twice as many rows as columns the frequencies of the rows are doubled. -/
example : (csfPlane 8 4 32 7 3).im = 56 := by
  rw [(C120_row_frequency 32 7 3 (by norm_num) (by norm_num)).1]
  norm_num

end Viqa
