import Verif.Props.NoiseHalf

/-!
Property C153: CNR of float16 images.
-/

namespace Viqa

open HalfSum

theorem halfRound_error {x y : ℝ} (h : toHalf 24 x = .num y) : |y - x| ≤ |x| * (1 / 2 ^ 10) + 1 / 2 ^ 25 := by
  rw [toHalf_num h]
  rcases le_total 0 x with hx | hx
  · obtain ⟨h1, h2⟩ := near_half (b := 24) le_rfl hx
    rw [abs_of_nonneg hx, abs_le]
    constructor <;> linarith
  · obtain ⟨h1, h2⟩ := near_half (b := 24) le_rfl (show (0 : ℝ) ≤ -x by linarith)
    rw [fl_neg, halfRound_neg] at h1 h2
    rw [abs_of_nonpos hx, abs_le]
    constructor <;> linarith

theorem halfRound_error_grid {x y : ℝ} (hx : Grid x) (h : toHalf 24 x = .num y) : |y - x| ≤ |x| * (1 / 2 ^ 10) := by
  rw [toHalf_num h]
  rcases le_total 0 x with h0 | h0
  · obtain ⟨h1, h2⟩ := close_grid h0 hx
    rw [pow_one] at h1 h2
    rw [abs_of_nonneg h0, abs_le]
    constructor <;> linarith
  · obtain ⟨h1, h2⟩ := close_grid (show (0 : ℝ) ≤ -x by linarith) hx.neg
    rw [pow_one, fl_neg, halfRound_neg] at h1 h2
    rw [abs_of_nonpos h0, abs_le]
    constructor <;> linarith

/-- The standard deviation, from the errors of its parts. -/
theorem std_bounds {m V c V' s' : ℝ} {a e : ℕ} (hm : 0 ≤ m) (hv : 0 < V) (hc : Close a m c)
    (hV : Close e (V + (c - m) ^ 2) V') (hs' : Close 1 (Real.sqrt V') s') :
    Real.sqrt V * (1 - 1 / 2 ^ 10) ^ (e + 1) ≤ s' ∧
    s' ≤ Real.sqrt V * Real.sqrt (1 + (((1 + 1 / 2 ^ 10) ^ a - 1) * (m / Real.sqrt V)) ^ 2) * (1 + 1 / 2 ^ 10) ^ (e + 1) := by
  have hd : |c - m| ≤ ((1 + 1 / 2 ^ 10) ^ a - 1) * m := by
    have h3 := mul_le_mul_of_nonneg_left (pow_around 10 a) hm
    obtain ⟨h1, h2⟩ := hc
    rw [abs_le]
    constructor <;> nlinarith
  unfold Close at *
  obtain ⟨u0, u1, u2⟩ := Summation.unit_bounds 10
  have u3 : (0 : ℝ) < 1 - 1 / 2 ^ 10 := by norm_num
  set w : ℝ := 1 - 1 / 2 ^ 10
  set W : ℝ := 1 + 1 / 2 ^ 10
  set g : ℝ := W ^ a - 1
  set s := Real.sqrt V with hs
  have hs0 : 0 < s := Real.sqrt_pos.2 hv
  have hs2 : s ^ 2 = V := Real.sq_sqrt hv.le
  have hg : 0 ≤ g := by
    have : (1 : ℝ) ≤ W ^ a := one_le_pow₀ u2
    linarith
  have hw0 : 0 < w ^ e := pow_pos u3 _
  have hw1 : w ^ e ≤ 1 := pow_le_one₀ u0 u1
  have hW1 : 1 ≤ W ^ e := one_le_pow₀ u2
  have r1 : s * w ^ e ≤ Real.sqrt V' := by
    apply Real.le_sqrt_of_sq_le
    refine le_trans ?_ hV.1
    rw [mul_pow, hs2]
    have : (w ^ e) ^ 2 ≤ w ^ e := by nlinarith
    calc V * (w ^ e) ^ 2 ≤ V * w ^ e := mul_le_mul_of_nonneg_left this hv.le
      _ ≤ _ := mul_le_mul_of_nonneg_right (by nlinarith [sq_nonneg (c - m)]) hw0.le
  have hq : (c - m) ^ 2 ≤ (g * m) ^ 2 := by
    rw [← sq_abs (c - m)]
    exact pow_le_pow_left₀ (abs_nonneg _) hd 2
  set R := Real.sqrt (1 + (g * (m / s)) ^ 2) with hR
  have hR0 : 0 < R := Real.sqrt_pos.2 (by positivity)
  have hR2 : (s * R) ^ 2 = V + (g * m) ^ 2 := by
    rw [mul_pow, hs2, hR, Real.sq_sqrt (by positivity), ← hs2]
    field_simp
  have r2 : Real.sqrt V' ≤ s * R * W ^ e := by
    rw [Real.sqrt_le_left (by positivity)]
    refine le_trans hV.2 ?_
    rw [mul_pow, hR2]
    have : W ^ e ≤ (W ^ e) ^ 2 := by nlinarith
    refine mul_le_mul (by linarith) this (by linarith) (by positivity)
  rw [pow_one, pow_one] at hs'
  constructor
  · refine le_trans ?_ hs'.1
    rw [pow_succ, ← mul_assoc]
    exact mul_le_mul_of_nonneg_right r1 u0
  · refine le_trans hs'.2 ?_
    rw [pow_succ, ← mul_assoc]
    exact mul_le_mul_of_nonneg_right r2 (by linarith)

theorem Close.abs_sub {k : ℕ} {x y : ℝ} (hx : 0 ≤ x) (h : Close k x y) : |y - x| ≤ ((1 + 1 / 2 ^ 10) ^ k - 1) * x := by
  have h3 := mul_le_mul_of_nonneg_left (pow_around 10 k) hx
  obtain ⟨h1, h2⟩ := h
  rw [abs_le]
  constructor <;> nlinarith

/-- A quotient, from the errors of its parts. -/
theorem cnr_close {m n m' n' d s S R r u G w : ℝ} {e : ℕ} (hm : 0 ≤ m) (hn : 0 ≤ n) (hS : 0 < S) (hR : 1 ≤ R) (hu : 0 ≤ u)
    (hG : 1 ≤ G) (hw0 : 0 < w) (hw : w * (1 + u) ≤ 1) (a : |m' - m| ≤ (G - 1) * m) (b : |n' - n| ≤ (G - 1) * n)
    (hd : |d - (m' - n')| ≤ |m' - n'| * u) (s1 : S * w ^ e ≤ s) (s2 : s ≤ S * R * (1 + u) ^ e) {q : ℝ}
    (hr : |r - d / s| ≤ |d / s| * u + q) :
    |r - (m - n) / S| ≤ (m + n) / S * (G * (1 + u) ^ 2 * (R / w ^ e) - 1) + q := by
  have hW : (0 : ℝ) < w ^ e := pow_pos hw0 e
  have hs : 0 < s := lt_of_lt_of_le (mul_pos hS hW) s1
  set F := R / w ^ e with hF
  have hFw : F * w ^ e = R := div_mul_cancel₀ R hW.ne'
  have hwe : w ^ e * (1 + u) ^ e ≤ 1 := by
    rw [← mul_pow]
    exact pow_le_one₀ (mul_nonneg hw0.le (by linarith)) hw
  have hwe1 : w ^ e ≤ 1 := pow_le_one₀ hw0.le (by nlinarith)
  have hF1 : 1 ≤ F := by rw [hF, le_div_iff₀ hW]; linarith
  have hwF : 1 ≤ w ^ e * F := by rw [mul_comm, hFw]; exact hR
  -- the quotient of the standard deviations
  have q1 : S / s ≤ F := by
    rw [div_le_iff₀ hs]
    calc S ≤ S * (w ^ e * F) := le_mul_of_one_le_right hS.le hwF
      _ = F * (S * w ^ e) := by ring
      _ ≤ F * s := mul_le_mul_of_nonneg_left s1 (by linarith)
  have q2 : s / S ≤ F := by
    rw [div_le_iff₀ hS]
    refine s2.trans ?_
    have : R * (1 + u) ^ e ≤ F := by
      rw [← hFw]
      calc F * w ^ e * (1 + u) ^ e = F * (w ^ e * (1 + u) ^ e) := by ring
        _ ≤ F * 1 := mul_le_mul_of_nonneg_left hwe (by linarith)
        _ = F := mul_one F
    calc S * R * (1 + u) ^ e = R * (1 + u) ^ e * S := by ring
      _ ≤ F * S := mul_le_mul_of_nonneg_right this hS.le
  have q0 : 0 < S / s := div_pos hS hs
  have q3 : |S / s - 1| ≤ F - 1 := by
    rw [abs_le]
    refine ⟨?_, by linarith⟩
    have h1 : 1 / F ≤ S / s := by
      rw [div_le_div_iff₀ (by linarith) hs]
      rw [div_le_iff₀ hS] at q2
      linarith
    have h2 : 2 - F ≤ 1 / F := by
      rw [le_div_iff₀ (by linarith)]
      nlinarith [sq_nonneg (F - 1)]
    linarith
  -- the difference of the means
  have dmn : |m - n| ≤ m + n := by
    rw [abs_le]
    constructor <;> linarith
  have d1 : |m' - n' - (m - n)| ≤ (G - 1) * (m + n) := by
    calc |m' - n' - (m - n)| = |(m' - m) - (n' - n)| := by ring_nf
      _ ≤ |m' - m| + |n' - n| := abs_sub _ _
      _ ≤ _ := by linarith
  have d2 : |m' - n'| ≤ G * (m + n) := by
    calc |m' - n'| = |(m' - n' - (m - n)) + (m - n)| := by ring_nf
      _ ≤ |m' - n' - (m - n)| + |m - n| := abs_add_le _ _
      _ ≤ _ := by nlinarith
  have d3 : |d - (m - n)| ≤ (G * (1 + u) - 1) * (m + n) := by
    calc |d - (m - n)| = |(d - (m' - n')) + (m' - n' - (m - n))| := by ring_nf
      _ ≤ |d - (m' - n')| + |m' - n' - (m - n)| := abs_add_le _ _
      _ ≤ G * (m + n) * u + (G - 1) * (m + n) := add_le_add (hd.trans (mul_le_mul_of_nonneg_right d2 hu)) d1
      _ = _ := by ring
  have d4 : |d / s - (m - n) / S| ≤ (m + n) / S * (G * (1 + u) * F - 1) := by
    have e : d / s - (m - n) / S = ((d - (m - n)) * (S / s) + (m - n) * (S / s - 1)) / S := by
      field_simp
      ring
    rw [e, abs_div, abs_of_pos hS, div_mul_eq_mul_div]
    apply div_le_div_of_nonneg_right _ hS.le
    calc |(d - (m - n)) * (S / s) + (m - n) * (S / s - 1)| ≤ |d - (m - n)| * (S / s) + |m - n| * |S / s - 1| := by
          refine (abs_add_le _ _).trans ?_
          rw [abs_mul, abs_mul, abs_of_nonneg q0.le]
      _ ≤ (G * (1 + u) - 1) * (m + n) * F + (m + n) * (F - 1) :=
          add_le_add (mul_le_mul d3 q1 q0.le (mul_nonneg (by nlinarith) (by linarith))) (mul_le_mul dmn q3 (abs_nonneg _) (by linarith))
      _ = _ := by ring
  have dS : |(m - n) / S| ≤ (m + n) / S := by
    rw [abs_div, abs_of_pos hS]
    exact div_le_div_of_nonneg_right dmn hS.le
  have d5 : |d / s| ≤ (m + n) / S * (G * (1 + u) * F) := by
    calc |d / s| = |(d / s - (m - n) / S) + (m - n) / S| := by ring_nf
      _ ≤ |d / s - (m - n) / S| + |(m - n) / S| := abs_add_le _ _
      _ ≤ _ := by linarith
  calc |r - (m - n) / S| = |(r - d / s) + (d / s - (m - n) / S)| := by ring_nf
    _ ≤ |r - d / s| + |d / s - (m - n) / S| := abs_add_le _ _
    _ ≤ ((m + n) / S * (G * (1 + u) * F) * u + q) + (m + n) / S * (G * (1 + u) * F - 1) :=
        add_le_add (hr.trans (by have := mul_le_mul_of_nonneg_right d5 hu; linarith)) d4
    _ = _ := by ring

/-- **C153 (partial).** The same for CNR: if the computed standard deviation of the background and the CNR are finite, and the
means and the variance of the background not small, the error of CNR is small in comparison with the means (not with their
difference). Missing: results that are infinite, or 0 because the standard deviation is infinite, see `C153_cnr_overflow`, and
backgrounds of little variance. -/
theorem C153_cnr_partial (signal background : Summation) (t : HalfSum) (l : List ℝ) (ho : background.leaves.Perm l)
    (ht : t.leaves = l.map .num) (hsig : ∀ v ∈ signal.leaves, 0 ≤ v) (h : ∀ v ∈ l, 0 ≤ v ∧ Grid v)
    (D : ℕ) (hD : signal.depth ≤ D ∧ background.depth ≤ D ∧ t.depth ≤ D)
    (hms : 1 ≤ Spec.mean signal.leaves * (1 - 1 / 2 ^ 10) ^ (D + 1)) (hmb : 1 ≤ Spec.mean l * (1 - 1 / 2 ^ 10) ^ (D + 1))
    (hv1 : 1 / 2 ^ 10 ≤ Spec.variance l * (1 - 1 / 2 ^ 10) ^ (D + 6))
    (s r : ℝ) (hs : stdHalf t = .num s) (hr : cnrHalf signal background t = .num r) :
    |r - Spec.cnr signal.leaves l| ≤ (Spec.mean signal.leaves + Spec.mean l) / Real.sqrt (Spec.variance l) *
      ((1 + 1 / 2 ^ 10) ^ (D + 4) * (Real.sqrt (1 + (((1 + 1 / 2 ^ 10) ^ (D + 2) - 1) * Spec.snr l) ^ 2) / (1 - 1 / 2 ^ 10) ^ (D + 7)) - 1)
      + 1 / 2 ^ 25 := by
  have hnn : ∀ v ∈ l, 0 ≤ v := fun v hv => (h v hv).1
  have p1 : 0 ≤ Spec.mean signal.leaves := div_nonneg (List.sum_nonneg hsig) (Nat.cast_nonneg _)
  have p2 : 0 ≤ Spec.mean l := div_nonneg (List.sum_nonneg hnn) (Nat.cast_nonneg _)
  have low : ∀ x : ℝ, 0 ≤ x → 1 ≤ x * (1 - 1 / 2 ^ 10) ^ (D + 1) → ∀ k ≤ D + 1, 1 ≤ x * (1 - 1 / 2 ^ 10) ^ k := fun x hx hl k hk =>
    hl.trans (mul_le_mul_of_nonneg_left (pow_le_pow_of_le_one (by norm_num) (by norm_num) hk) hx)
  have hv0 : 0 ≤ Spec.variance l := by
    by_contra hc
    have hw0 : (0 : ℝ) < (1 - 1 / 2 ^ 10 : ℝ) ^ (D + 6) := by positivity
    have := mul_neg_of_neg_of_pos (not_le.1 hc) hw0
    norm_num at hv1 this
    linarith
  obtain ⟨hv, hs0, -, c, V', hcc, hV2, hsc⟩ := std_close t l ht h (low _ p2 hmb _ (by omega))
    (hv1.trans (mul_le_mul_of_nonneg_left (pow_le_pow_of_le_one (by norm_num) (by norm_num) (by omega)) hv0)) s hs
  have hV3 := hV2.mono (by nlinarith [sq_nonneg (c - Spec.mean l)]) (show t.depth + 6 ≤ D + 6 by omega)
  obtain ⟨s1, s2⟩ := std_bounds p2 hv (hcc.mono p2 (show t.depth + 2 ≤ D + 2 by omega)) hV3 hsc
  unfold cnrHalf at hr
  rw [hs] at hr
  obtain ⟨d, hdiff⟩ : ∃ d, differenceHalf (meanHalf signal) (meanHalf background) = .num d := by
    cases e : differenceHalf (meanHalf signal) (meanHalf background) with
    | num d => exact ⟨d, rfl⟩
    | inf b => simp [e, ratioHalf, hs0.ne'] at hr
    | nan => simp [e, ratioHalf, hs0.ne'] at hr
  rw [hdiff] at hr
  simp only [ratioHalf, if_neg hs0.ne'] at hr
  obtain ⟨m', hm'⟩ : ∃ m', meanHalf signal = .num m' := by
    unfold meanHalf toHalf
    split
    · rename_i h1
      exfalso
      rw [show meanHalf signal = .inf false by unfold meanHalf toHalf; rw [if_pos h1]] at hdiff
      cases e : meanHalf background with
      | num d => simp [e, differenceHalf] at hdiff
      | inf b => cases b <;> simp [e, differenceHalf] at hdiff
      | nan => simp [e, differenceHalf] at hdiff
    · split
      · rename_i h0 h1
        exfalso
        rw [show meanHalf signal = .inf true by unfold meanHalf toHalf; rw [if_neg h0, if_pos h1]] at hdiff
        cases e : meanHalf background with
        | num d => simp [e, differenceHalf] at hdiff
        | inf b => cases b <;> simp [e, differenceHalf] at hdiff
        | nan => simp [e, differenceHalf] at hdiff
      · exact ⟨_, rfl⟩
  obtain ⟨n', hn'⟩ : ∃ n', meanHalf background = .num n' := by
    rw [hm'] at hdiff
    cases e : meanHalf background with
    | num d => exact ⟨d, rfl⟩
    | inf b => simp [e, differenceHalf] at hdiff
    | nan => simp [e, differenceHalf] at hdiff
  rw [hm', hn'] at hdiff
  have g1 : Grid m' := by unfold meanHalf at hm'; rw [toHalf_num hm']; exact grid_halfRound _
  have g2 : Grid n' := by unfold meanHalf at hn'; rw [toHalf_num hn']; exact grid_halfRound _
  have c1 := (close_mean signal _ (List.Perm.refl _) hsig hm' (low _ p1 hms _ (by omega))).mono p1 (show signal.depth + 2 ≤ D + 2 by omega)
  have c2 := (close_mean background l ho hnn hn' (low _ p2 hmb _ (by omega))).mono p2 (show background.depth + 2 ≤ D + 2 by omega)
  have hdd : |d - (m' - n')| ≤ |m' - n'| * (1 / 2 ^ 10) := halfRound_error_grid (g1.sub g2) hdiff
  have hrr := halfRound_error hr
  have key := cnr_close (e := D + 7) (u := 1 / 2 ^ 10) (w := 1 - 1 / 2 ^ 10) (G := (1 + 1 / 2 ^ 10) ^ (D + 2)) p1 p2 (Real.sqrt_pos.2 hv)
    (Real.one_le_sqrt.2 (by nlinarith [sq_nonneg (((1 + 1 / 2 ^ 10) ^ (D + 2) - 1) * (Spec.mean l / Real.sqrt (Spec.variance l)))]))
    (by norm_num) (one_le_pow₀ (by norm_num)) (by norm_num) (by norm_num) (c1.abs_sub p1) (c2.abs_sub p2) hdd s1 s2 hrr
  rw [show (1 + 1 / 2 ^ 10 : ℝ) ^ (D + 4) = (1 + 1 / 2 ^ 10) ^ (D + 2) * (1 + 1 / 2 ^ 10) ^ 2 by ring]
  exact key

/-- a background of 2 and 6, a signal of 10 and 10: exact CNR 3, computed 3 -/
example : ∃ s, stdHalf (.add (.leaf (.num 2)) (.leaf (.num 6))) = .num s ∧ Spec.cnr [10, 10] [2, 6] = 3 ∧
    cnrHalf (.node (.leaf 10) (.leaf 10)) (.node (.leaf 2) (.leaf 6)) (.add (.leaf (.num 2)) (.leaf (.num 6))) = .num 3 ∧
    |(3 : ℝ) - 3| ≤ 7 * ((1 + 1 / 2 ^ 10) ^ 5 * (Real.sqrt (1 + (((1 + 1 / 2 ^ 10) ^ 3 - 1) * 2) ^ 2) / (1 - 1 / 2 ^ 10) ^ 8) - 1) + 1 / 2 ^ 25 := by
  have f20 : fl 24 (20 : ℝ) = 20 := by exact_mod_cast fl_int (K := ℝ) (p := 24) (by norm_num) 20 (by norm_num)
  have f8 : fl 24 (8 : ℝ) = 8 := by exact_mod_cast fl_int (K := ℝ) (p := 24) (by norm_num) 8 (by norm_num)
  have f4 : fl 53 (4 : ℝ) = 4 := by exact_mod_cast fl_int (K := ℝ) (p := 53) (by norm_num) 4 (by norm_num)
  have f10 : fl 53 (10 : ℝ) = 10 := by exact_mod_cast fl_int (K := ℝ) (p := 53) (by norm_num) 10 (by norm_num)
  have t10 : toHalf 24 (10 : ℝ) = .num 10 := by exact_mod_cast toHalf_int (b := 24) (by norm_num) 10 (by norm_num)
  have t8 : toHalf 24 (8 : ℝ) = .num 8 := by exact_mod_cast toHalf_int (b := 24) (by norm_num) 8 (by norm_num)
  have t6 : toHalf 24 (6 : ℝ) = .num 6 := by exact_mod_cast toHalf_int (b := 24) (by norm_num) 6 (by norm_num)
  have t4 : toHalf 24 (4 : ℝ) = .num 4 := by exact_mod_cast toHalf_int (b := 24) (by norm_num) 4 (by norm_num)
  have t4' : toHalf 53 (4 : ℝ) = .num 4 := by exact_mod_cast toHalf_int (b := 53) (by norm_num) 4 (by norm_num)
  have t3 : toHalf 24 (3 : ℝ) = .num 3 := by exact_mod_cast toHalf_int (b := 24) (by norm_num) 3 (by norm_num)
  have t2 : toHalf 24 (2 : ℝ) = .num 2 := by exact_mod_cast toHalf_int (b := 24) (by norm_num) 2 (by norm_num)
  have t2' : toHalf 24 (-2 : ℝ) = .num (-2) := by exact_mod_cast toHalf_int (b := 24) (by norm_num) (-2) (by norm_num)
  have hc : innerMean (.add (.leaf (.num 2)) (.leaf (.num 6))) = .num 4 := by
    simp only [innerMean, HalfSum.size, HalfSum.leaves, HalfSum.total, HalfSum.eval, HalfSum.plus, HalfSum.toStored]
    norm_num [f8, t8, divCount, t4]
  have hvar : varHalf (.add (.leaf (.num 2)) (.leaf (.num 6))) = .num 4 := by
    unfold varHalf
    rw [hc]
    simp only [HalfSum.map, HalfSum.size, HalfSum.leaves, HalfSum.total, HalfSum.eval, differenceHalf]
    norm_num [t2, t2', squareHalf, t4, HalfSum.plus, f8, HalfSum.toStored, t8, divCount, t4']
  have hstd : stdHalf (.add (.leaf (.num 2)) (.leaf (.num 6))) = .num 2 := by
    unfold stdHalf
    rw [hvar]
    simp only
    rw [show (4 : ℝ) = 2 ^ 2 by norm_num, Real.sqrt_sq (by norm_num), t2]
  have hmean : meanHalf (.node (.leaf 2) (.leaf 6)) = .num 4 := by
    simp only [meanHalf, Summation.eval, Summation.size, Summation.leaves]
    norm_num [f8, f4, t4]
  have hmean' : meanHalf (.node (.leaf 10) (.leaf 10)) = .num 10 := by
    simp only [meanHalf, Summation.eval, Summation.size, Summation.leaves]
    norm_num [f20, f10, t10]
  have hcnr : cnrHalf (.node (.leaf 10) (.leaf 10)) (.node (.leaf 2) (.leaf 6)) (.add (.leaf (.num 2)) (.leaf (.num 6))) = .num 3 := by
    unfold cnrHalf
    rw [hstd, hmean, hmean']
    simp only [differenceHalf]
    norm_num [ratioHalf, t6, t3]
  have hm : Spec.mean [2, 6] = 4 := by unfold Spec.mean; norm_num
  have hm' : Spec.mean [10, 10] = 10 := by unfold Spec.mean; norm_num
  have hv : Spec.variance [2, 6] = 2 ^ 2 := by
    unfold Spec.variance
    rw [hm]
    norm_num
  have hsd : Real.sqrt (Spec.variance [2, 6]) = 2 := by rw [hv, Real.sqrt_sq (by norm_num)]
  have hsnr : Spec.snr [2, 6] = 2 := by
    unfold Spec.snr
    rw [hsd, hm]
    norm_num
  have hcn : Spec.cnr [10, 10] [2, 6] = 3 := by
    unfold Spec.cnr
    rw [hsd, hm, hm']
    norm_num
  refine ⟨2, hstd, hcn, hcnr, ?_⟩
  have := C153_cnr_partial _ _ _ [2, 6] (List.Perm.refl _) rfl (by simp [Summation.leaves])
    (by
      intro v hv
      simp only [List.mem_cons, List.not_mem_nil, or_false] at hv
      rcases hv with rfl | rfl
      · exact ⟨by norm_num, by exact_mod_cast grid_int 2⟩
      · exact ⟨by norm_num, by exact_mod_cast grid_int 6⟩)
    1 ⟨by simp [Summation.depth], by simp [Summation.depth], by simp [HalfSum.depth]⟩
    (by simp only [Summation.leaves, List.cons_append, List.nil_append]; rw [hm']; norm_num) (by rw [hm]; norm_num)
    (by rw [hv]; norm_num) 2 3 hstd hcnr
  simp only [Summation.leaves, List.cons_append, List.nil_append] at this
  rw [hcn, hm, hm', hsd, hsnr] at this
  convert this using 2
  norm_num

end Viqa
