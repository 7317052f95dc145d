import Verif.Props.DistanceRounded
import Mathlib.Analysis.SpecialFunctions.Log.Base
import Mathlib.Analysis.Complex.ExponentialBounds

/-! C193: accuracy of PSNR. -/

namespace Viqa

section
variable {P : Type}

/-- Logarithms of numbers with a small relative difference. -/
theorem log_near {a b δ : ℝ} (hb : 0 < b) (h : |a - b| ≤ b * δ) (hδ : δ ≤ 1 / 2) : 0 < a ∧ |Real.log a - Real.log b| ≤ 2 * δ := by
  rw [abs_le] at h
  have ha : 0 < a := by nlinarith
  refine ⟨ha, ?_⟩
  have hδ0 : 0 ≤ δ := by nlinarith
  rw [← Real.log_div ha.ne' hb.ne']
  have ht : 0 < a / b := div_pos ha hb
  have t1 : a / b ≤ 1 + δ := by rw [div_le_iff₀ hb]; linarith
  have t2 : 1 - δ ≤ a / b := by rw [le_div_iff₀ hb]; linarith
  have u1 := Real.log_le_sub_one_of_pos ht
  have u2 := Real.one_sub_inv_le_log_of_pos ht
  have u3 : (a / b)⁻¹ ≤ 1 + 2 * δ := by
    rw [inv_le_iff_one_le_mul₀ ht]
    nlinarith
  rw [abs_le]
  constructor <;> linarith

theorem double_round_error (v : ℝ) : |double.round v - v| ≤ |v| / 2 ^ 53 + 1 / 2 ^ 50 := by
  unfold FloatFormat.round
  split
  · have h := nearestEven_near (v / 2 ^ double.least)
    have hp : (0 : ℝ) < 2 ^ double.least := by positivity
    have h1 : (2 : ℝ) ^ double.least ≤ 1 / 2 ^ 50 := by
      have := zpow_le_zpow_right₀ (a := (2 : ℝ)) (by norm_num) (show double.least ≤ -50 by decide)
      rwa [zpow_neg, show (50 : ℤ) = ((50 : ℕ) : ℤ) from rfl, zpow_natCast, ← one_div] at this
    rw [show (nearestEven (v / 2 ^ double.least) : ℝ) * 2 ^ double.least - v = (nearestEven (v / 2 ^ double.least) - v / 2 ^ double.least) * 2 ^ double.least by
      field_simp, abs_mul, abs_of_pos hp]
    have h2 : |(nearestEven (v / 2 ^ double.least) : ℝ) - v / 2 ^ double.least| * 2 ^ double.least ≤ 1 / 2 * (1 / 2 ^ 50) :=
      mul_le_mul h h1 hp.le (by norm_num)
    have h3 : 0 ≤ |v| / 2 ^ 53 := by positivity
    linarith
  · have := fl_error 53 v
    have e : double.bits = 53 := rfl
    have h3 : (0 : ℝ) ≤ 1 / 2 ^ 50 := by positivity
    rw [e]
    linarith

/-- Relative error without underflow. -/
theorem double_round_near {v : ℝ} (h : 2 ^ (-1000 : ℤ) ≤ v) : 0 < double.round v ∧ |Real.log (double.round v) - Real.log v| ≤ 1 / 2 ^ 52 := by
  have hv : 0 < v := lt_of_lt_of_le (by positivity) h
  have e : double.round v = fl 53 v := by
    apply double.round_normal
    rw [abs_of_pos hv]
    exact (zpow_le_zpow_right₀ (by norm_num) (by decide)).trans h
  rw [e]
  have := fl_error 53 v
  rw [abs_of_pos hv] at this
  obtain ⟨h1, h2⟩ := log_near (δ := 1 / 2 ^ 53) hv (this.trans (by rw [mul_one_div])) (by norm_num)
  exact ⟨h1, h2.trans (by norm_num)⟩

/-- Logarithms of numbers in a wide range. -/
theorem abs_log_le_hundred {v : ℝ} (h1 : 2 ^ (-100 : ℤ) ≤ v) (h2 : v ≤ 2 ^ (100 : ℤ)) : |Real.log v| ≤ 100 := by
  have hv : 0 < v := lt_of_lt_of_le (by positivity) h1
  have l1 := Real.log_le_log (by positivity) h1
  have l2 := Real.log_le_log hv h2
  rw [Real.log_zpow] at l1 l2
  have := Real.log_two_lt_d9
  have := Real.log_two_gt_d9
  rw [abs_le]
  push_cast at l1 l2
  constructor <;> linarith

theorem log_ten_gt_two : 2 < Real.log 10 := by
  rw [Real.lt_log_iff_exp_lt (by norm_num)]
  have h := Real.exp_one_lt_d9
  have h0 := Real.exp_pos 1
  rw [show (2 : ℝ) = 1 + 1 by norm_num, Real.exp_add]
  nlinarith

/-- PSNR as computed, from the accuracy `δ` of RMSE and that of the logarithm, `η`. -/
theorem psnr_accuracy (log10 : ℝ → ℝ) (η δ : ℝ) (hη : ∀ a, 2 ^ (-1000 : ℤ) ≤ a → a ≤ 2 ^ (1000 : ℤ) → |log10 a - Real.logb 10 a| ≤ η) (hη0 : 0 ≤ η) (hδ : δ ≤ 1 / 2 ^ 22) (hδ0 : 0 ≤ δ)
    (F : FloatFormat) (hF : F = single ∨ F = double) (o : SumOrder P) (x y : P → ℝ) (hn : o.positions.length ≤ 2 ^ 60) (q : P) (hq : q ∈ o.positions)
    (hqd : 2 ^ (-63 : ℤ) ≤ |x q - y q|) (R dr : ℝ) (hR1 : 2 ^ (-100 : ℤ) ≤ R) (hR2 : R ≤ 2 ^ (100 : ℤ)) (hr : |rmseRounded F o x y - R| ≤ R * δ)
    (hd1 : 2 ^ (-100 : ℤ) ≤ dr) (hd2 : dr ≤ 2 ^ (100 : ℤ)) :
    ∃ v, psnrRounded log10 F o dr x y = .finite v ∧ |v - 20 * Real.logb 10 (dr / R)| ≤ 11 * η + 20 * δ + 1 / 2 ^ 40 := by
  have hR : 0 < R := lt_of_lt_of_le (by positivity) hR1
  have hd : 0 < dr := lt_of_lt_of_le (by positivity) hd1
  have hM : 2 ^ (-208 : ℤ) ≤ mseRounded F o x y :=
    mseRounded_pos F hF o x y hn q hq ((zpow_le_zpow_right₀ (by norm_num) (by norm_num)).trans hqd)
  set M := mseRounded F o x y with hMdef
  have hM0 : 0 < M := lt_of_lt_of_le (by positivity) hM
  have hne : ¬ ∀ q ∈ o.positions, x q = y q := by
    intro h
    rw [h q hq, sub_self, abs_zero] at hqd
    exact absurd hqd (not_le.2 (by positivity))
  -- the root
  have hs : (2 : ℝ) ^ (-104 : ℤ) ≤ Real.sqrt M := by
    apply Real.le_sqrt_of_sq_le
    rw [← zpow_natCast, ← zpow_mul]
    exact hM
  obtain ⟨r0, r1⟩ := double_round_near ((zpow_le_zpow_right₀ (by norm_num) (by norm_num)).trans hs)
  have hrdef : rmseRounded F o x y = double.round (Real.sqrt M) := rfl
  rw [hrdef] at hr
  obtain ⟨-, r2⟩ := log_near hR hr (hδ.trans (by norm_num))
  have lM : Real.log (Real.sqrt M) = Real.log M / 2 := Real.log_sqrt hM0.le
  rw [lM] at r1
  -- data range
  have hdd : (2 : ℝ) ^ (-200 : ℤ) ≤ dr * dr := by
    calc (2 : ℝ) ^ (-200 : ℤ) = 2 ^ (-100 : ℤ) * 2 ^ (-100 : ℤ) := by rw [← zpow_add₀ (by norm_num)]; norm_num
      _ ≤ dr * dr := mul_le_mul hd1 hd1 (by positivity) hd.le
  obtain ⟨a0, a1⟩ := double_round_near ((zpow_le_zpow_right₀ (by norm_num) (by norm_num)).trans hdd)
  have hA : (2 : ℝ) ^ (-200 : ℤ) ≤ double.round (dr * dr) := double.le_round double_bits _ (by decide) hdd
  rw [Real.log_mul hd.ne' hd.ne'] at a1
  set A := double.round (dr * dr)
  -- logarithms
  have lR := abs_log_le_hundred hR1 hR2
  have ld := abs_log_le_hundred hd1 hd2
  rw [abs_le] at r1 r2 lR ld a1
  have hMu : M ≤ 2 ^ (800 : ℤ) := by
    rw [← Real.log_le_log_iff hM0 (by positivity), Real.log_zpow]
    have := Real.log_two_gt_d9
    push_cast
    norm_num at r1 r2 hδ
    linarith
  have hAM : (2 : ℝ) ^ (-1000 : ℤ) ≤ A / M := by
    rw [le_div_iff₀ hM0]
    calc (2 : ℝ) ^ (-1000 : ℤ) * M ≤ 2 ^ (-1000 : ℤ) * 2 ^ (800 : ℤ) := mul_le_mul_of_nonneg_left hMu (by positivity)
      _ = 2 ^ (-200 : ℤ) := by rw [← zpow_add₀ (by norm_num)]; norm_num
      _ ≤ A := hA
  obtain ⟨b0, b1⟩ := double_round_near hAM
  rw [Real.log_div a0.ne' hM0.ne'] at b1
  set B := double.round (A / M)
  rw [abs_le] at b1
  have hB : |Real.log B - (2 * Real.log dr - 2 * Real.log R)| ≤ 4 * δ + 1 / 2 ^ 50 := by
    rw [abs_le]
    norm_num at r1 b1 a1 ⊢
    constructor <;> linarith
  refine ⟨double.round (10 * log10 B), ?_, ?_⟩
  · unfold psnrRounded
    rw [if_neg hne, if_neg (by rw [← hMdef]; exact hM0.ne')]
  have h10 := log_ten_gt_two
  have h10' : (0 : ℝ) < Real.log 10 := by linarith
  have hA2 : A ≤ 2 ^ (200 : ℤ) := double.round_le double_bits _ (by decide) (by
    calc dr * dr ≤ 2 ^ (100 : ℤ) * 2 ^ (100 : ℤ) := mul_le_mul hd2 hd2 hd.le (by positivity)
      _ = 2 ^ (200 : ℤ) := by rw [← zpow_add₀ (by norm_num)]; norm_num)
  have hB2 : B ≤ 2 ^ (1000 : ℤ) := double.round_le double_bits _ (by decide) (by
    rw [div_le_iff₀ hM0]
    calc A ≤ 2 ^ (200 : ℤ) := hA2
      _ ≤ 2 ^ (792 : ℤ) := zpow_le_zpow_right₀ (by norm_num) (by norm_num)
      _ = 2 ^ (1000 : ℤ) * 2 ^ (-208 : ℤ) := by rw [← zpow_add₀ (by norm_num)]; norm_num
      _ ≤ 2 ^ (1000 : ℤ) * M := mul_le_mul_of_nonneg_left hM (by positivity))
  have hlog := hη B (double.le_round double_bits _ (by decide) hAM) hB2
  have hP : 20 * Real.logb 10 (dr / R) = 10 * ((2 * Real.log dr - 2 * Real.log R) / Real.log 10) := by
    unfold Real.logb
    rw [Real.log_div hd.ne' hR.ne']
    ring
  have e1 : |Real.logb 10 B - (2 * Real.log dr - 2 * Real.log R) / Real.log 10| ≤ (4 * δ + 1 / 2 ^ 50) / 2 := by
    unfold Real.logb
    rw [← sub_div, abs_div, abs_of_pos h10']
    exact div_le_div₀ (by positivity) hB (by norm_num) h10.le
  have e2 : |(2 * Real.log dr - 2 * Real.log R) / Real.log 10| ≤ 200 := by
    rw [abs_div, abs_of_pos h10', div_le_iff₀ h10', abs_le]
    constructor <;> linarith
  have e3 := double_round_error (10 * log10 B)
  rw [hP]
  set Q := (2 * Real.log dr - 2 * Real.log R) / Real.log 10
  have e4 : |10 * log10 B| ≤ 10 * (η + (4 * δ + 1 / 2 ^ 50) / 2 + 200) := by
    rw [abs_mul, abs_of_pos (by norm_num : (0 : ℝ) < 10)]
    rw [abs_le] at hlog e1 e2
    apply mul_le_mul_of_nonneg_left _ (by norm_num)
    rw [abs_le]
    constructor <;> linarith
  have e5 : |10 * log10 B - 10 * Q| ≤ 10 * (η + (4 * δ + 1 / 2 ^ 50) / 2) := by
    rw [← mul_sub, abs_mul, abs_of_pos (by norm_num : (0 : ℝ) < 10)]
    rw [abs_le] at hlog e1
    apply mul_le_mul_of_nonneg_left _ (by norm_num)
    rw [abs_le]
    constructor <;> linarith
  have e6 := abs_sub_le (double.round (10 * log10 B)) (10 * log10 B) (10 * Q)
  have e7 : |10 * log10 B| / 2 ^ 53 ≤ 10 * (η + (4 * δ + 1 / 2 ^ 50) / 2 + 200) / 2 ^ 53 := div_le_div_of_nonneg_right e4 (by positivity)
  norm_num at e3 e5 e7 hδ ⊢
  linarith

/-- **C193.** PSNR as computed differs from the exact value by less than 0.00001 dB for float32 and 0.0000001 dB for float64 images, and eleven times
the error `η` of the logarithm of the platform, for every order of summation. -/
theorem C193_psnr (log10 : ℝ → ℝ) (η : ℝ) (hη : ∀ a, 2 ^ (-1000 : ℤ) ≤ a → a ≤ 2 ^ (1000 : ℤ) → |log10 a - Real.logb 10 a| ≤ η) (o : SumOrder P) (x y : P → ℝ)
    (hn : o.positions.length ≤ 2 ^ 60) (hdepth : o.depth ≤ 2 ^ 20) (hd : ∀ q ∈ o.positions, x q = y q ∨ 2 ^ (-63 : ℤ) ≤ |x q - y q|)
    (hne : ∃ q ∈ o.positions, x q ≠ y q) (dr : ℝ) (hd1 : 2 ^ (-100 : ℤ) ≤ dr) (hd2 : dr ≤ 2 ^ (100 : ℤ))
    (hR : Spec.rootMeanSquare (o.positions.map (fun q => x q - y q)) ≤ 2 ^ (100 : ℤ)) :
    ∃ v w, psnrRounded log10 single o dr x y = .finite v ∧ psnrRounded log10 double o dr x y = .finite w ∧
      |v - 20 * Real.logb 10 (dr / Spec.rootMeanSquare (o.positions.map (fun q => x q - y q)))| ≤ 11 * η + 1 / 10 ^ 5 ∧
      |w - 20 * Real.logb 10 (dr / Spec.rootMeanSquare (o.positions.map (fun q => x q - y q)))| ≤ 11 * η + 1 / 10 ^ 7 := by
  obtain ⟨q, hq, hxy⟩ := hne
  have hqd : 2 ^ (-63 : ℤ) ≤ |x q - y q| := (hd q hq).resolve_left hxy
  have hη0 : 0 ≤ η := (abs_nonneg _).trans (hη (2 ^ (0 : ℤ)) (zpow_le_zpow_right₀ (by norm_num) (by norm_num)) (zpow_le_zpow_right₀ (by norm_num) (by norm_num)))
  have hR1 : (2 : ℝ) ^ (-100 : ℤ) ≤ Spec.rootMeanSquare (o.positions.map (fun q => x q - y q)) := by
    unfold Spec.rootMeanSquare
    apply Real.le_sqrt_of_sq_le
    have hpos : (0 : ℝ) < o.positions.length := by exact_mod_cast o.positions_pos
    rw [List.length_map, le_div_iff₀ hpos, List.map_map]
    have hn' : (o.positions.length : ℝ) ≤ 2 ^ (60 : ℤ) := by
      rw [show ((60 : ℤ)) = ((60 : ℕ) : ℤ) from rfl, zpow_natCast]
      exact_mod_cast hn
    calc ((2 : ℝ) ^ (-100 : ℤ)) ^ 2 * o.positions.length ≤ (2 ^ (-100 : ℤ)) ^ 2 * 2 ^ (60 : ℤ) := mul_le_mul_of_nonneg_left hn' (by positivity)
      _ ≤ (2 ^ (-63 : ℤ)) ^ 2 := by norm_num
      _ ≤ |x q - y q| ^ 2 := pow_le_pow_left₀ (by positivity) hqd 2
      _ = (x q - y q) ^ 2 := sq_abs _
      _ ≤ _ := List.single_le_sum (by
          intro v hv
          rw [List.mem_map] at hv
          obtain ⟨p, -, rfl⟩ := hv
          exact sq_nonneg _) _ (List.mem_map.2 ⟨q, hq, rfl⟩)
  obtain ⟨s, d⟩ := C146_digits o x y hn hdepth hd
  obtain ⟨v, hv, bv⟩ := psnr_accuracy log10 η (1 / 2 ^ 22) hη hη0 le_rfl (by positivity) single (.inl rfl) o x y hn q hq hqd _ dr hR1 hR
    (by rw [mul_one_div]; exact s) hd1 hd2
  obtain ⟨w, hw, bw⟩ := psnr_accuracy log10 η (1 / 2 ^ 30) hη hη0 (by norm_num) (by positivity) double (.inr rfl) o x y hn q hq hqd _ dr hR1 hR
    (by rw [mul_one_div]; exact d) hd1 hd2
  refine ⟨v, w, hv, hw, bv.trans ?_, bw.trans ?_⟩ <;> norm_num <;> linarith

/-- Two pixels with the distances 2 and 2, data range 255. -/
example : ∃ v, psnrRounded (Real.logb 10) single (.node (.leaf true) (.leaf false)) 255 (fun q => if q then 3 else 7) (fun q => if q then 1 else 9) = .finite v ∧
    |v - 20 * Real.logb 10 (255 / 2)| ≤ 1 / 10 ^ 5 := by
  have e : Spec.rootMeanSquare ((SumOrder.node (.leaf true) (.leaf false)).positions.map
      (fun q : Bool => (if q then (3 : ℝ) else 7) - (if q then 1 else 9))) = 2 := by
    simp only [SumOrder.positions, List.singleton_append, List.map_cons, List.map_nil, Spec.rootMeanSquare, if_true,
      List.sum_cons, List.sum_nil, List.length_cons, List.length_nil]
    rw [show ((((3 : ℝ) - 1) ^ 2 + (((if false = true then (3 : ℝ) else 7) - (if false = true then 1 else 9)) ^ 2 + 0)) / ((0 + 1 + 1 : ℕ) : ℝ))
      = 2 ^ 2 by norm_num]
    exact Real.sqrt_sq (by norm_num)
  obtain ⟨v, -, h1, -, h2, -⟩ := C193_psnr (Real.logb 10) 0 (fun a _ _ => by rw [sub_self, abs_zero]) (.node (.leaf true) (.leaf false))
    (fun q => if q then 3 else 7) (fun q => if q then 1 else 9) (by simp [SumOrder.positions]) (by simp [SumOrder.depth]) (by
      intro q _
      right
      refine le_trans (zpow_le_zpow_right₀ (by norm_num) (show (-63 : ℤ) ≤ 0 by norm_num)) ?_
      cases q <;> norm_num) ⟨true, by simp [SumOrder.positions], by norm_num⟩ 255
    (le_trans (zpow_le_zpow_right₀ (by norm_num) (show (-100 : ℤ) ≤ 0 by norm_num)) (by norm_num)) (by norm_num) (by rw [e]; norm_num)
  rw [e] at h2
  exact ⟨v, h1, by simpa using h2⟩

end

end Viqa
