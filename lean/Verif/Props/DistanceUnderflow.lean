import Verif.Props.DistanceRounded

/-!
C144: exactly which differences RMSE does not see in floating point arithmetic.
-/

namespace Viqa

namespace FloatFormat
variable (F : FloatFormat)

/-- Numbers of more than half the smallest positive number are not lost. -/
theorem round_kept (hp : 1 ≤ F.bits) {x : ℝ} (h : 2 ^ (F.least - 1) < x) : 2 ^ F.least ≤ F.round x := by
  have hu : (0 : ℝ) < 2 ^ F.least := zpow_pos (by norm_num) _
  by_cases hx : 2 ^ F.least ≤ x
  · exact F.le_round hp _ le_rfl hx
  · push Not at hx
    have e : (2 : ℝ) ^ (F.least - 1) = 2 ^ F.least / 2 := by rw [zpow_sub₀ (by norm_num), zpow_one]
    have hpos : 0 < x := lt_trans (zpow_pos (by norm_num) _) h
    unfold round
    rw [if_pos]
    · have h1 : x / 2 ^ F.least < 1 := (div_lt_one hu).2 hx
      have h2 : 1 / 2 < x / 2 ^ F.least := by
        rw [lt_div_iff₀ hu]
        rw [e] at h
        linarith
      have hf : ⌊x / 2 ^ F.least⌋ = 0 := Int.floor_eq_zero_iff.2 ⟨by linarith, h1⟩
      have hn : nearestEven (x / 2 ^ F.least) = 1 := by
        unfold nearestEven
        rw [hf, if_neg (by push_cast; linarith), if_pos (by push_cast; linarith)]
        rfl
      rw [hn]
      simp
    · rw [abs_of_pos hpos]
      refine hx.trans_le (zpow_le_zpow_right₀ (by norm_num) ?_)
      omega

/-- Exactly the numbers up to half the smallest positive number are rounded to 0. -/
theorem round_eq_zero_iff (hp : 1 ≤ F.bits) (x : ℝ) : F.round x = 0 ↔ |x| ≤ 2 ^ (F.least - 1) := by
  have hu : (0 : ℝ) < 2 ^ F.least := zpow_pos (by norm_num) _
  have key : ∀ y : ℝ, 0 ≤ y → (F.round y = 0 ↔ y ≤ 2 ^ (F.least - 1)) := by
    intro y hy
    constructor
    · intro h
      by_contra hc
      push Not at hc
      have := F.round_kept hp hc
      linarith
    · intro h
      rcases eq_or_lt_of_le h with h | h
      · have e : (2 : ℝ) ^ (F.least - 1) = 2 ^ F.least / 2 := by rw [zpow_sub₀ (by norm_num), zpow_one]
        unfold round
        rw [if_pos]
        · have hq : y / 2 ^ F.least = 1 / 2 := by rw [h, e]; field_simp
          have hn : nearestEven (y / 2 ^ F.least) = 0 := by
            have hf : ⌊(1 : ℝ) / 2⌋ = 0 := Int.floor_eq_zero_iff.2 ⟨by norm_num, by norm_num⟩
            rw [hq]
            unfold nearestEven
            rw [hf]
            norm_num
          rw [hn]
          simp
        · rw [abs_of_nonneg hy, h]
          exact zpow_lt_zpow_right₀ (by norm_num) (by omega)
      · exact F.round_lost (by rwa [abs_of_nonneg hy]) hp
  rcases abs_choice x with h | h
  · rw [h]
    exact key x (by rw [← h]; exact abs_nonneg x)
  · rw [h, ← key (-x) (by rw [← h]; exact abs_nonneg x), F.round_neg, neg_eq_zero]

end FloatFormat

variable {P : Type}

theorem rmseRounded_eq_zero (F : FloatFormat) (o : SumOrder P) (x y : P → ℝ) (h : ∀ q ∈ o.positions, squareRounded F (x q - y q) = 0) :
    rmseRounded F o x y = 0 := by
  unfold rmseRounded
  rw [mseRounded_eq, o.eval_zero double _ h, zero_div, double.round_zero, Real.sqrt_zero, double.round_zero]

/-- **C144**, the exact condition for float32 images: RMSE is 0 exactly if no two pixels differ by more than `2 ^ -75`
(about 2.6e-23), for every order of the additions. -/
theorem C144_single_zero_iff (o : SumOrder P) (x y : P → ℝ) (hn : o.positions.length ≤ 2 ^ 60) :
    rmseRounded single o x y = 0 ↔ ∀ q ∈ o.positions, |single.round (x q - y q)| ≤ 2 ^ (-75 : ℤ) := by
  have hsq : ∀ d, squareRounded single d = 0 ↔ |single.round d| ≤ 2 ^ (-75 : ℤ) := by
    intro d
    unfold squareRounded
    rw [single.round_eq_zero_iff single_bits, abs_mul_self]
    have e : (2 : ℝ) ^ (single.least - 1) = 2 ^ (-75 : ℤ) * 2 ^ (-75 : ℤ) := by
      rw [← zpow_add₀ (by norm_num)]
      norm_num [single]
    rw [e, ← abs_mul_abs_self]
    exact mul_self_le_mul_self_iff (abs_nonneg _) (by positivity) |>.symm
  constructor
  · intro h0 q hq
    rw [← hsq]
    by_contra hc
    have hbig : (2 : ℝ) ^ (-149 : ℤ) ≤ squareRounded single (x q - y q) := by
      unfold squareRounded at hc ⊢
      rw [single.round_eq_zero_iff single_bits, abs_mul_self] at hc
      push Not at hc
      exact single.round_kept single_bits hc
    have hsum := o.le_eval double double_bits (fun q => squareRounded single (x q - y q)) (-149) (by decide)
      (fun q _ => squareRounded_nonneg single single_bits _) q hq hbig
    have hpos : (0 : ℝ) < o.positions.length := by exact_mod_cast o.positions_pos
    have hn' : (o.positions.length : ℝ) ≤ 2 ^ (60 : ℤ) := by
      rw [show ((60 : ℤ)) = ((60 : ℕ) : ℤ) from rfl, zpow_natCast]
      exact_mod_cast hn
    have hm : (2 : ℝ) ^ (-210 : ℤ) ≤ mseRounded single o x y := by
      rw [mseRounded_eq]
      apply double.le_round double_bits _ (by decide)
      rw [le_div_iff₀ hpos]
      calc (2 : ℝ) ^ (-210 : ℤ) * o.positions.length ≤ 2 ^ (-210 : ℤ) * 2 ^ (60 : ℤ) :=
            mul_le_mul_of_nonneg_left hn' (by positivity)
        _ = 2 ^ (-150 : ℤ) := by rw [← zpow_add₀ (by norm_num)]; norm_num
        _ ≤ 2 ^ (-149 : ℤ) := zpow_le_zpow_right₀ (by norm_num) (by norm_num)
        _ ≤ _ := hsum
    have h2 : (2 : ℝ) ^ (-105 : ℤ) ≤ Real.sqrt (mseRounded single o x y) := by
      apply Real.le_sqrt_of_sq_le
      refine le_trans (le_of_eq ?_) hm
      rw [← zpow_natCast, ← zpow_mul]
      norm_num
    have h3 := double.le_round double_bits (-105) (by decide) h2
    unfold rmseRounded at h0
    rw [h0] at h3
    have : (0 : ℝ) < 2 ^ (-105 : ℤ) := by positivity
    linarith
  · intro h
    exact rmseRounded_eq_zero single o x y (fun q hq => (hsq _).2 (h q hq))

example : rmseRounded single (.node (.leaf true) (.leaf false)) (fun q => if q then 2 ^ (-75 : ℤ) else 7) (fun q => if q then 0 else 7) = 0 ∧
    rmseRounded single (.node (.leaf true) (.leaf false)) (fun q => if q then 2 ^ (-74 : ℤ) else 7) (fun q => if q then 0 else 7) ≠ 0 := by
  rw [C144_single_zero_iff _ _ _ (by simp [SumOrder.positions]), Ne, C144_single_zero_iff _ _ _ (by simp [SumOrder.positions])]
  simp only [SumOrder.positions, List.singleton_append, List.mem_cons, List.not_mem_nil, or_false, forall_eq_or_imp, forall_eq, if_true,
    sub_zero, Bool.false_eq_true, if_false, sub_self, FloatFormat.round_zero, abs_zero]
  rw [single.round_two_zpow single_bits _ (by decide), single.round_two_zpow single_bits _ (by decide),
    abs_of_pos (by positivity), abs_of_pos (by positivity)]
  refine ⟨⟨le_rfl, by positivity⟩, fun h => ?_⟩
  exact absurd h.1 (not_le.2 (zpow_lt_zpow_right₀ (by norm_num) (by norm_num)))

/-- **C144**, the exact condition for float64 images of one pixel: RMSE is 0 exactly if the square of the difference is
at most half the smallest positive number. -/
theorem C144_double_zero_iff (q : P) (x y : P → ℝ) :
    rmseRounded double (.leaf q) x y = 0 ↔ double.round (x q - y q) ^ 2 ≤ 2 ^ (-1075 : ℤ) := by
  have hsq : squareRounded double (x q - y q) = 0 ↔ double.round (x q - y q) ^ 2 ≤ 2 ^ (-1075 : ℤ) := by
    unfold squareRounded
    rw [double.round_eq_zero_iff double_bits, abs_mul_self, sq]
    norm_num [double]
  rw [← hsq]
  constructor
  · intro h0
    by_contra hc
    have hbig : (2 : ℝ) ^ (-1074 : ℤ) ≤ squareRounded double (x q - y q) := by
      unfold squareRounded at hc ⊢
      rw [double.round_eq_zero_iff double_bits, abs_mul_self] at hc
      push Not at hc
      exact double.round_kept double_bits hc
    have hm : (2 : ℝ) ^ (-1074 : ℤ) ≤ mseRounded double (.leaf q) x y := by
      rw [mseRounded_eq]
      apply double.le_round double_bits _ (by decide)
      simpa [SumOrder.eval, SumOrder.positions] using hbig
    have h2 : (2 : ℝ) ^ (-537 : ℤ) ≤ Real.sqrt (mseRounded double (.leaf q) x y) := by
      apply Real.le_sqrt_of_sq_le
      refine le_trans (le_of_eq ?_) hm
      rw [← zpow_natCast, ← zpow_mul]
      norm_num
    have h3 := double.le_round double_bits (-537) (by decide) h2
    unfold rmseRounded at h0
    rw [h0] at h3
    have : (0 : ℝ) < 2 ^ (-537 : ℤ) := zpow_pos (by norm_num) _
    linarith
  · intro h
    exact rmseRounded_eq_zero double _ x y (fun r hr => by
      simp only [SumOrder.positions, List.mem_singleton] at hr
      rw [hr]
      exact h)

example : rmseRounded double (.leaf ()) (fun _ => 2 ^ (-538 : ℤ)) (fun _ => 0) = 0 ∧
    rmseRounded double (.leaf ()) (fun _ => 2 ^ (-537 : ℤ)) (fun _ => 0) ≠ 0 := by
  rw [Ne, C144_double_zero_iff, C144_double_zero_iff, sub_zero, sub_zero, double.round_two_zpow double_bits _ (by decide),
    double.round_two_zpow double_bits _ (by decide), ← zpow_natCast, ← zpow_natCast, ← zpow_mul, ← zpow_mul]
  constructor
  · exact zpow_le_zpow_right₀ (by norm_num) (by norm_num)
  · exact not_le.2 (zpow_lt_zpow_right₀ (by norm_num) (by norm_num))

end Viqa
