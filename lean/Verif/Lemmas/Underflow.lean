import Verif.Model.DistanceRounded
import Verif.Lemmas.Rounding

namespace Viqa

namespace FloatFormat
variable (F : FloatFormat)

theorem round_neg (x : ℝ) : F.round (-x) = -F.round x := by
  unfold round
  rw [abs_neg, neg_div, nearestEven_neg, fl_neg]
  split
  · push_cast; ring
  · rfl

theorem round_zero : F.round 0 = 0 := by
  unfold round
  rw [zero_div, show (0 : ℝ) = ((0 : ℤ) : ℝ) by simp, nearestEven_int, Int.cast_zero, fl_zero]
  simp

/-- The smallest normal number as a multiple. -/
theorem normal_eq (hp : 1 ≤ F.bits) : (2 : ℝ) ^ (F.least + F.bits - 1) = ((2 ^ (F.bits - 1) : ℤ) : ℝ) * 2 ^ F.least := by
  push_cast
  rw [← zpow_natCast, ← zpow_add₀ (by norm_num)]
  congr 1
  omega

theorem round_small_le (hp : 1 ≤ F.bits) (x : ℝ) (h : x ≤ 2 ^ (F.least + F.bits - 1)) :
    (nearestEven (x / 2 ^ F.least) : ℝ) * 2 ^ F.least ≤ 2 ^ (F.least + F.bits - 1) := by
  have hu : (0 : ℝ) < 2 ^ F.least := zpow_pos (by norm_num) _
  rw [normal_eq F hp] at h ⊢
  refine mul_le_mul_of_nonneg_right ?_ hu.le
  exact_mod_cast nearestEven_le_int _ _ (by rw [div_le_iff₀ hu]; exact h)

theorem normal_fl (hp : 1 ≤ F.bits) : fl F.bits ((2 : ℝ) ^ (F.least + F.bits - 1)) = 2 ^ (F.least + F.bits - 1) :=
  fl_of_representable hp ⟨1, F.least + F.bits - 1, by simpa using one_le_pow₀ (by norm_num), by simp⟩

theorem round_mono (hp : 1 ≤ F.bits) {x y : ℝ} (h : x ≤ y) : F.round x ≤ F.round y := by
  have hu : (0 : ℝ) < 2 ^ F.least := zpow_pos (by norm_num) _
  have key : ∀ x y : ℝ, 0 ≤ y → x ≤ y → |x| ≤ |y| → F.round x ≤ F.round y := by
    intro x y hy hxy ha
    unfold round
    by_cases hys : |y| < 2 ^ (F.least + F.bits - 1)
    · rw [if_pos hys, if_pos (ha.trans_lt hys)]
      refine mul_le_mul_of_nonneg_right ?_ hu.le
      exact_mod_cast nearestEven_mono (div_le_div_of_nonneg_right hxy hu.le)
    · rw [if_neg hys]
      by_cases hxs : |x| < 2 ^ (F.least + F.bits - 1)
      · rw [if_pos hxs]
        refine (round_small_le F hp x ((le_abs_self x).trans hxs.le)).trans ?_
        rw [← normal_fl F hp]
        rw [abs_of_nonneg hy] at hys
        exact fl_mono hp (not_lt.1 hys)
      · rw [if_neg hxs]
        exact fl_mono hp hxy
  have nonneg : ∀ x : ℝ, 0 ≤ x → 0 ≤ F.round x := by
    intro x hx
    have := key 0 x hx hx (by simp)
    rwa [round_zero] at this
  rcases le_total 0 x with hx | hx
  · exact key x y (hx.trans h) h (abs_le_abs_of_nonneg hx h)
  · rcases le_total 0 y with hy | hy
    · have h1 := nonneg (-x) (by linarith)
      rw [round_neg] at h1
      linarith [nonneg y hy]
    · have := key (-y) (-x) (by linarith) (by linarith) (abs_le_abs_of_nonneg (by linarith) (by linarith))
      rw [round_neg, round_neg] at this
      linarith

theorem round_nonneg (hp : 1 ≤ F.bits) {x : ℝ} (h : 0 ≤ x) : 0 ≤ F.round x := by
  have := round_mono F hp h
  rwa [round_zero] at this

/-- Normal numbers are rounded as without underflow. -/
theorem round_normal {x : ℝ} (h : 2 ^ (F.least + F.bits - 1) ≤ |x|) : F.round x = fl F.bits x := by
  unfold round
  rw [if_neg (not_lt.2 h)]

/-- Powers of two of the format are kept. -/
theorem round_two_zpow (hp : 1 ≤ F.bits) (k : ℤ) (hk : F.least ≤ k) : F.round ((2 : ℝ) ^ k) = 2 ^ k := by
  unfold round
  split
  · obtain ⟨j, hj⟩ : ∃ j : ℕ, k = (j : ℤ) + F.least := ⟨(k - F.least).toNat, by omega⟩
    have e : (2 : ℝ) ^ k / 2 ^ F.least = ((2 ^ j : ℤ) : ℝ) := by
      rw [hj, zpow_add₀ (by norm_num), zpow_natCast]
      push_cast
      field_simp
    rw [e, nearestEven_int, hj, zpow_add₀ (by norm_num), zpow_natCast]
    push_cast
    rfl
  · exact fl_of_representable hp ⟨1, k, by simpa using one_le_pow₀ (by norm_num), by simp⟩

/-- A number of at least a power of two stays above it. -/
theorem le_round (hp : 1 ≤ F.bits) (k : ℤ) (hk : F.least ≤ k) {x : ℝ} (h : 2 ^ k ≤ x) : 2 ^ k ≤ F.round x := by
  have := round_mono F hp h
  rwa [round_two_zpow F hp k hk] at this

theorem round_le (hp : 1 ≤ F.bits) (k : ℤ) (hk : F.least ≤ k) {x : ℝ} (h : x ≤ 2 ^ k) : F.round x ≤ 2 ^ k := by
  have := round_mono F hp h
  rwa [round_two_zpow F hp k hk] at this

/-- Numbers of less than half the smallest positive number are lost. -/
theorem round_lost {x : ℝ} (h : |x| < 2 ^ (F.least - 1)) (hp : 1 ≤ F.bits) : F.round x = 0 := by
  have hu : (0 : ℝ) < 2 ^ F.least := zpow_pos (by norm_num) _
  have e : (2 : ℝ) ^ (F.least - 1) = 2 ^ F.least / 2 := by rw [zpow_sub₀ (by norm_num), zpow_one]
  unfold round
  rw [if_pos]
  · have h1 := nearestEven_near (x / 2 ^ F.least)
    have h2 : |x / 2 ^ F.least| < 1 / 2 := by
      rw [abs_div, abs_of_pos hu, div_lt_iff₀ hu]
      rw [e] at h
      linarith
    have h3 : |(nearestEven (x / 2 ^ F.least) : ℝ)| < 1 := by
      calc |(nearestEven (x / 2 ^ F.least) : ℝ)| = |((nearestEven (x / 2 ^ F.least) : ℝ) - x / 2 ^ F.least) + x / 2 ^ F.least| := by
            congr 1; ring
        _ ≤ _ := abs_add_le _ _
        _ < 1 := by linarith
    have h4 : nearestEven (x / 2 ^ F.least) = 0 := by
      rw [← Int.abs_lt_one_iff]
      exact_mod_cast h3
    rw [h4]; simp
  · refine h.trans_le (zpow_le_zpow_right₀ (by norm_num) ?_)
    omega

end FloatFormat

end Viqa
