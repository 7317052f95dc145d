import Verif.Model.Rounding
import Mathlib.Tactic.Linarith
import Mathlib.Tactic.Ring
import Mathlib.Tactic.FieldSimp
import Mathlib.Tactic.Positivity
import Mathlib.Tactic.NormNum
import Mathlib.Algebra.Order.Field.Power
import Mathlib.Data.Real.Archimedean

/-!
Laws of rounding: monotone, odd, exact on representable numbers, relative error at most `2 ^ (-p)`.
-/

set_option linter.unusedSectionVars false

namespace Viqa

variable {K : Type*} [Field K] [LinearOrder K] [IsStrictOrderedRing K] [FloorRing K]

theorem nearestEven_near (x : K) : |(nearestEven x : K) - x| ≤ 1 / 2 := by
  have h0 := Int.floor_le x
  have h1 := Int.lt_floor_add_one x
  unfold nearestEven
  split_ifs with ha hb hc <;> rw [abs_le] <;> push_cast <;> constructor <;> linarith

theorem nearestEven_int (n : ℤ) : nearestEven (n : K) = n := by
  unfold nearestEven
  simp

theorem nearestEven_le_int (x : K) (n : ℤ) (h : x ≤ n) : nearestEven x ≤ n := by
  have h0 := Int.floor_le x
  rcases eq_or_lt_of_le h with h | h
  · rw [h, nearestEven_int]
  · have : ⌊x⌋ < n := by
      rw [Int.floor_lt]; exact h
    unfold nearestEven
    split_ifs <;> omega

theorem int_le_nearestEven (x : K) (n : ℤ) (h : (n : K) ≤ x) : n ≤ nearestEven x := by
  have h0 : n ≤ ⌊x⌋ := Int.le_floor.2 h
  unfold nearestEven
  split_ifs <;> omega

theorem nearestEven_mono {x y : K} (h : x ≤ y) : nearestEven x ≤ nearestEven y := by
  rcases eq_or_lt_of_le (Int.floor_mono h) with hf | hf
  · unfold nearestEven
    rw [← hf]
    split_ifs <;> first | omega | (exfalso; linarith)
  · have h1 : nearestEven x ≤ ⌊x⌋ + 1 := by
      apply nearestEven_le_int
      push_cast
      exact (Int.lt_floor_add_one x).le
    have h2 : ⌊y⌋ ≤ nearestEven y := int_le_nearestEven y _ (Int.floor_le y)
    omega

theorem nearestEven_neg (x : K) : nearestEven (-x) = -nearestEven x := by
  by_cases hx : (⌊x⌋ : K) = x
  · rw [← hx, ← Int.cast_neg, nearestEven_int, nearestEven_int]
  · have h0 := Int.floor_le x
    have h1 := Int.lt_floor_add_one x
    have h2 : (⌊x⌋ : K) < x := lt_of_le_of_ne h0 hx
    have hf : ⌊-x⌋ = -⌊x⌋ - 1 := by
      rw [Int.floor_eq_iff]
      push_cast
      constructor <;> linarith
    unfold nearestEven
    rw [hf]
    push_cast
    split_ifs <;> first | omega | (exfalso; linarith)

theorem fl_zero (p : ℕ) : fl p (0 : K) = 0 := by simp [fl]

theorem ulpExp_neg (p : ℕ) (x : K) : ulpExp p (-x) = ulpExp p x := by simp [ulpExp]

theorem fl_neg (p : ℕ) (x : K) : fl p (-x) = -fl p x := by
  unfold fl
  rw [ulpExp_neg, neg_div, nearestEven_neg]
  by_cases h : x = 0
  · simp [h]
  · rw [if_neg (by simpa using h), if_neg h]
    push_cast
    ring

private theorem two_zpow_pos (k : ℤ) : (0 : K) < 2 ^ k := zpow_pos (by norm_num) k

theorem log_two_mul (k : ℤ) (x : K) (hx : x ≠ 0) : Int.log 2 |2 ^ k * x| = Int.log 2 |x| + k := by
  have hp : (0 : K) < |x| := abs_pos.2 hx
  have hk := two_zpow_pos (K := K) k
  rw [abs_mul, abs_of_pos hk]
  have h1 := Int.zpow_log_le_self (R := K) (b := 2) (by norm_num) hp
  have h2 := Int.lt_zpow_succ_log_self (R := K) (b := 2) (by norm_num) |x|
  have hpos : (0 : K) < 2 ^ k * |x| := by positivity
  apply le_antisymm
  · have : Int.log 2 (2 ^ k * |x|) < Int.log 2 |x| + k + 1 := by
      rw [← Int.lt_zpow_iff_log_lt (by norm_num) hpos]
      push_cast at h2 ⊢
      rw [show Int.log 2 |x| + k + 1 = k + (Int.log 2 |x| + 1) by ring, zpow_add₀ (by norm_num)]
      exact mul_lt_mul_of_pos_left h2 hk
    omega
  · rw [← Int.zpow_le_iff_le_log (by norm_num) hpos]
    push_cast at h1 ⊢
    rw [add_comm, zpow_add₀ (by norm_num)]
    exact mul_le_mul_of_nonneg_left h1 hk.le

/-- Powers of two change the exponent only. -/
theorem fl_two_zpow_mul (p : ℕ) (k : ℤ) (x : K) : fl p (2 ^ k * x) = 2 ^ k * fl p x := by
  by_cases hx : x = 0
  · simp [hx, fl_zero]
  · have hk := two_zpow_pos (K := K) k
    have he : ulpExp p (2 ^ k * x) = ulpExp p x + k := by
      unfold ulpExp
      rw [log_two_mul k x hx]
      ring
    unfold fl
    rw [if_neg (mul_ne_zero hk.ne' hx), if_neg hx, he, zpow_add₀ (by norm_num)]
    have : 2 ^ k * x / (2 ^ ulpExp p x * 2 ^ k) = x / 2 ^ ulpExp p x := by
      have := two_zpow_pos (K := K) (ulpExp p x)
      field_simp
    rw [this]
    ring

theorem fl_two_mul (p : ℕ) (x : K) : fl p (2 * x) = 2 * fl p x := by
  have := fl_two_zpow_mul p 1 x
  simpa using this

/-- The quotient by the last bit lies between `2 ^ (p - 1)` and `2 ^ p`. -/
theorem scaled_bounds (p : ℕ) (x : K) (hx : x ≠ 0) :
    (2 : K) ^ ((p : ℤ) - 1) ≤ |x / 2 ^ ulpExp p x| ∧ |x / 2 ^ ulpExp p x| < 2 ^ (p : ℤ) := by
  have hp : (0 : K) < |x| := abs_pos.2 hx
  have h1 := Int.zpow_log_le_self (R := K) (b := 2) (by norm_num) hp
  have h2 := Int.lt_zpow_succ_log_self (R := K) (b := 2) (by norm_num) |x|
  have hu := two_zpow_pos (K := K) (ulpExp p x)
  push_cast at h1 h2
  rw [abs_div, abs_of_pos hu, le_div_iff₀ hu, div_lt_iff₀ hu, ← zpow_add₀ (by norm_num), ← zpow_add₀ (by norm_num)]
  unfold ulpExp
  constructor
  · convert h1 using 2; ring
  · convert h2 using 2; ring

theorem fl_representable (p : ℕ) (x : K) : Representable p (fl p x) := by
  by_cases hx : x = 0
  · exact ⟨0, 0, by simp, by simp [hx, fl_zero]⟩
  · refine ⟨nearestEven (x / 2 ^ ulpExp p x), ulpExp p x, ?_, by simp [fl, hx]⟩
    have h := (scaled_bounds p x hx).2.le
    rw [abs_le] at h ⊢
    constructor
    · apply int_le_nearestEven
      push_cast
      have := h.1
      rwa [zpow_natCast] at this
    · apply nearestEven_le_int
      push_cast
      have := h.2
      rwa [zpow_natCast] at this

/-- Representable numbers are not changed. -/
theorem fl_of_representable {p : ℕ} (hp : 1 ≤ p) {x : K} (h : Representable p x) : fl p x = x := by
  obtain ⟨m, k, hm, rfl⟩ := h
  by_cases hm0 : m = 0
  · simp [hm0, fl_zero]
  have hx : (m : K) ≠ 0 := by exact_mod_cast hm0
  suffices hs : fl p (m : K) = m by
    rw [mul_comm, fl_two_zpow_mul, hs]
  have hpos : (0 : K) < |(m : K)| := abs_pos.2 hx
  -- the exponent of the last bit is not positive, or `m` is the power of two
  have hq : ∃ n : ℤ, (m : K) / 2 ^ ulpExp p (m : K) = n := by
    rcases eq_or_lt_of_le hm with he | hl
    · have hlog : Int.log 2 |(m : K)| = p := by
        rw [← Int.cast_abs, he]
        have := Int.log_zpow (R := K) (b := 2) (by norm_num) (p : ℤ)
        push_cast at this ⊢
        rwa [zpow_natCast] at this
      have hu : ulpExp p (m : K) = 1 := by unfold ulpExp; omega
      have hd : (2 : ℤ) ∣ m := by
        rw [← dvd_abs, he]
        exact dvd_pow_self 2 (by omega)
      obtain ⟨n, rfl⟩ := hd
      exact ⟨n, by rw [hu]; push_cast; field_simp⟩
    · have hlog : Int.log 2 |(m : K)| < p := by
        rw [← Int.lt_zpow_iff_log_lt (by norm_num) hpos, ← Int.cast_abs, zpow_natCast]
        exact_mod_cast hl
      obtain ⟨j, hj⟩ : ∃ j : ℕ, ulpExp p (m : K) = -(j : ℤ) := ⟨(-(ulpExp p (m : K))).toNat, by
        unfold ulpExp; omega⟩
      exact ⟨m * 2 ^ j, by rw [hj]; push_cast; rw [zpow_neg, zpow_natCast, div_inv_eq_mul]⟩
  obtain ⟨n, hn⟩ := hq
  have hu := two_zpow_pos (K := K) (ulpExp p (m : K))
  unfold fl
  rw [if_neg hx, hn, nearestEven_int, ← hn]
  field_simp

theorem fl_fl {p : ℕ} (hp : 1 ≤ p) (x : K) : fl p (fl p x) = fl p x :=
  fl_of_representable hp (fl_representable p x)

theorem representable_int {p : ℕ} (n : ℤ) (h : |n| ≤ 2 ^ p) : Representable p (n : K) :=
  ⟨n, 0, h, by simp⟩

theorem fl_int {p : ℕ} (hp : 1 ≤ p) (n : ℤ) (h : |n| ≤ 2 ^ p) : fl p (n : K) = n :=
  fl_of_representable hp (representable_int n h)

/-- Relative error. -/
theorem fl_error (p : ℕ) (x : K) : |fl p x - x| ≤ |x| / 2 ^ p := by
  by_cases hx : x = 0
  · simp [hx, fl_zero]
  have hu := two_zpow_pos (K := K) (ulpExp p x)
  have h1 := nearestEven_near (x / 2 ^ ulpExp p x)
  have h2 := (scaled_bounds p x hx).1
  have e : fl p x - x = ((nearestEven (x / 2 ^ ulpExp p x) : K) - x / 2 ^ ulpExp p x) * 2 ^ ulpExp p x := by
    unfold fl; rw [if_neg hx]; field_simp
  have e2 : |x| = |x / 2 ^ ulpExp p x| * 2 ^ ulpExp p x := by
    rw [abs_div, abs_of_pos hu]; field_simp
  rw [e, abs_mul, abs_of_pos hu, e2, mul_div_right_comm]
  refine mul_le_mul_of_nonneg_right ?_ hu.le
  refine h1.trans ?_
  rw [le_div_iff₀ (by positivity)]
  rw [zpow_sub₀ (by norm_num), zpow_natCast, zpow_one] at h2
  linarith

theorem fl_mono {p : ℕ} (hp : 1 ≤ p) {x y : K} (h : x ≤ y) : fl p x ≤ fl p y := by
  -- positive numbers
  have pos : ∀ x y : K, 0 < x → x ≤ y → fl p x ≤ fl p y := by
    intro x y hx hxy
    have hy := hx.trans_le hxy
    have hlog : Int.log 2 |x| ≤ Int.log 2 |y| := by
      rw [abs_of_pos hx, abs_of_pos hy]
      exact Int.log_mono_right hx hxy
    have hux := two_zpow_pos (K := K) (ulpExp p x)
    have huy := two_zpow_pos (K := K) (ulpExp p y)
    rcases eq_or_lt_of_le hlog with he | hl
    · have hu : ulpExp p x = ulpExp p y := by unfold ulpExp; omega
      unfold fl
      rw [if_neg hx.ne', if_neg hy.ne', hu]
      refine mul_le_mul_of_nonneg_right ?_ huy.le
      exact_mod_cast nearestEven_mono (div_le_div_of_nonneg_right hxy huy.le)
    · have hB1 : x ≤ 2 ^ Int.log 2 |y| := by
        have := Int.lt_zpow_succ_log_self (R := K) (b := 2) (by norm_num) x
        rw [abs_of_pos hx] at hl
        push_cast at this
        exact this.le.trans (zpow_le_zpow_right₀ (by norm_num) (by omega))
      have hB2 : (2 : K) ^ Int.log 2 |y| ≤ y := by
        have := Int.zpow_log_le_self (R := K) (b := 2) (by norm_num) hy
        rw [abs_of_pos hy]
        exact_mod_cast this
      have key : ∀ z : K, 0 < z → Int.log 2 |z| ≤ Int.log 2 |y| →
          ∃ n : ℤ, (2 : K) ^ Int.log 2 |y| = n * 2 ^ ulpExp p z := by
        intro z hz hle
        obtain ⟨j, hj⟩ : ∃ j : ℕ, Int.log 2 |y| = (j : ℤ) + ulpExp p z :=
          ⟨(Int.log 2 |y| - ulpExp p z).toNat, by unfold ulpExp; omega⟩
        refine ⟨2 ^ j, ?_⟩
        rw [hj, zpow_add₀ (by norm_num), zpow_natCast]
        push_cast
        rfl
      obtain ⟨n1, hn1⟩ := key x hx hl.le
      obtain ⟨n2, hn2⟩ := key y hy le_rfl
      have g1 : fl p x ≤ 2 ^ Int.log 2 |y| := by
        unfold fl
        rw [if_neg hx.ne', hn1]
        refine mul_le_mul_of_nonneg_right ?_ hux.le
        exact_mod_cast nearestEven_le_int _ _ (by rw [div_le_iff₀ hux, ← hn1]; exact hB1)
      have g2 : 2 ^ Int.log 2 |y| ≤ fl p y := by
        unfold fl
        rw [if_neg hy.ne', hn2]
        refine mul_le_mul_of_nonneg_right ?_ huy.le
        exact_mod_cast int_le_nearestEven _ _ (by rw [le_div_iff₀ huy, ← hn2]; exact hB2)
      exact g1.trans g2
  have nonneg : ∀ x : K, 0 ≤ x → 0 ≤ fl p x := by
    intro x hx
    by_cases h0 : x = 0
    · simp [h0, fl_zero]
    · have hux := two_zpow_pos (K := K) (ulpExp p x)
      unfold fl
      rw [if_neg h0]
      refine mul_nonneg ?_ hux.le
      exact_mod_cast int_le_nearestEven _ 0 (by push_cast; positivity)
  rcases lt_trichotomy x 0 with hx | hx | hx
  · rcases lt_or_ge y 0 with hy | hy
    · have := pos (-y) (-x) (by linarith) (by linarith)
      rw [fl_neg, fl_neg] at this
      linarith
    · have h1 := nonneg (-x) (by linarith)
      have h2 := nonneg y hy
      rw [fl_neg] at h1
      linarith
  · rw [hx, fl_zero]; exact nonneg y (by linarith)
  · exact pos x y hx h

theorem fl_nonneg {p : ℕ} (hp : 1 ≤ p) {x : K} (h : 0 ≤ x) : 0 ≤ fl p x := by
  have := fl_mono hp h
  rwa [fl_zero] at this

theorem fl_eq_zero_iff {p : ℕ} (hp : 1 ≤ p) (x : K) : fl p x = 0 ↔ x = 0 := by
  constructor
  · intro h
    have he := fl_error p x
    rw [h, zero_sub, abs_neg] at he
    by_contra hx
    have hpos : (0 : K) < |x| := abs_pos.2 hx
    have h2 : (2 : K) ≤ 2 ^ p := by
      calc (2 : K) = 2 ^ 1 := by norm_num
        _ ≤ 2 ^ p := pow_le_pow_right₀ (by norm_num) hp
    rw [le_div_iff₀ (by positivity)] at he
    nlinarith
  · intro h; rw [h, fl_zero]

theorem fl_pos {p : ℕ} (hp : 1 ≤ p) {x : K} (h : 0 < x) : 0 < fl p x :=
  lt_of_le_of_ne (fl_nonneg hp h.le) (fun e => h.ne' ((fl_eq_zero_iff hp x).1 e.symm))

theorem abs_fl_le (p : ℕ) (x : K) : |fl p x| ≤ |x| * (1 + 1 / 2 ^ p) := by
  have h := fl_error p x
  have h2 : |fl p x| ≤ |fl p x - x| + |x| := by
    calc |fl p x| = |(fl p x - x) + x| := by congr 1; ring
      _ ≤ _ := abs_add_le _ _
  have e : |x| / 2 ^ p = |x| * (1 / 2 ^ p) := by ring
  rw [e] at h
  linarith

theorem fl_le_mul (p : ℕ) {x : K} (h : 0 ≤ x) : fl p x ≤ x * (1 + 1 / 2 ^ p) := by
  have := abs_fl_le p x
  rw [abs_of_nonneg h] at this
  exact (le_abs_self _).trans this

theorem mul_le_fl (p : ℕ) {x : K} (h : 0 ≤ x) : x * (1 - 1 / 2 ^ p) ≤ fl p x := by
  have he := fl_error p x
  rw [abs_of_nonneg h, abs_le] at he
  have e : x / 2 ^ p = x * (1 / 2 ^ p) := by ring
  rw [e] at he
  linarith [he.1]

/-- Rounding of rational numbers does not depend on the field. -/
theorem fl_ratCast (p : ℕ) (x : ℚ) : ((fl p x : ℚ) : ℝ) = fl p (x : ℝ) := by
  have hlog : ∀ y : ℚ, 0 < y → Int.log 2 (y : ℝ) = Int.log 2 y := by
    intro y hy
    have hy' : (0 : ℝ) < y := by exact_mod_cast hy
    apply le_antisymm
    · rw [← Int.zpow_le_iff_le_log (by norm_num) hy]
      have := Int.zpow_log_le_self (R := ℝ) (b := 2) (by norm_num) hy'
      push_cast at this ⊢
      have h2 : (((2 : ℚ) ^ Int.log 2 (y : ℝ) : ℚ) : ℝ) ≤ y := by push_cast; exact this
      exact_mod_cast h2
    · rw [← Int.zpow_le_iff_le_log (by norm_num) hy']
      have := Int.zpow_log_le_self (R := ℚ) (b := 2) (by norm_num) hy
      push_cast at this ⊢
      have h2 : (((2 : ℚ) ^ Int.log 2 y : ℚ) : ℝ) ≤ y := by exact_mod_cast this
      push_cast at h2
      exact h2
  have hne : ∀ y : ℚ, nearestEven (y : ℝ) = nearestEven y := by
    intro y
    have hf : ⌊(y : ℝ)⌋ = ⌊y⌋ := Rat.floor_cast y
    unfold nearestEven
    rw [hf]
    have e1 : ((y : ℝ) - (⌊y⌋ : ℤ) < 1 / 2) ↔ (y - (⌊y⌋ : ℤ) < 1 / 2) := by
      have : ((y - (⌊y⌋ : ℤ) : ℚ) : ℝ) < ((1 / 2 : ℚ) : ℝ) ↔ y - (⌊y⌋ : ℤ) < 1 / 2 := Rat.cast_lt
      rw [← this]; push_cast; rfl
    have e2 : (1 / 2 < (y : ℝ) - (⌊y⌋ : ℤ)) ↔ (1 / 2 < y - (⌊y⌋ : ℤ)) := by
      have : ((1 / 2 : ℚ) : ℝ) < ((y - (⌊y⌋ : ℤ) : ℚ) : ℝ) ↔ 1 / 2 < y - (⌊y⌋ : ℤ) := Rat.cast_lt
      rw [← this]; push_cast; rfl
    simp only [e1, e2]
  by_cases hx : x = 0
  · simp [hx, fl_zero]
  · have hx' : (x : ℝ) ≠ 0 := by exact_mod_cast hx
    have hu : ulpExp p (x : ℝ) = ulpExp p x := by
      unfold ulpExp
      rw [← hlog |x| (abs_pos.2 hx)]
      push_cast
      rfl
    unfold fl
    rw [if_neg hx, if_neg hx', hu]
    push_cast
    rw [← hne]
    push_cast
    rfl

end Viqa
