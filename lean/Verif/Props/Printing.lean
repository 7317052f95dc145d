import Verif.Model.Printing
import Verif.Lemmas.Rounding
import Mathlib.Tactic.Push

/-! C192: printed scores. -/

namespace Viqa

/-- Numbers of up to 15 digits are determined by the nearest `float64` number. -/
theorem decimal_unique {s t : ℚ} (hs : DecimalDigits 15 s) (ht : DecimalDigits 15 t) (h : fl 53 s = fl 53 t) : s = t := by
  have key : ∀ (k l d e : ℤ), |k| < 10 ^ 15 → d ≤ e → fl 53 ((k : ℚ) * 10 ^ d) = fl 53 ((l : ℚ) * 10 ^ e) → (k : ℚ) * 10 ^ d = l * 10 ^ e := by
    intro k l d e hk hde h
    obtain ⟨j, hj⟩ := Int.eq_ofNat_of_zero_le (show 0 ≤ e - d by omega)
    have he : (l : ℚ) * 10 ^ e = ((l * 10 ^ j : ℤ) : ℚ) * 10 ^ d := by
      rw [show e = d + j by omega, zpow_add₀ (by norm_num)]
      push_cast
      rw [zpow_natCast]
      ring
    rw [he] at h ⊢
    have hd : (0 : ℚ) < 10 ^ d := by positivity
    by_contra hne
    have hne' : k ≠ l * 10 ^ j := by
      intro h'
      apply hne
      rw [h']
    set L := l * 10 ^ j
    have h1 := fl_error 53 ((k : ℚ) * 10 ^ d)
    have h2 := fl_error 53 ((L : ℚ) * 10 ^ d)
    rw [h] at h1
    set f := fl 53 ((L : ℚ) * 10 ^ d)
    have hdist : (10 : ℚ) ^ d ≤ |(k : ℚ) * 10 ^ d - L * 10 ^ d| := by
      rw [← sub_mul, abs_mul, abs_of_pos hd]
      have : (1 : ℚ) ≤ |(k : ℚ) - L| := by
        have := Int.one_le_abs (sub_ne_zero.2 hne')
        exact_mod_cast this
      nlinarith
    have hsmall : |(k : ℚ) * 10 ^ d| < 10 ^ 15 * 10 ^ d := by
      rw [abs_mul, abs_of_pos hd]
      apply mul_lt_mul_of_pos_right _ hd
      exact_mod_cast hk
    have t1 : |(k : ℚ) * 10 ^ d - L * 10 ^ d| ≤ |f - k * 10 ^ d| + |f - L * 10 ^ d| := by
      rw [abs_sub_comm f (k * 10 ^ d)]
      have := abs_sub_le ((k : ℚ) * 10 ^ d) f (L * 10 ^ d)
      exact this
    have t2 : |(L : ℚ) * 10 ^ d| ≤ |(k : ℚ) * 10 ^ d| + |(k : ℚ) * 10 ^ d - L * 10 ^ d| := by
      have := abs_sub_abs_le_abs_sub ((L : ℚ) * 10 ^ d) (k * 10 ^ d)
      rw [abs_sub_comm ((L : ℚ) * 10 ^ d)] at this
      linarith
    rw [le_div_iff₀ (by norm_num)] at h1 h2
    have p1 : (2 : ℚ) ^ 53 = 9007199254740992 := by norm_num
    have p2 : (10 : ℚ) ^ 15 = 1000000000000000 := by norm_num
    rw [p1] at h1 h2
    rw [p2] at hsmall
    linarith
  obtain ⟨k, d, hk, rfl⟩ := hs
  obtain ⟨l, e, hl, rfl⟩ := ht
  rcases le_total d e with hde | hde
  · exact key k l d e hk hde h
  · exact (key l k e d hl hde h.symm).symm

/-- A number has a text if some decimal number is rounded to it. -/
theorem repr_exists {p n : ℕ} {v s : ℚ} (hs : DecimalDigits n s) (h : fl p s = v) : ∃ t, ReprOf p v t := by
  classical
  have hex : ∃ n, ∃ t, DecimalDigits n t ∧ fl p t = v := ⟨n, s, hs, h⟩
  obtain ⟨t, ht, hv⟩ := Nat.find_spec hex
  exact ⟨t, hv, Nat.find hex, ht, fun m s' hs' hv' => Nat.find_min' hex ⟨s', hs', hv'⟩⟩

/-- The scaled and rounded score. -/
theorem scaled_bound {x : ℚ} {d : ℤ} (hx : |x| * 10 ^ d ≤ 10 ^ 15 - 1) : |nearestEven (fl 53 (x * 10 ^ d))| < 10 ^ 15 := by
  have hd : (0 : ℚ) < 10 ^ d := by positivity
  have e : |x * 10 ^ d| ≤ 10 ^ 15 - 1 := by
    rw [abs_mul, abs_of_pos hd]
    exact hx
  rw [abs_le] at e
  have f1 : fl 53 (((10 ^ 15 - 1 : ℤ)) : ℚ) = ((10 ^ 15 - 1 : ℤ) : ℚ) := fl_int (by norm_num) _ (by norm_num)
  have f2 : fl 53 (((-(10 ^ 15 - 1) : ℤ)) : ℚ) = ((-(10 ^ 15 - 1) : ℤ) : ℚ) := fl_int (by norm_num) _ (by norm_num)
  have u : fl 53 (x * 10 ^ d) ≤ ((10 ^ 15 - 1 : ℤ) : ℚ) := by
    rw [← f1]
    exact fl_mono (by norm_num) (by push_cast; linarith [e.2])
  have l : ((-(10 ^ 15 - 1) : ℤ) : ℚ) ≤ fl 53 (x * 10 ^ d) := by
    rw [← f2]
    exact fl_mono (by norm_num) (by push_cast; linarith [e.1])
  have u' := nearestEven_le_int _ _ u
  have l' := int_le_nearestEven _ _ l
  rw [abs_lt]
  constructor <;> omega

/-- What `print_score` prints. -/
theorem prints_eq {x t : ℚ} {d : ℤ} (hd : 0 ≤ d) (hx : |x| * 10 ^ d ≤ 10 ^ 15 - 1) (h : PrintsScore x d t) :
    t = nearestEven (fl 53 (x * 10 ^ d)) / 10 ^ d := by
  obtain ⟨hv, n, hn, hmin⟩ := h
  have hdig : DecimalDigits 15 ((nearestEven (fl 53 (x * 10 ^ d)) : ℚ) / 10 ^ d) :=
    ⟨nearestEven (fl 53 (x * 10 ^ d)), -d, by exact_mod_cast scaled_bound hx, by rw [zpow_neg, div_eq_mul_inv]⟩
  have e : npRound 53 x d = fl 53 ((nearestEven (fl 53 (x * 10 ^ d)) : ℚ) / 10 ^ d) := by
    unfold npRound
    rw [if_pos hd]
  have hle : n ≤ 15 := hmin 15 _ hdig e.symm
  obtain ⟨k, j, hk, rfl⟩ := hn
  exact decimal_unique ⟨k, j, lt_of_lt_of_le hk (pow_le_pow_right₀ (by norm_num) hle), rfl⟩ hdig (hv.trans e)

/-- **C192.** The number printed by `report` and `print_values`: at most `d` decimal places, half a unit of the last place from the score, and
greater scores are not printed as smaller ones. -/
theorem C192_values (x : ℚ) (d : ℤ) (hd : 0 ≤ d) : ∃ t, printsValue x d = .ok t ∧ (∃ k : ℤ, t = k / 10 ^ d) ∧ |t - x| ≤ 1 / 2 / 10 ^ d ∧
    ∀ y u, printsValue y d = .ok u → x ≤ y → t ≤ u := by
  have hp : (0 : ℚ) < 10 ^ d := by positivity
  have e : ∀ z, printsValue z d = .ok (nearestEven (z * 10 ^ d) / 10 ^ d) := fun z => by
    unfold printsValue
    rw [if_neg (by omega)]
  refine ⟨_, e x, ⟨_, rfl⟩, ?_, ?_⟩
  · have := nearestEven_near (x * 10 ^ d)
    rw [show (nearestEven (x * 10 ^ d) : ℚ) / 10 ^ d - x = (nearestEven (x * 10 ^ d) - x * 10 ^ d) / 10 ^ d by field_simp, abs_div, abs_of_pos hp]
    exact div_le_div_of_nonneg_right this hp.le
  · intro y u hu hxy
    rw [e y] at hu
    cases hu
    apply div_le_div_of_nonneg_right _ hp.le
    exact_mod_cast nearestEven_mono (mul_le_mul_of_nonneg_right hxy hp.le)

/-- **C192 (partial).** The number printed by `print_score`, for scores of at most 15 digits in total: at most `d` decimal places, and greater
scores are not printed as smaller ones. The distance from the score is half a unit of the last place and the rounding error of the product.
Missing: half a unit exactly, see `C192_refuted`. -/
theorem C192_print_partial (x t : ℚ) (d : ℤ) (hd : 0 ≤ d) (hx : |x| * 10 ^ d ≤ 10 ^ 15 - 1) (ht : PrintsScore x d t) :
    (∃ k : ℤ, t = k / 10 ^ d) ∧ |t - x| ≤ (1 / 2 + |x| * 10 ^ d / 2 ^ 53) / 10 ^ d ∧
      ∀ y u, |y| * 10 ^ d ≤ 10 ^ 15 - 1 → PrintsScore y d u → x ≤ y → t ≤ u := by
  have hp : (0 : ℚ) < 10 ^ d := by positivity
  rw [prints_eq hd hx ht]
  refine ⟨⟨_, rfl⟩, ?_, ?_⟩
  · have h1 := nearestEven_near (fl 53 (x * 10 ^ d))
    have h2 := fl_error 53 (x * 10 ^ d)
    have h3 := abs_sub_le (nearestEven (fl 53 (x * 10 ^ d)) : ℚ) (fl 53 (x * 10 ^ d)) (x * 10 ^ d)
    rw [abs_mul, abs_of_pos hp] at h2
    rw [show (nearestEven (fl 53 (x * 10 ^ d)) : ℚ) / 10 ^ d - x = (nearestEven (fl 53 (x * 10 ^ d)) - x * 10 ^ d) / 10 ^ d by field_simp, abs_div,
      abs_of_pos hp]
    exact div_le_div_of_nonneg_right (by linarith) hp.le
  · intro y u hy hu hxy
    rw [prints_eq hd hy hu]
    apply div_le_div_of_nonneg_right _ hp.le
    exact_mod_cast nearestEven_mono (fl_mono (p := 53) (by norm_num) (mul_le_mul_of_nonneg_right hxy hp.le))

/-- `print_score` always prints something. -/
theorem C192_prints (x : ℚ) (d : ℤ) : ∃ t, PrintsScore x d t := by
  by_cases hd : 0 ≤ d
  · refine repr_exists (n := (nearestEven (fl 53 (x * 10 ^ d))).natAbs) (s := (nearestEven (fl 53 (x * 10 ^ d)) : ℚ) / 10 ^ d)
      ⟨nearestEven (fl 53 (x * 10 ^ d)), -d, ?_, by rw [zpow_neg, div_eq_mul_inv]⟩ (by unfold npRound; rw [if_pos hd])
    rw [Int.abs_eq_natAbs]
    exact_mod_cast Nat.lt_pow_self (by norm_num)
  · refine repr_exists (n := (nearestEven (fl 53 (x / 10 ^ (-d)))).natAbs) (s := (nearestEven (fl 53 (x / 10 ^ (-d))) : ℚ) * 10 ^ (-d))
      ⟨nearestEven (fl 53 (x / 10 ^ (-d))), -d, ?_, rfl⟩ (by unfold npRound; rw [if_neg hd])
    rw [Int.abs_eq_natAbs]
    exact_mod_cast Nat.lt_pow_self (by norm_num)

/-- Numbers that are rounded to different integers have a tie between them. -/
theorem tie_between {y z : ℚ} (h : nearestEven y < nearestEven z) : ∃ n : ℤ, y ≤ n + 1 / 2 ∧ (n : ℚ) + 1 / 2 ≤ z := by
  have h1 := nearestEven_near y
  have h2 := nearestEven_near z
  rw [abs_le] at h1 h2
  have h3 : (nearestEven y : ℚ) + 1 ≤ nearestEven z := by exact_mod_cast h
  exact ⟨nearestEven z - 1, by push_cast; linarith, by push_cast; linarith⟩

/-- **C192 (partial).** `print_score` and `report` print the same number unless the score is next to the middle between two printed numbers. -/
theorem C192_agree_partial (x t u : ℚ) (d : ℤ) (hd : 0 ≤ d) (hx : |x| * 10 ^ d ≤ 10 ^ 15 - 1) (ht : PrintsScore x d t) (hu : printsValue x d = .ok u)
    (hfar : ∀ n : ℤ, |x| * 10 ^ d / 2 ^ 53 < |x * 10 ^ d - (n + 1 / 2)|) : t = u := by
  have hp : (0 : ℚ) < 10 ^ d := by positivity
  rw [prints_eq hd hx ht]
  unfold printsValue at hu
  rw [if_neg (by omega)] at hu
  cases hu
  have he := fl_error 53 (x * 10 ^ d)
  rw [abs_mul, abs_of_pos hp] at he
  rw [abs_le] at he
  rcases lt_trichotomy (nearestEven (fl 53 (x * 10 ^ d))) (nearestEven (x * 10 ^ d)) with h | h | h
  · obtain ⟨n, h1, h2⟩ := tie_between h
    have := hfar n
    rw [abs_of_nonneg (a := x * 10 ^ d - (n + 1 / 2)) (by linarith)] at this
    linarith [he.1, he.2]
  · rw [h]
  · obtain ⟨n, h1, h2⟩ := tie_between h
    have := hfar n
    rw [abs_of_nonpos (a := x * 10 ^ d - (n + 1 / 2)) (by linarith)] at this
    linarith [he.1, he.2]

/-- The `float64` number that is written 2.675, slightly smaller than 2.675. -/
def score2675 : ℚ := 3011782250804019 / 1125899906842624

theorem score2675_repr : ReprOf 53 score2675 (2675 / 1000) := by
  refine ⟨by decide +kernel, 4, ⟨2675, -3, by norm_num, by norm_num⟩, ?_⟩
  intro m s hs hv
  by_contra hm
  have hs' : DecimalDigits 15 s := by
    obtain ⟨k, e, hk, rfl⟩ := hs
    exact ⟨k, e, lt_of_lt_of_le hk (pow_le_pow_right₀ (by norm_num) (by omega)), rfl⟩
  have he : s = 2675 / 1000 := decimal_unique hs' ⟨2675, -3, by norm_num, by norm_num⟩ (hv.trans (by decide +kernel))
  obtain ⟨k, e, hk, rfl⟩ := hs
  have hk3 : |k| < 10 ^ 3 := lt_of_lt_of_le hk (pow_le_pow_right₀ (by norm_num) (by omega))
  rcases le_or_gt e (-3) with h | h
  · have h1 : (10 : ℚ) ^ e ≤ 10 ^ (-3 : ℤ) := zpow_le_zpow_right₀ (by norm_num) h
    have h2 : (k : ℚ) < 10 ^ 3 := by exact_mod_cast (abs_lt.1 hk3).2
    have h3 : (0 : ℚ) < 10 ^ e := by positivity
    have : (k : ℚ) * 10 ^ e < 10 ^ 3 * 10 ^ e := mul_lt_mul_of_pos_right h2 h3
    norm_num at this h1
    linarith
  · obtain ⟨j, hj⟩ := Int.eq_ofNat_of_zero_le (show 0 ≤ e + 2 by omega)
    have h1 : (k : ℚ) * 10 ^ e * 10 ^ 2 = ((k * 10 ^ j : ℤ) : ℚ) := by
      rw [show e = (j : ℤ) - 2 by omega, zpow_sub₀ (by norm_num)]
      push_cast
      rw [zpow_natCast]
      norm_num
      field_simp
    rw [he] at h1
    have h2 : ((2675 : ℤ) : ℚ) = ((10 * (k * 10 ^ j) : ℤ) : ℚ) := by
      push_cast at h1 ⊢
      rw [← h1]
      norm_num
    have h3 : (2675 : ℤ) = 10 * (k * 10 ^ j) := by exact_mod_cast h2
    omega

theorem score2675_prints {t : ℚ} (h : PrintsScore score2675 2 t) : t = 268 / 100 := by
  rw [prints_eq (by norm_num) (by unfold score2675; norm_num) h, show fl 53 (score2675 * 10 ^ (2 : ℤ)) = 535 / 2 by decide +kernel,
    show nearestEven (535 / 2 : ℚ) = 268 by decide +kernel]
  norm_num

/-- **C192, refuted.** The score 2.675 is printed as 2.68 by `print_score` and as 2.67 by `report`, and 2.68 is farther than half a unit away. -/
theorem C192_refuted : ¬ ∀ (x t u : ℚ) (d : ℤ), Representable 53 x → 0 ≤ d → PrintsScore x d t → printsValue x d = .ok u → t = u := by
  intro h
  obtain ⟨t, ht⟩ := C192_prints score2675 2
  have h1 := h score2675 t (267 / 100) 2 ⟨3011782250804019, -50, by norm_num, by unfold score2675; norm_num⟩ (by norm_num) ht (by
    unfold printsValue
    rw [if_neg (by norm_num), show nearestEven (score2675 * 10 ^ (2 : ℤ)) = 267 by decide +kernel]
    norm_num)
  rw [score2675_prints ht] at h1
  norm_num at h1

theorem C192_half_refuted : ¬ ∀ (x t : ℚ) (d : ℤ), Representable 53 x → 0 ≤ d → PrintsScore x d t → |t - x| ≤ 1 / 2 / 10 ^ d := by
  intro h
  obtain ⟨t, ht⟩ := C192_prints score2675 2
  have h1 := h score2675 t 2 ⟨3011782250804019, -50, by norm_num, by unfold score2675; norm_num⟩ (by norm_num) ht
  rw [score2675_prints ht, abs_le] at h1
  unfold score2675 at h1
  norm_num at h1

/-- `report` does not accept negative numbers of decimals, `print_score` does. -/
theorem C192_negative (x : ℚ) (d : ℤ) (h : d < 0) : printsValue x d = .error (.valueError "Format specifier missing precision") ∧ ∃ t, PrintsScore x d t :=
  ⟨by unfold printsValue; rw [if_pos h], C192_prints x d⟩

/-- The score 0.8125 with two decimals. -/
example (t : ℚ) (h : PrintsScore (13 / 16) 2 t) : t = 81 / 100 ∧ printsValue (13 / 16) 2 = .ok (81 / 100) := by
  have e : printsValue (13 / 16) 2 = .ok (81 / 100) := by
    unfold printsValue
    rw [if_neg (by norm_num), show nearestEven ((13 / 16 : ℚ) * 10 ^ (2 : ℤ)) = 81 by decide +kernel]
    norm_num
  refine ⟨C192_agree_partial (13 / 16) t _ 2 (by norm_num) (by norm_num) h e (fun n => ?_), e⟩
  norm_num
  rcases le_or_gt n 80 with hn | hn
  · have : (n : ℚ) ≤ 80 := by exact_mod_cast hn
    rw [abs_of_nonneg (by linarith)]
    linarith
  · have : (81 : ℚ) ≤ n := by exact_mod_cast hn
    rw [abs_of_nonpos (by linarith)]
    linarith

end Viqa
