import Verif.Model.NoiseHalf
import Verif.Props.NoiseAccuracy

/-!
Property C153: SNR and CNR of float16 images.
-/

namespace Viqa
open HalfSum

namespace HalfSum

/-- The largest number of roundings a value takes part in. -/
def depth : HalfSum → ℕ
  | leaf _ => 0
  | add l r => max l.depth r.depth + 1
  | store t => t.depth + 1

theorem leaves_map' (f : Half → Half) (t : HalfSum) : (t.map f).leaves = t.leaves.map f := by
  induction t with
  | leaf v => rfl
  | add l r hl hr => simp [map, leaves, hl, hr]
  | store t h => simp [map, leaves, h]

theorem depth_map' (f : Half → Half) (t : HalfSum) : (t.map f).depth = t.depth := by
  induction t with
  | leaf v => rfl
  | add l r hl hr => simp [map, depth, hl, hr]
  | store t h => simp [map, depth, h]

theorem size_pos' (t : HalfSum) : 0 < t.size := by
  induction t with
  | leaf v => simp [size, leaves]
  | add l r hl hr => simp only [size, leaves, List.length_append] at *; omega
  | store t h => exact h

end HalfSum

/-- `y` was computed instead of `x ≥ 0`, with at most `k` roundings. -/
def Close (k : ℕ) (x y : ℝ) : Prop := x * (1 - 1 / 2 ^ 10) ^ k ≤ y ∧ y ≤ x * (1 + 1 / 2 ^ 10) ^ k

theorem Close.mono {j k : ℕ} {x y : ℝ} (hx : 0 ≤ x) (h : Close j x y) (hjk : j ≤ k) : Close k x y := by
  constructor
  · refine le_trans (mul_le_mul_of_nonneg_left ?_ hx) h.1
    exact pow_le_pow_of_le_one (by norm_num) (by norm_num) hjk
  · refine le_trans h.2 (mul_le_mul_of_nonneg_left ?_ hx)
    exact pow_le_pow_right₀ (by norm_num) hjk

theorem Close.trans {j k : ℕ} {x y z : ℝ} (h : Close j x y) (h' : Close k y z) : Close (j + k) x z := by
  constructor
  · rw [pow_add, ← mul_assoc]
    exact le_trans (mul_le_mul_of_nonneg_right h.1 (by positivity)) h'.1
  · rw [pow_add, ← mul_assoc]
    exact le_trans h'.2 (mul_le_mul_of_nonneg_right h.2 (by positivity))

theorem Close.add {k : ℕ} {x y x' y' : ℝ} (h : Close k x y) (h' : Close k x' y') : Close k (x + x') (y + y') := by
  unfold Close at *
  rw [add_mul, add_mul]
  exact ⟨add_le_add h.1 h'.1, add_le_add h.2 h'.2⟩

theorem Close.nonneg {k : ℕ} {x y : ℝ} (hx : 0 ≤ x) (h : Close k x y) : 0 ≤ y :=
  le_trans (by positivity) h.1

/-- A rounding of at least 11 bits, or two of them of which one has at least 24. -/
theorem close_fl {b : ℕ} (hb : 11 ≤ b) {x : ℝ} (hx : 0 ≤ x) : Close 1 x (fl b x) := by
  have h1 := mul_le_fl b hx
  have h2 := fl_le_mul b hx
  have h3 : (1 : ℝ) / 2 ^ b ≤ 1 / 2 ^ 10 :=
    div_le_div_of_nonneg_left (by norm_num) (by positivity) (pow_le_pow_right₀ (by norm_num) (by omega))
  constructor
  · rw [pow_one]
    exact le_trans (mul_le_mul_of_nonneg_left (by linarith) hx) h1
  · rw [pow_one]
    exact le_trans h2 (mul_le_mul_of_nonneg_left (by linarith) hx)

theorem close_double {b : ℕ} (hb : 24 ≤ b) {x : ℝ} (hx : 0 ≤ x) : Close 1 x (fl 11 (fl b x)) := by
  have h0 := fl_nonneg (p := b) (by omega) hx
  have h1 := mul_le_fl b hx
  have h2 := fl_le_mul b hx
  have h3 := mul_le_fl 11 h0
  have h4 := fl_le_mul 11 h0
  have h5 : (1 : ℝ) / 2 ^ b ≤ 1 / 2 ^ 24 :=
    div_le_div_of_nonneg_left (by norm_num) (by positivity) (pow_le_pow_right₀ (by norm_num) hb)
  constructor
  · rw [pow_one]
    calc x * (1 - 1 / 2 ^ 10) ≤ x * (1 - 1 / 2 ^ 24) * (1 - 1 / 2 ^ 11) := by
          rw [mul_assoc]; exact mul_le_mul_of_nonneg_left (by norm_num) hx
      _ ≤ x * (1 - 1 / 2 ^ b) * (1 - 1 / 2 ^ 11) :=
          mul_le_mul_of_nonneg_right (mul_le_mul_of_nonneg_left (by linarith) hx) (by norm_num)
      _ ≤ fl b x * (1 - 1 / 2 ^ 11) := mul_le_mul_of_nonneg_right h1 (by norm_num)
      _ ≤ _ := h3
  · rw [pow_one]
    calc fl 11 (fl b x) ≤ fl b x * (1 + 1 / 2 ^ 11) := h4
      _ ≤ x * (1 + 1 / 2 ^ b) * (1 + 1 / 2 ^ 11) := mul_le_mul_of_nonneg_right h2 (by norm_num)
      _ ≤ x * (1 + 1 / 2 ^ 24) * (1 + 1 / 2 ^ 11) :=
          mul_le_mul_of_nonneg_right (mul_le_mul_of_nonneg_left (by linarith) hx) (by norm_num)
      _ ≤ x * (1 + 1 / 2 ^ 10) := by
          rw [mul_assoc]; exact mul_le_mul_of_nonneg_left (by norm_num) hx

/-- Multiples of the smallest float16 number. Every float16 number is one. -/
def Grid (x : ℝ) : Prop := ∃ n : ℤ, x = n / 2 ^ 24

theorem Grid.add {x y : ℝ} (h : Grid x) (h' : Grid y) : Grid (x + y) := by
  obtain ⟨n, rfl⟩ := h
  obtain ⟨m, rfl⟩ := h'
  exact ⟨n + m, by push_cast; ring⟩

theorem Grid.neg {x : ℝ} (h : Grid x) : Grid (-x) := by
  obtain ⟨n, rfl⟩ := h
  exact ⟨-n, by push_cast; ring⟩

theorem Grid.sub {x y : ℝ} (h : Grid x) (h' : Grid y) : Grid (x - y) := by
  rw [sub_eq_add_neg]; exact h.add h'.neg

theorem Grid.abs {x : ℝ} (h : Grid x) : Grid |x| := by
  rcases abs_choice x with e | e <;> rw [e]
  · exact h
  · exact h.neg

theorem grid_int (n : ℤ) : Grid n := ⟨n * 2 ^ 24, by rw [Int.cast_mul, Int.cast_pow, mul_div_assoc]; norm_num⟩

theorem grid_of_ulp {p : ℕ} {x : ℝ} (h : -24 ≤ ulpExp p x) : Grid (fl p x) := by
  unfold fl
  split
  · exact ⟨0, by simp⟩
  · obtain ⟨k, hk⟩ := Int.eq_ofNat_of_zero_le (show 0 ≤ ulpExp p x + 24 by omega)
    refine ⟨nearestEven (x / 2 ^ ulpExp p x) * 2 ^ k, ?_⟩
    have e : ulpExp p x = (k : ℤ) - 24 := by omega
    have : (2 : ℝ) ^ ulpExp p x = 2 ^ k / 2 ^ 24 := by
      rw [e, zpow_sub₀ (by norm_num), zpow_natCast]; norm_num
    rw [this]
    push_cast
    ring

theorem log_ge {x : ℝ} {k : ℤ} (h : (2 : ℝ) ^ k ≤ |x|) : k ≤ Int.log 2 |x| :=
  (Int.zpow_le_iff_le_log (by norm_num) (lt_of_lt_of_le (by positivity) h)).1 h

/-- Sums and differences of float16 numbers. -/
theorem Grid.fl {x : ℝ} (h : Grid x) : Grid (fl 24 x) := by
  by_cases h1 : 1 ≤ |x|
  · apply grid_of_ulp
    have := log_ge (x := x) (k := 0) (by simpa using h1)
    unfold ulpExp
    omega
  · rw [fl_of_representable (by norm_num)]
    · exact h
    · obtain ⟨n, rfl⟩ := h
      refine ⟨n, -24, ?_, ?_⟩
      · rw [not_le, abs_div, div_lt_one (by positivity), abs_of_pos (by positivity : (0 : ℝ) < 2 ^ 24)] at h1
        exact_mod_cast h1.le
      · rw [zpow_neg]; norm_num; ring

theorem grid_halfRound (x : ℝ) : Grid (halfRound x) := by
  unfold halfRound
  split
  · exact ⟨_, rfl⟩
  · rename_i h
    apply grid_of_ulp
    have := log_ge (x := x) (k := -14) (by rw [not_lt] at h; rw [zpow_neg]; norm_num at h ⊢; exact h)
    unfold ulpExp
    omega

theorem halfRound_neg (x : ℝ) : halfRound (-x) = -halfRound x := by
  unfold halfRound
  rw [abs_neg]
  split
  · rw [neg_mul, nearestEven_neg]; push_cast; ring
  · rw [fl_neg]

theorem halfRound_nonneg {x : ℝ} (h : 0 ≤ x) : 0 ≤ halfRound x := by
  unfold halfRound
  split
  · have := int_le_nearestEven (x * 2 ^ 24) 0 (by push_cast; positivity)
    have : (0 : ℝ) ≤ nearestEven (x * 2 ^ 24) := by exact_mod_cast this
    positivity
  · exact fl_nonneg (by norm_num) h

theorem abs_halfRound (x : ℝ) : |halfRound x| = halfRound |x| := by
  rcases le_total 0 x with h | h
  · rw [abs_of_nonneg h, abs_of_nonneg (halfRound_nonneg h)]
  · have := halfRound_nonneg (show 0 ≤ -x by linarith)
    rw [halfRound_neg] at this
    rw [abs_of_nonpos h, halfRound_neg, abs_of_nonpos (by linarith)]

/-- Numbers that are not too small. -/
theorem close_large {b : ℕ} (hb : 24 ≤ b) {x : ℝ} (hx : 1 / 2 ^ 13 ≤ x) : Close 1 x (halfRound (fl b x)) := by
  have h0 : 0 ≤ x := le_trans (by positivity) hx
  have h1 := mul_le_fl b h0
  have h5 : (1 : ℝ) / 2 ^ b ≤ 1 / 2 ^ 24 :=
    div_le_div_of_nonneg_left (by norm_num) (by positivity) (pow_le_pow_right₀ (by norm_num) hb)
  have h2 : 1 / 2 ^ 14 ≤ fl b x := by
    refine le_trans ?_ h1
    have : x * (1 - 1 / 2 ^ 24) ≤ x * (1 - 1 / 2 ^ b) := mul_le_mul_of_nonneg_left (by linarith) h0
    refine le_trans ?_ this
    norm_num at hx ⊢
    linarith
  unfold halfRound
  rw [abs_of_nonneg (fl_nonneg (by omega) h0), if_neg (not_lt.2 h2)]
  exact close_double hb h0

/-- Sums and differences of float16 numbers. -/
theorem close_grid {x : ℝ} (h0 : 0 ≤ x) (hx : Grid x) : Close 1 x (halfRound (fl 24 x)) := by
  unfold halfRound
  split
  · obtain ⟨n, hn⟩ := hx.fl
    have : fl 24 x * 2 ^ 24 = (n : ℝ) := by rw [hn]; field_simp
    rw [this, nearestEven_int, ← hn]
    exact close_fl (by norm_num) h0
  · exact close_double le_rfl h0

/-- All numbers. -/
theorem near_half {b : ℕ} (hb : 24 ≤ b) {x : ℝ} (h0 : 0 ≤ x) :
    x * (1 - 1 / 2 ^ 10) - 1 / 2 ^ 25 ≤ halfRound (fl b x) ∧ halfRound (fl b x) ≤ x * (1 + 1 / 2 ^ 10) + 1 / 2 ^ 25 := by
  unfold halfRound
  split
  · obtain ⟨c1, c2⟩ := close_fl (b := b) (by omega) h0
    have := nearestEven_near (fl b x * 2 ^ 24)
    rw [abs_le] at this
    rw [pow_one] at c1 c2
    norm_num at this c1 c2 ⊢
    constructor <;> linarith
  · obtain ⟨c1, c2⟩ := close_double hb h0
    rw [pow_one] at c1 c2
    constructor
    · refine le_trans ?_ c1
      norm_num
    · refine le_trans c2 ?_
      norm_num

/-- A finite result of the conversion. -/
theorem toHalf_num {b : ℕ} {x y : ℝ} (h : toHalf b x = .num y) : y = halfRound (fl b x) := by
  unfold toHalf at h
  split at h
  · cases h
  · split at h
    · cases h
    · cases h; rfl

theorem close_toHalf {b : ℕ} (hb : 24 ≤ b) {x y : ℝ} (hx : 1 / 2 ^ 13 ≤ x) (h : toHalf b x = .num y) : Close 1 x y := by
  rw [toHalf_num h]; exact close_large hb hx

/-- Results that are not negative: no negative infinity. -/
theorem toHalf_nonneg {b : ℕ} (hb : 1 ≤ b) {x : ℝ} (hx : 0 ≤ x) :
    toHalf b x = .inf false ∨ toHalf b x = .num (halfRound (fl b x)) := by
  have := fl_nonneg hb hx
  unfold toHalf
  split
  · exact Or.inl rfl
  · rw [if_neg (by linarith)]; exact Or.inr rfl

namespace HalfSum

/-- A sum of non-negative numbers is infinite or accurate. -/
theorem eval_close (t : HalfSum) (l : List ℝ) (hl : t.leaves = l.map .num) (h : ∀ v ∈ l, 0 ≤ v ∧ Grid v) :
    t.eval = .inf false ∨ ∃ y, t.eval = .num y ∧ Close t.depth l.sum y ∧ Grid y := by
  induction t generalizing l with
  | leaf v =>
    right
    cases l with
    | nil => cases hl
    | cons a l =>
      cases l with
      | nil =>
        simp only [leaves, List.map_cons, List.map_nil, List.cons.injEq, and_true] at hl
        exact ⟨a, by simp [eval, hl], by simp [Close, depth], (h a (by simp)).2⟩
      | cons b l => simp [leaves] at hl
  | add t1 t2 h1 h2 =>
    simp only [leaves] at hl
    obtain ⟨l1, l2, rfl, e1, e2⟩ := List.append_eq_map_iff.1 hl
    have n1 : ∀ v ∈ l1, 0 ≤ v ∧ Grid v := fun v hv => h v (List.mem_append_left _ hv)
    have n2 : ∀ v ∈ l2, 0 ≤ v ∧ Grid v := fun v hv => h v (List.mem_append_right _ hv)
    have s1 : 0 ≤ l1.sum := List.sum_nonneg fun v hv => (n1 v hv).1
    have s2 : 0 ≤ l2.sum := List.sum_nonneg fun v hv => (n2 v hv).1
    rcases h1 l1 e1.symm n1 with r1 | ⟨y1, r1, c1, g1⟩ <;> rcases h2 l2 e2.symm n2 with r2 | ⟨y2, r2, c2, g2⟩
    · left; simp [eval, r1, r2, plus]
    · left; simp [eval, r1, r2, plus]
    · left; simp [eval, r1, r2, plus]
    · right
      refine ⟨fl 24 (y1 + y2), by simp only [eval, r1, r2, plus], ?_, (g1.add g2).fl⟩
      rw [List.sum_append]
      have c := (c1.mono s1 (le_max_left _ t2.depth)).add (c2.mono s2 (le_max_right t1.depth _))
      exact c.trans (close_fl (by norm_num) (c.nonneg (add_nonneg s1 s2)))
  | store t ht =>
    simp only [leaves] at hl
    have s0 : 0 ≤ l.sum := List.sum_nonneg fun v hv => (h v hv).1
    rcases ht l hl h with r | ⟨y, r, c, g⟩
    · left; simp [eval, r, toStored]
    · rcases toHalf_nonneg (b := 24) (by norm_num) (c.nonneg s0) with e | e
      · left; simp [eval, r, toStored, e]
      · right
        exact ⟨_, by simp only [eval, r, toStored, e], c.trans (close_grid (c.nonneg s0) g), grid_halfRound _⟩

/-- A sum of infinite values. -/
theorem eval_inf (t : HalfSum) (h : ∀ v ∈ t.leaves, v = .inf false) : t.eval = .inf false := by
  induction t with
  | leaf v => exact h v (by simp [leaves])
  | add l r hl hr =>
    simp only [leaves, List.mem_append] at h
    simp [eval, plus, hl fun v hv => h v (Or.inl hv), hr fun v hv => h v (Or.inr hv)]
  | store t ht => simp [eval, toStored, ht h]

/-- If a sum is finite, all its values are. -/
theorem eval_num {y : ℝ} (t : HalfSum) (h : t.eval = .num y) : ∃ l : List ℝ, t.leaves = l.map .num := by
  induction t generalizing y with
  | leaf v => exact ⟨[y], by simpa [leaves, eval] using h⟩
  | add l r hl hr =>
    simp only [eval] at h
    cases e1 : l.eval with
    | num x1 =>
      cases e2 : r.eval with
      | num x2 =>
        obtain ⟨l1, r1⟩ := hl e1
        obtain ⟨l2, r2⟩ := hr e2
        exact ⟨l1 ++ l2, by simp [leaves, r1, r2]⟩
      | inf b => simp [e1, e2, plus] at h
      | nan => simp [e1, e2, plus] at h
    | inf b =>
      cases e2 : r.eval with
      | num x2 => simp [e1, e2, plus] at h
      | inf c => simp only [e1, e2, plus] at h; split at h <;> cases h
      | nan => simp [e1, e2, plus] at h
    | nan => cases e2 : r.eval <;> simp [e1, e2, plus] at h
  | store t ht =>
    simp only [eval] at h
    cases e : t.eval with
    | num x => exact ht e
    | inf b => simp [e, toStored] at h
    | nan => simp [e, toStored] at h

end HalfSum

/-- Large results are infinite. -/
theorem toHalf_large {b : ℕ} (hb : 24 ≤ b) {x : ℝ} (h : 65520 ≤ x) : toHalf b x = .inf false := by
  have h1 := fl_mono (p := b) (by omega) h
  have h2 := fl_of_representable (p := b) (by omega) (show Representable b (65520 : ℝ) from
    ⟨4095, 4, by
      calc |(4095 : ℤ)| ≤ 2 ^ 24 := by norm_num
        _ ≤ 2 ^ b := pow_le_pow_right₀ (by norm_num) hb, by norm_num⟩)
  rw [h2] at h1
  unfold toHalf
  rw [if_pos h1]

theorem abs_fl' (b : ℕ) (x : ℝ) : |fl b x| = fl b |x| ∨ b = 0 := by
  rcases Nat.eq_zero_or_pos b with h | h
  · exact Or.inr h
  · left
    rcases le_total 0 x with hx | hx
    · rw [abs_of_nonneg hx, abs_of_nonneg (fl_nonneg h hx)]
    · rw [abs_of_nonpos hx, fl_neg]
      have := fl_nonneg (p := b) h (show (0 : ℝ) ≤ -x by linarith)
      rw [fl_neg] at this
      rw [abs_of_nonpos (by linarith)]

theorem close_abs {x y : ℝ} (hx : Grid x) (h : toHalf 24 x = .num y) : Close 1 |x| |y| := by
  rw [toHalf_num h, abs_halfRound, (abs_fl' 24 x).resolve_right (by omega)]
  exact close_grid (abs_nonneg x) hx.abs

theorem Close.mul {j k : ℕ} {x y x' y' : ℝ} (hx : 0 ≤ x) (hx' : 0 ≤ x') (h : Close j x y) (h' : Close k x' y') :
    Close (j + k) (x * x') (y * y') := by
  have hy := h.nonneg hx
  have hy' := h'.nonneg hx'
  constructor
  · calc x * x' * (1 - 1 / 2 ^ 10) ^ (j + k) = (x * (1 - 1 / 2 ^ 10) ^ j) * (x' * (1 - 1 / 2 ^ 10) ^ k) := by ring
      _ ≤ y * y' := mul_le_mul h.1 h'.1 (by positivity) hy
  · calc y * y' ≤ (x * (1 + 1 / 2 ^ 10) ^ j) * (x' * (1 + 1 / 2 ^ 10) ^ k) := mul_le_mul h.2 h'.2 hy' (by positivity)
      _ = _ := by ring

theorem Close.div {k : ℕ} {x y n : ℝ} (hn : 0 < n) (h : Close k x y) : Close k (x / n) (y / n) := by
  constructor
  · rw [div_mul_eq_mul_div]; exact div_le_div_of_nonneg_right h.1 hn.le
  · rw [div_mul_eq_mul_div]; exact div_le_div_of_nonneg_right h.2 hn.le

/-- Squares of the differences. -/
theorem near_square {v c d y : ℝ} (hv : Grid v) (hc : Grid c) (h1 : differenceHalf (.num v) (.num c) = .num d)
    (h2 : squareHalf (.num d) = .num y) :
    (v - c) ^ 2 * (1 - 1 / 2 ^ 10) ^ 3 - 1 / 2 ^ 25 ≤ y ∧ y ≤ (v - c) ^ 2 * (1 + 1 / 2 ^ 10) ^ 3 + 1 / 2 ^ 25 := by
  have a := close_abs (hv.sub hc) h1
  have b := near_half (b := 24) le_rfl (mul_self_nonneg d)
  rw [← toHalf_num h2] at b
  have e : (v - c) ^ 2 = |v - c| * |v - c| := by rw [← sq, sq_abs]
  have e' : d * d = |d| * |d| := by rw [← sq, ← sq, sq_abs]
  have q := a.mul (abs_nonneg _) (abs_nonneg _) a
  rw [← e, ← e'] at q
  obtain ⟨q1, q2⟩ := q
  have q1' := mul_le_mul_of_nonneg_right q1 (show (0 : ℝ) ≤ 1 - 1 / 2 ^ 10 by norm_num)
  have q2' := mul_le_mul_of_nonneg_right q2 (show (0 : ℝ) ≤ 1 + 1 / 2 ^ 10 by norm_num)
  rw [mul_assoc ((v - c) ^ 2), ← pow_succ] at q1' q2'
  norm_num at b q1' q2' ⊢
  constructor <;> linarith [b.1, b.2]

theorem near_map_sum {w W a : ℝ} (l : List ℝ) (f g : ℝ → ℝ) (h : ∀ v ∈ l, f v * w - a ≤ g v ∧ g v ≤ f v * W + a) :
    (l.map f).sum * w - l.length * a ≤ (l.map g).sum ∧ (l.map g).sum ≤ (l.map f).sum * W + l.length * a := by
  induction l with
  | nil => simp
  | cons b l ih =>
    simp only [List.map_cons, List.sum_cons, List.length_cons]
    obtain ⟨h1, h2⟩ := h b (by simp)
    obtain ⟨i1, i2⟩ := ih fun v hv => h v (by simp [hv])
    push_cast
    constructor <;> linarith

/-- The ratio of mean and standard deviation, from the errors of its parts. -/
theorem snr_close {m V c m' V' s' r : ℝ} {a e : ℕ} (hm : 0 ≤ m) (hv : 0 < V) (hc : Close a m c) (hm' : Close a m m')
    (hV : Close e (V + (c - m) ^ 2) V') (hs' : Close 1 (Real.sqrt V') s') (hr : Close 1 (m' / s') r) :
    m / Real.sqrt V / Real.sqrt (1 + (((1 + 1 / 2 ^ 10) ^ a - 1) * (m / Real.sqrt V)) ^ 2) *
      ((1 - 1 / 2 ^ 10) ^ (a + 1) / (1 + 1 / 2 ^ 10) ^ (e + 1)) ≤ r ∧
    r ≤ m / Real.sqrt V * ((1 + 1 / 2 ^ 10) ^ (a + 1) / (1 - 1 / 2 ^ 10) ^ (e + 1)) := by
  have hd : |c - m| ≤ ((1 + 1 / 2 ^ 10) ^ a - 1) * m := by
    have h3 := mul_le_mul_of_nonneg_left (pow_around 10 a) hm
    obtain ⟨h1, h2⟩ := hc
    rw [abs_le]
    constructor <;> nlinarith
  unfold Close at *
  obtain ⟨u0, u1, u2⟩ := Summation.unit_bounds 10
  have u3 : (0 : ℝ) < 1 - 1 / 2 ^ 10 := by norm_num
  set w : ℝ := 1 - 1 / 2 ^ 10
  set W : ℝ := 1 + 1 / 2 ^ 10
  set g : ℝ := W ^ a - 1
  set s := Real.sqrt V with hs
  have hs0 : 0 < s := Real.sqrt_pos.2 hv
  have hs2 : s ^ 2 = V := Real.sq_sqrt hv.le
  have hg : 0 ≤ g := by
    have : (1 : ℝ) ≤ W ^ a := one_le_pow₀ u2
    linarith
  have hw0 : 0 < w ^ e := pow_pos u3 _
  have hw1 : w ^ e ≤ 1 := pow_le_one₀ u0 u1
  have hW1 : 1 ≤ W ^ e := one_le_pow₀ u2
  have r1 : s * w ^ e ≤ Real.sqrt V' := by
    apply Real.le_sqrt_of_sq_le
    refine le_trans ?_ hV.1
    rw [mul_pow, hs2]
    have : (w ^ e) ^ 2 ≤ w ^ e := by nlinarith
    calc V * (w ^ e) ^ 2 ≤ V * w ^ e := mul_le_mul_of_nonneg_left this hv.le
      _ ≤ _ := mul_le_mul_of_nonneg_right (by nlinarith [sq_nonneg (c - m)]) hw0.le
  have hq : (c - m) ^ 2 ≤ (g * m) ^ 2 := by
    rw [← sq_abs (c - m)]
    exact pow_le_pow_left₀ (abs_nonneg _) hd 2
  set R := Real.sqrt (1 + (g * (m / s)) ^ 2) with hR
  have hR0 : 0 < R := Real.sqrt_pos.2 (by positivity)
  have hR2 : (s * R) ^ 2 = V + (g * m) ^ 2 := by
    rw [mul_pow, hs2, hR, Real.sq_sqrt (by positivity), ← hs2]
    field_simp
  have r2 : Real.sqrt V' ≤ s * R * W ^ e := by
    rw [Real.sqrt_le_left (by positivity)]
    refine le_trans hV.2 ?_
    rw [mul_pow, hR2]
    have : W ^ e ≤ (W ^ e) ^ 2 := by nlinarith
    refine mul_le_mul (by linarith) this (by linarith) (by positivity)
  rw [pow_one, pow_one] at hs' hr
  have q1 : s * w ^ (e + 1) ≤ s' := by
    refine le_trans ?_ hs'.1
    rw [pow_succ, ← mul_assoc]
    exact mul_le_mul_of_nonneg_right r1 u0
  have q2 : s' ≤ s * R * W ^ (e + 1) := by
    refine le_trans hs'.2 ?_
    rw [pow_succ, ← mul_assoc]
    exact mul_le_mul_of_nonneg_right r2 (by linarith)
  have q0 : 0 < s' := lt_of_lt_of_le (mul_pos hs0 (pow_pos u3 _)) q1
  have mh : 0 ≤ m' := le_trans (mul_nonneg hm (pow_nonneg u0 _)) hm'.1
  have hW0 : 0 < W := by linarith
  constructor
  · refine le_trans ?_ hr.1
    have : m * w ^ a / (s * R * W ^ (e + 1)) ≤ m' / s' := div_le_div₀ mh hm'.1 q0 q2
    calc m / s / R * (w ^ (a + 1) / W ^ (e + 1)) = m * w ^ a / (s * R * W ^ (e + 1)) * w := by
          rw [pow_succ w a]
          field_simp
      _ ≤ _ := mul_le_mul_of_nonneg_right this u0
  · refine le_trans hr.2 ?_
    have : m' / s' ≤ m * W ^ a / (s * w ^ (e + 1)) :=
      div_le_div₀ (by positivity) hm'.2 (mul_pos hs0 (pow_pos u3 _)) q1
    calc m' / s' * W ≤ m * W ^ a / (s * w ^ (e + 1)) * W := mul_le_mul_of_nonneg_right this hW0.le
      _ = m / s * (W ^ (a + 1) / w ^ (e + 1)) := by
          rw [pow_succ W a]
          have : w ≠ 0 := u3.ne'
          field_simp

/-- `np.mean` of a float16 region. -/
theorem close_mean (o : Summation) (l : List ℝ) (ho : o.leaves.Perm l) (h : ∀ v ∈ l, 0 ≤ v) {m : ℝ} (hm : meanHalf o = .num m)
    (hlow : 1 ≤ Spec.mean l * (1 - 1 / 2 ^ 10) ^ (o.depth + 1)) :
    Close (o.depth + 2) (Spec.mean l) m := by
  have hn : (0 : ℝ) < o.size := by exact_mod_cast o.size_pos
  have hs : o.leaves.sum = l.sum := ho.sum_eq
  have h' : ∀ v ∈ o.leaves, 0 ≤ v := fun v hv => h v (ho.mem_iff.1 hv)
  have hlen : (l.length : ℝ) = o.size := by unfold Summation.size; rw [ho.length_eq]
  have hs0 : 0 ≤ l.sum := List.sum_nonneg h
  have c : Close o.depth l.sum (o.eval 24) := by
    obtain ⟨e1, e2⟩ := o.eval_relative 24 (by norm_num) h'
    rw [hs] at e1 e2
    constructor
    · refine le_trans (mul_le_mul_of_nonneg_left ?_ hs0) e1
      exact pow_le_pow_left₀ (by norm_num) (by norm_num) _
    · refine le_trans e2 (mul_le_mul_of_nonneg_left ?_ hs0)
      exact pow_le_pow_left₀ (by norm_num) (by norm_num) _
  have c1 := c.div hn
  rw [← hlen] at c1
  have p1 : 0 ≤ l.sum / (l.length : ℝ) := div_nonneg hs0 (Nat.cast_nonneg _)
  have c2 := c1.trans (close_fl (b := 53) (by norm_num) (c1.nonneg p1))
  unfold meanHalf at hm
  rw [← hlen] at hm
  exact c2.trans (close_toHalf le_rfl (le_trans (by norm_num) (hlow.trans c2.1)) hm)

/-- The mean inside of `np.std`. -/
theorem close_innerMean (t : HalfSum) (l : List ℝ) (ht : t.leaves = l.map .num) (h : ∀ v ∈ l, 0 ≤ v ∧ Grid v)
    (hlow : 1 ≤ Spec.mean l * (1 - 1 / 2 ^ 10) ^ (t.depth + 1)) :
    innerMean t = .inf false ∨ ∃ c, innerMean t = .num c ∧ Close (t.depth + 2) (Spec.mean l) c ∧ Grid c := by
  have hlen : t.size = l.length := by unfold HalfSum.size; rw [ht, List.length_map]
  have hn : (0 : ℝ) < l.length := by rw [← hlen]; exact_mod_cast t.size_pos'
  have s0 : 0 ≤ l.sum := List.sum_nonneg fun v hv => (h v hv).1
  have hb : 24 ≤ (if t.size < 2 ^ 16 then 24 else 53) := by split <;> norm_num
  unfold innerMean total
  rcases t.eval_close l ht h with r | ⟨y, r, c, g⟩
  · left; simp [r, toStored, divCount]
  · simp only [r, toStored]
    rcases toHalf_nonneg (b := 24) (by norm_num) (c.nonneg s0) with e | e
    · left; simp [e, divCount]
    · have c1 := c.trans (close_grid (c.nonneg s0) g)
      have c2 := c1.div hn
      have p2 := c2.nonneg (div_nonneg s0 hn.le)
      rw [e]
      simp only [divCount, hlen]
      rw [hlen] at hb
      rcases toHalf_nonneg (b := if l.length < 2 ^ 16 then 24 else 53) (by omega) p2 with e' | e'
      · exact Or.inl e'
      · exact Or.inr ⟨_, e', c2.trans (close_large hb (le_trans (by norm_num) (hlow.trans c2.1))), grid_halfRound _⟩

/-- `np.std` of a bright float16 region is infinite. -/
theorem std_overflow (t : HalfSum) (l : List ℝ) (ht : t.leaves = l.map .num) (h : ∀ v ∈ l, 0 ≤ v ∧ Grid v)
    (hl : 65520 ≤ l.sum * (1 - 1 / 2 ^ 10) ^ t.depth) : stdHalf t = .inf false := by
  have htot : t.total = .inf false := by
    unfold total
    rcases t.eval_close l ht h with r | ⟨y, r, c, -⟩
    · simp [r, toStored]
    · rw [r]; exact toHalf_large le_rfl (hl.trans c.1)
  have hc : innerMean t = .inf false := by simp [innerMean, htot, divCount]
  have hv : varHalf t = .inf false := by
    unfold varHalf total
    rw [eval_inf]
    · rfl
    · intro v hv
      rw [leaves_map', List.mem_map] at hv
      obtain ⟨w, hw, rfl⟩ := hv
      rw [ht, List.mem_map] at hw
      obtain ⟨x, -, rfl⟩ := hw
      rw [hc]; rfl
  simp [stdHalf, hv]

/-- Means of values up to 32000 are finite. -/
theorem mean_finite (o : Summation) (h : ∀ v ∈ o.leaves, 0 ≤ v ∧ v ≤ 32000) (hd : o.depth ≤ 2 ^ 20) :
    ∃ m, meanHalf o = .num m ∧ 0 ≤ m ∧ m ≤ 35000 := by
  have hn : (0 : ℝ) < o.size := by exact_mod_cast o.size_pos
  obtain ⟨-, e2⟩ := o.eval_relative 24 (by norm_num) fun v hv => (h v hv).1
  have e0 := Summation.eval_nonneg 24 (by norm_num) o fun v hv => (h v hv).1
  have hk : (o.depth : ℝ) ≤ 1048576 := by exact_mod_cast hd
  have h1 := one_add_mul_le_pow (a := -(1 / 2 ^ 24 : ℝ)) (by norm_num) o.depth
  rw [← sub_eq_add_neg] at h1
  have h2 : 15 / 16 ≤ (1 - 1 / 2 ^ 24 : ℝ) ^ o.depth := by
    refine le_trans ?_ h1
    norm_num
    linarith
  have h3 : (1 + 1 / 2 ^ 24 : ℝ) ^ o.depth * (1 - 1 / 2 ^ 24) ^ o.depth ≤ 1 := by
    rw [← mul_pow]
    exact pow_le_one₀ (by norm_num) (by norm_num)
  have h4 : (0 : ℝ) ≤ (1 + 1 / 2 ^ 24 : ℝ) ^ o.depth := by positivity
  have h5 : (1 + 1 / 2 ^ 24 : ℝ) ^ o.depth ≤ 16 / 15 := by
    have := mul_le_mul_of_nonneg_left h2 h4
    linarith
  have hsum : o.leaves.sum ≤ o.size * 32000 := by
    have := List.sum_le_card_nsmul o.leaves 32000 fun v hv => (h v hv).2
    rw [nsmul_eq_mul] at this
    exact this
  have hs0 : 0 ≤ o.leaves.sum := List.sum_nonneg fun v hv => (h v hv).1
  have h6 : o.eval 24 / o.size ≤ 34134 := by
    rw [div_le_iff₀ hn]
    calc o.eval 24 ≤ o.leaves.sum * (1 + 1 / 2 ^ 24) ^ o.depth := e2
      _ ≤ o.leaves.sum * (16 / 15) := mul_le_mul_of_nonneg_left h5 hs0
      _ ≤ o.size * 32000 * (16 / 15) := mul_le_mul_of_nonneg_right hsum (by norm_num)
      _ ≤ _ := by nlinarith
  have h7 : 0 ≤ o.eval 24 / o.size := div_nonneg e0 hn.le
  have f1 := fl_le_mul 53 h7
  have f2 := fl_nonneg (p := 53) (by norm_num) h7
  have f3 := fl_le_mul 24 f2
  have f4 := fl_nonneg (p := 24) (by norm_num) f2
  have f5 := (near_half (b := 24) le_rfl f2).2
  norm_num at f1 f3 f5
  refine ⟨halfRound (fl 24 (fl 53 (o.eval 24 / o.size))), ?_, halfRound_nonneg f4, by linarith⟩
  unfold meanHalf toHalf
  rw [if_neg (by linarith), if_neg (by linarith)]

/-- **C153.** The computed SNR of every bright float16 region without negative values is 0: `np.std` adds in float16,
and a sum above 65520 is infinite. (The factor is the error of the additions.) -/
theorem C153_overflow (o : Summation) (t : HalfSum) (l : List ℝ) (ho : o.leaves.Perm l) (ht : t.leaves = l.map .num)
    (h : ∀ v ∈ l, 0 ≤ v ∧ v ≤ 32000 ∧ Grid v) (hd : o.depth ≤ 2 ^ 20) (hl : 65520 ≤ l.sum * (1 - 1 / 2 ^ 10) ^ t.depth) :
    snrHalf o t = .num 0 := by
  obtain ⟨m, hm, -⟩ := mean_finite o (fun v hv => ⟨(h v (ho.mem_iff.1 hv)).1, (h v (ho.mem_iff.1 hv)).2.1⟩) hd
  unfold snrHalf
  rw [std_overflow t l ht (fun v hv => ⟨(h v hv).1, (h v hv).2.2⟩) hl, hm]
  rfl

/-- three pixels of 30000 -/
example : snrHalf (.node (.node (.leaf 30000) (.leaf 30000)) (.leaf 30000))
    (.add (.add (.leaf (.num 30000)) (.leaf (.num 30000))) (.leaf (.num 30000))) = .num 0 := by
  refine C153_overflow _ _ [30000, 30000, 30000] (List.Perm.refl _) rfl ?_ ?_ ?_
  · intro v hv
    simp only [List.mem_cons, List.not_mem_nil, or_false, or_self] at hv
    subst hv
    exact ⟨by norm_num, by norm_num, by exact_mod_cast grid_int 30000⟩
  · simp [Summation.depth]
  · simp only [HalfSum.depth, List.sum_cons, List.sum_nil]
    norm_num

/-- **C153.** The same for CNR if the background is bright. -/
theorem C153_cnr_overflow (signal background : Summation) (t : HalfSum) (l : List ℝ) (ho : background.leaves.Perm l)
    (ht : t.leaves = l.map .num) (hs : ∀ v ∈ signal.leaves, 0 ≤ v ∧ v ≤ 32000) (h : ∀ v ∈ l, 0 ≤ v ∧ v ≤ 32000 ∧ Grid v)
    (hd : signal.depth ≤ 2 ^ 20) (hd' : background.depth ≤ 2 ^ 20) (hl : 65520 ≤ l.sum * (1 - 1 / 2 ^ 10) ^ t.depth) :
    cnrHalf signal background t = .num 0 := by
  obtain ⟨m, hm, m0, m1⟩ := mean_finite signal hs hd
  obtain ⟨n, hn, n0, n1⟩ := mean_finite background (fun v hv => ⟨(h v (ho.mem_iff.1 hv)).1, (h v (ho.mem_iff.1 hv)).2.1⟩) hd'
  have hdiff : ∃ d, differenceHalf (.num m) (.num n) = .num d := by
    have ha : |m - n| ≤ 35000 := by rw [abs_le]; constructor <;> linarith
    have h1 := abs_fl_le 24 (m - n)
    have h2 : |fl 24 (m - n)| ≤ 40000 := by
      refine h1.trans ?_
      norm_num
      linarith
    obtain ⟨a, b⟩ := abs_le.1 h2
    refine ⟨halfRound (fl 24 (m - n)), ?_⟩
    unfold differenceHalf toHalf
    simp only
    rw [if_neg (by linarith), if_neg (by linarith)]
  obtain ⟨d, hdiff⟩ := hdiff
  unfold cnrHalf
  rw [std_overflow t l ht (fun v hv => ⟨(h v hv).1, (h v hv).2.2⟩) hl, hm, hn, hdiff]
  rfl

/-- a signal of 31000 before a background of 30000 -/
example : cnrHalf (.leaf 31000) (.node (.node (.leaf 30000) (.leaf 30000)) (.leaf 30000))
    (.add (.add (.leaf (.num 30000)) (.leaf (.num 30000))) (.leaf (.num 30000))) = .num 0 := by
  refine C153_cnr_overflow _ _ _ [30000, 30000, 30000] (List.Perm.refl _) rfl ?_ ?_ ?_ ?_ ?_
  · intro v hv
    simp only [Summation.leaves, List.mem_cons, List.not_mem_nil, or_false] at hv
    subst hv
    exact ⟨by norm_num, by norm_num⟩
  · intro v hv
    simp only [List.mem_cons, List.not_mem_nil, or_false, or_self] at hv
    subst hv
    exact ⟨by norm_num, by norm_num, by exact_mod_cast grid_int 30000⟩
  · simp [Summation.depth]
  · simp [Summation.depth]
  · simp only [HalfSum.depth, List.sum_cons, List.sum_nil]
    norm_num

/-- 64 pixels of 1000 and 64 of 1001: a mean of 1000.5 with a standard deviation of 0.5 -/
def brightPixels : List ℝ := List.replicate 64 1000 ++ List.replicate 64 1001

theorem brightPixels_snr : Spec.snr brightPixels = 2001 := by
  have hm : Spec.mean brightPixels = 2001 / 2 := by
    unfold Spec.mean brightPixels
    simp only [List.sum_append, List.sum_replicate, List.length_append, List.length_replicate, nsmul_eq_mul]
    norm_num
  have hv : Spec.variance brightPixels = (1 / 2) ^ 2 := by
    unfold Spec.variance
    rw [hm]
    unfold brightPixels
    simp only [List.map_append, List.map_replicate, List.sum_append, List.sum_replicate, List.length_append,
      List.length_replicate, nsmul_eq_mul]
    norm_num
  unfold Spec.snr
  rw [hm, hv, Real.sqrt_sq (by norm_num)]
  norm_num

/-- **C153 (refuted).** SNR of a float16 region is not always accurate: the exact value 2001 is returned as 0. -/
theorem C153_refuted (o : Summation) (t : HalfSum) (ho : o.leaves.Perm brightPixels) (ht : t.leaves = brightPixels.map .num)
    (hd : t.depth ≤ 200) : Spec.snr brightPixels = 2001 ∧ snrHalf o t = .num 0 := by
  refine ⟨brightPixels_snr, C153_overflow o t _ ho ht ?_ ?_ ?_⟩
  · intro v hv
    simp only [brightPixels, List.mem_append, List.mem_replicate] at hv
    rcases hv with ⟨-, rfl⟩ | ⟨-, rfl⟩
    · exact ⟨by norm_num, by norm_num, by exact_mod_cast grid_int 1000⟩
    · exact ⟨by norm_num, by norm_num, by exact_mod_cast grid_int 1001⟩
  · have h1 := o.depth_lt_size
    have h2 : o.size = 128 := by
      unfold Summation.size
      rw [ho.length_eq]
      simp [brightPixels]
    omega
  · have h1 := one_add_mul_le_pow (a := -(1 / 2 ^ 10 : ℝ)) (by norm_num) t.depth
    rw [← sub_eq_add_neg] at h1
    have h2 : (t.depth : ℝ) ≤ 200 := by exact_mod_cast hd
    have h3 : brightPixels.sum = 128064 := by
      unfold brightPixels
      simp only [List.sum_append, List.sum_replicate, nsmul_eq_mul]
      norm_num
    rw [h3]
    have h4 : (800 / 1024 : ℝ) ≤ (1 - 1 / 2 ^ 10) ^ t.depth := by
      refine le_trans ?_ h1
      norm_num
      linarith
    linarith

/-- There are such sums. -/
example : ∃ (o : Summation) (t : HalfSum), o.leaves.Perm brightPixels ∧ t.leaves = brightPixels.map .num ∧ t.depth ≤ 200 := by
  let d : HalfSum → HalfSum := fun t => .add t t
  let d' : Summation → Summation := fun t => .node t t
  refine ⟨.node (d' (d' (d' (d' (d' (d' (.leaf 1000))))))) (d' (d' (d' (d' (d' (d' (.leaf 1001))))))),
    .add (.store (d (d (d (d (d (d (.leaf (.num 1000))))))))) (.store (d (d (d (d (d (d (.leaf (.num 1001))))))))), ?_, ?_, ?_⟩
  · simp [d', Summation.leaves, brightPixels, List.replicate]
  · simp [d, HalfSum.leaves, brightPixels, List.replicate]
  · simp [d, HalfSum.depth]

/-- `np.std` of a float16 region, if it is finite and the exact mean and variance are not small. -/
theorem std_close (t : HalfSum) (l : List ℝ) (ht : t.leaves = l.map .num) (h : ∀ v ∈ l, 0 ≤ v ∧ Grid v)
    (hm1 : 1 ≤ Spec.mean l * (1 - 1 / 2 ^ 10) ^ (t.depth + 1))
    (hv1 : 1 / 2 ^ 10 ≤ Spec.variance l * (1 - 1 / 2 ^ 10) ^ (t.depth + 6)) (s : ℝ) (hs : stdHalf t = .num s) :
    0 < Spec.variance l ∧ 0 < s ∧ s ≤ 258 ∧ ∃ c V', Close (t.depth + 2) (Spec.mean l) c ∧
      Close (t.depth + 6) (Spec.variance l + (c - Spec.mean l) ^ 2) V' ∧ Close 1 (Real.sqrt V') s := by
  have hlen : t.size = l.length := by unfold HalfSum.size; rw [ht, List.length_map]
  have hn : (0 : ℝ) < l.length := by rw [← hlen]; exact_mod_cast t.size_pos'
  have hne : l ≠ [] := by rintro rfl; simp at hn
  have hw1 : (1 - 1 / 2 ^ 10 : ℝ) ^ (t.depth + 6) ≤ 1 := pow_le_one₀ (by norm_num) (by norm_num)
  have hw0 : (0 : ℝ) < (1 - 1 / 2 ^ 10 : ℝ) ^ (t.depth + 6) := by positivity
  have hv : 0 < Spec.variance l := by
    by_contra hc
    rw [not_lt] at hc
    have := mul_nonpos_of_nonpos_of_nonneg hc hw0.le
    norm_num at hv1 this
    linarith
  have hv2 : 1 / 2 ^ 10 ≤ Spec.variance l := hv1.trans (by nlinarith)
  -- all parts are finite
  obtain ⟨V', hV'⟩ : ∃ V', varHalf t = .num V' := by
    unfold stdHalf at hs
    cases e : varHalf t with
    | num x => exact ⟨x, rfl⟩
    | inf b => cases b <;> simp [e] at hs
    | nan => simp [e] at hs
  have hsq : toHalf 24 (Real.sqrt V') = .num s := by simpa [stdHalf, hV'] using hs
  set f : Half → Half := fun v => squareHalf (differenceHalf v (innerMean t)) with hf
  obtain ⟨T, hT⟩ : ∃ T, (t.map f).total = .num T := by
    unfold varHalf at hV'
    rw [← hf] at hV'
    cases e : (t.map f).total with
    | num x => exact ⟨x, rfl⟩
    | inf b => simp [e, divCount] at hV'
    | nan => simp [e, divCount] at hV'
  obtain ⟨E, hE⟩ : ∃ E, (t.map f).eval = .num E := by
    unfold total at hT
    cases e : (t.map f).eval with
    | num x => exact ⟨x, rfl⟩
    | inf b => simp [e, toStored] at hT
    | nan => simp [e, toStored] at hT
  obtain ⟨sq, hsqs⟩ := eval_num _ hE
  have hleaf : l.map (fun v => f (.num v)) = sq.map .num := by
    rw [← hsqs, leaves_map', ht, List.map_map]; rfl
  have hfin : ∀ v ∈ l, ∃ y, f (.num v) = .num y := by
    intro v hv'
    have : f (.num v) ∈ l.map (fun v => f (.num v)) := List.mem_map_of_mem hv'
    rw [hleaf, List.mem_map] at this
    obtain ⟨y, -, hy⟩ := this
    exact ⟨y, hy.symm⟩
  obtain ⟨c, hc, hcc, hcg⟩ : ∃ c, innerMean t = .num c ∧ Close (t.depth + 2) (Spec.mean l) c ∧ Grid c := by
    rcases close_innerMean t l ht h hm1 with e | e
    · exfalso
      obtain ⟨a, ha⟩ := List.exists_mem_of_ne_nil l hne
      obtain ⟨y, hy⟩ := hfin a ha
      simp [hf, e, differenceHalf, squareHalf] at hy
    · exact e
  -- the squares
  set g : ℝ → ℝ := fun v => match f (.num v) with | .num y => y | _ => 0 with hg
  have hex : ∀ v ∈ l, ((v - c) ^ 2 * (1 - 1 / 2 ^ 10) ^ 3 - 1 / 2 ^ 25 ≤ g v ∧
      g v ≤ (v - c) ^ 2 * (1 + 1 / 2 ^ 10) ^ 3 + 1 / 2 ^ 25) ∧ 0 ≤ g v ∧ Grid (g v) := by
    intro v hv'
    obtain ⟨y, hy⟩ := hfin v hv'
    have : g v = y := by simp only [hg, hy]
    rw [this]
    simp only [hf, hc] at hy
    cases e : differenceHalf (.num v) (.num c) with
    | num d =>
      rw [e] at hy
      refine ⟨near_square (h v hv').2 hcg e hy, ?_⟩
      rw [toHalf_num hy]
      exact ⟨halfRound_nonneg (fl_nonneg (by norm_num) (mul_self_nonneg d)), grid_halfRound _⟩
    | inf b => simp [e, squareHalf] at hy
    | nan => simp [e, squareHalf] at hy
  have hsqg : sq = l.map g := by
    have : (l.map (fun v => f (.num v))).map (fun x => match x with | .num y => y | _ => 0) = sq := by
      rw [hleaf, List.map_map]
      conv_rhs => rw [← List.map_id sq]
      rfl
    rw [← this, List.map_map]; rfl
  have hg0 : ∀ v ∈ sq, 0 ≤ v ∧ Grid v := by
    intro v hv'
    rw [hsqg, List.mem_map] at hv'
    obtain ⟨w, hw, rfl⟩ := hv'
    exact (hex w hw).2
  have hS0 : (l.length : ℝ) * (1 / 2 ^ 10) ≤ (l.map (fun v => (v - c) ^ 2)).sum := by
    rw [sum_sq_about l c hne]
    exact mul_le_mul_of_nonneg_left (by nlinarith [sq_nonneg (c - Spec.mean l)]) hn.le
  have hS1 : 0 ≤ (l.map (fun v => (v - c) ^ 2)).sum := le_trans (by positivity) hS0
  have hsum : Close 4 ((l.map (fun v => (v - c) ^ 2)).sum) sq.sum := by
    rw [hsqg]
    obtain ⟨a1, a2⟩ := near_map_sum l (fun v => (v - c) ^ 2) g fun v hv' => (hex v hv').1
    constructor
    · refine le_trans ?_ a1
      norm_num at hS0 ⊢
      linarith
    · refine le_trans a2 ?_
      norm_num at hS0 ⊢
      linarith
  have hEc : Close t.depth sq.sum E ∧ Grid E := by
    rcases eval_close (t.map f) sq hsqs hg0 with e | ⟨y, e, cy, gy⟩
    · rw [hE] at e; cases e
    · rw [hE] at e
      cases e
      rw [depth_map'] at cy
      exact ⟨cy, gy⟩
  have hE0 : 0 ≤ E := hEc.1.nonneg (List.sum_nonneg fun v hv' => (hg0 v hv').1)
  have hTc : Close 1 E T := by
    simp only [total, hE, toStored] at hT
    rw [toHalf_num hT]
    exact close_grid hE0 hEc.2
  have hT' : Close (4 + t.depth + 1) ((l.map (fun v => (v - c) ^ 2)).sum) T := (hsum.trans hEc.1).trans hTc
  have hTd := hT'.div hn
  rw [sum_sq_about l c hne, mul_div_assoc, mul_comm (l.length : ℝ), div_mul_cancel₀ _ hn.ne'] at hTd
  have hVc : Close 1 (T / l.length) V' := by
    unfold varHalf at hV'
    rw [← hf, hT, hlen] at hV'
    simp only [divCount] at hV'
    refine close_toHalf (by norm_num) (le_trans ?_ hTd.1) hV'
    calc (1 / 2 ^ 13 : ℝ) ≤ 1 / 2 ^ 10 := by norm_num
      _ ≤ Spec.variance l * (1 - 1 / 2 ^ 10) ^ (t.depth + 6) := hv1
      _ ≤ Spec.variance l * (1 - 1 / 2 ^ 10) ^ (4 + t.depth + 1) :=
          mul_le_mul_of_nonneg_left (pow_le_pow_of_le_one (by norm_num) (by norm_num) (by omega)) hv.le
      _ ≤ _ := mul_le_mul_of_nonneg_right (by nlinarith [sq_nonneg (c - Spec.mean l)]) (by positivity)
  have hV2 : Close (t.depth + 6) (Spec.variance l + (c - Spec.mean l) ^ 2) V' := by
    have := hTd.trans hVc
    rwa [show t.depth + 6 = 4 + t.depth + 1 + 1 by ring]
  have hVlow : 1 / 2 ^ 10 ≤ V' := by
    refine hv1.trans (le_trans ?_ hV2.1)
    exact mul_le_mul_of_nonneg_right (by nlinarith [sq_nonneg (c - Spec.mean l)]) hw0.le
  have hVhigh : V' ≤ 66049 := by
    unfold varHalf at hV'
    rw [← hf, hT] at hV'
    simp only [divCount] at hV'
    rw [toHalf_num hV']
    have h1 : ¬ 65520 ≤ fl 53 (T / (t.size : ℝ)) := by
      intro h1
      unfold toHalf at hV'
      rw [if_pos h1] at hV'
      cases hV'
    unfold halfRound
    split
    · rename_i h2
      have := nearestEven_near (fl 53 (T / (t.size : ℝ)) * 2 ^ 24)
      rw [abs_le] at this
      rw [abs_lt] at h2
      norm_num at this h2 ⊢
      linarith
    · have := fl_mono (p := 11) (by norm_num) (not_le.1 h1).le
      have h3 := fl_le_mul 11 (show (0 : ℝ) ≤ 65520 by norm_num)
      norm_num at h3
      linarith
  have hroot : 1 / 2 ^ 5 ≤ Real.sqrt V' := by
    apply Real.le_sqrt_of_sq_le
    refine le_trans ?_ hVlow
    norm_num
  have hroot2 : Real.sqrt V' ≤ 257 := by
    rw [Real.sqrt_le_left (by norm_num)]
    refine hVhigh.trans ?_
    norm_num
  have hsc : Close 1 (Real.sqrt V') s := close_toHalf le_rfl (le_trans (by norm_num) hroot) hsq
  have hs0 : 0 < s := lt_of_lt_of_le (mul_pos (lt_of_lt_of_le (by norm_num) hroot) (by norm_num)) hsc.1
  have hs1 : s ≤ 258 := by
    refine hsc.2.trans ?_
    norm_num
    linarith
  exact ⟨hv, hs0, hs1, c, V', hcc, hV2, hsc⟩

/-- **C153 (partial).** If the computed standard deviation and SNR are finite, and the exact mean and variance not small, the
SNR is accurate: the error grows with the number of roundings a value takes part in, as in `C141_snr`. Missing: results that
are infinite, or 0 because the standard deviation is infinite, see `C153_overflow`, and regions of little variance. -/
theorem C153_snr_partial (o : Summation) (t : HalfSum) (l : List ℝ) (ho : o.leaves.Perm l) (ht : t.leaves = l.map .num)
    (h : ∀ v ∈ l, 0 ≤ v ∧ Grid v) (hm1 : 1 ≤ Spec.mean l * (1 - 1 / 2 ^ 10) ^ (max o.depth t.depth + 2))
    (hv1 : 1 / 2 ^ 10 ≤ Spec.variance l * (1 - 1 / 2 ^ 10) ^ (t.depth + 6))
    (s r : ℝ) (hs : stdHalf t = .num s) (hr : snrHalf o t = .num r) :
    Spec.snr l / Real.sqrt (1 + (((1 + 1 / 2 ^ 10) ^ (max o.depth t.depth + 2) - 1) * Spec.snr l) ^ 2) *
      ((1 - 1 / 2 ^ 10) ^ (max o.depth t.depth + 3) / (1 + 1 / 2 ^ 10) ^ (t.depth + 7)) ≤ r ∧
    r ≤ Spec.snr l * ((1 + 1 / 2 ^ 10) ^ (max o.depth t.depth + 3) / (1 - 1 / 2 ^ 10) ^ (t.depth + 7)) := by
  have hnn : ∀ v ∈ l, 0 ≤ v := fun v hv => (h v hv).1
  have hmean : 0 ≤ Spec.mean l := div_nonneg (List.sum_nonneg hnn) (Nat.cast_nonneg _)
  have low : ∀ k, k ≤ max o.depth t.depth + 2 → 1 ≤ Spec.mean l * (1 - 1 / 2 ^ 10) ^ k := fun k hk =>
    hm1.trans (mul_le_mul_of_nonneg_left (pow_le_pow_of_le_one (by norm_num) (by norm_num) hk) hmean)
  obtain ⟨hv, hs0, hs1, c, V', hcc, hV2, hsc⟩ := std_close t l ht h (low _ (by omega)) hv1 s hs
  obtain ⟨m', hm', hmc⟩ : ∃ m', meanHalf o = .num m' ∧ Close (o.depth + 2) (Spec.mean l) m' := by
    unfold snrHalf at hr
    rw [hs] at hr
    cases e : meanHalf o with
    | num m => exact ⟨m, rfl, close_mean o l ho hnn e (low _ (by omega))⟩
    | inf b => simp [e, ratioHalf, hs0.ne'] at hr
    | nan => simp [e, ratioHalf, hs0.ne'] at hr
  have hm1' : 1 ≤ m' := (low _ (by omega)).trans hmc.1
  have hrc : Close 1 (m' / s) r := by
    unfold snrHalf at hr
    rw [hs, hm'] at hr
    simp only [ratioHalf, if_neg hs0.ne'] at hr
    refine close_toHalf le_rfl ?_ hr
    rw [le_div_iff₀ hs0]
    norm_num
    linarith
  exact snr_close (a := max o.depth t.depth + 2) (e := t.depth + 6) hmean hv
    (hcc.mono hmean (by omega)) (hmc.mono hmean (by omega)) hV2 hsc hrc

theorem toHalf_int {b : ℕ} (hb : 11 ≤ b) (n : ℤ) (h : |n| ≤ 2 ^ 11) : toHalf b (n : ℝ) = .num n := by
  have e : fl b (n : ℝ) = n :=
    fl_int (by omega) n (h.trans (pow_le_pow_right₀ (by norm_num) hb))
  have h1 : |(n : ℝ)| ≤ 2 ^ 11 := by exact_mod_cast h
  rw [abs_le] at h1
  unfold toHalf
  rw [e, if_neg (by norm_num at h1; linarith), if_neg (by norm_num at h1; linarith)]
  congr 1
  unfold halfRound
  split
  · rw [show (n : ℝ) * 2 ^ 24 = ((n * 2 ^ 24 : ℤ) : ℝ) by rw [Int.cast_mul, Int.cast_pow]; norm_num, nearestEven_int, Int.cast_mul, Int.cast_pow,
      mul_div_assoc]
    norm_num
  · exact fl_int (by norm_num) n h

/-- two pixels of 2 and 6: exact SNR 2, computed 2 -/
example : Spec.snr [2, 6] = 2 ∧ ∃ s, stdHalf (.add (.leaf (.num 2)) (.leaf (.num 6))) = .num s ∧
    snrHalf (.node (.leaf 2) (.leaf 6)) (.add (.leaf (.num 2)) (.leaf (.num 6))) = .num 2 := by
  have f8 : fl 24 (8 : ℝ) = 8 := by exact_mod_cast fl_int (K := ℝ) (p := 24) (by norm_num) 8 (by norm_num)
  have f4 : fl 53 (4 : ℝ) = 4 := by exact_mod_cast fl_int (K := ℝ) (p := 53) (by norm_num) 4 (by norm_num)
  have t8 : toHalf 24 (8 : ℝ) = .num 8 := by exact_mod_cast toHalf_int (b := 24) (by norm_num) 8 (by norm_num)
  have t4 : toHalf 24 (4 : ℝ) = .num 4 := by exact_mod_cast toHalf_int (b := 24) (by norm_num) 4 (by norm_num)
  have t4' : toHalf 53 (4 : ℝ) = .num 4 := by exact_mod_cast toHalf_int (b := 53) (by norm_num) 4 (by norm_num)
  have t2 : toHalf 24 (2 : ℝ) = .num 2 := by exact_mod_cast toHalf_int (b := 24) (by norm_num) 2 (by norm_num)
  have t2' : toHalf 24 (-2 : ℝ) = .num (-2) := by exact_mod_cast toHalf_int (b := 24) (by norm_num) (-2) (by norm_num)
  have hc : innerMean (.add (.leaf (.num 2)) (.leaf (.num 6))) = .num 4 := by
    simp only [innerMean, HalfSum.size, HalfSum.leaves, HalfSum.total, HalfSum.eval, HalfSum.plus, HalfSum.toStored]
    norm_num [f8, t8, divCount, t4]
  have hvar : varHalf (.add (.leaf (.num 2)) (.leaf (.num 6))) = .num 4 := by
    unfold varHalf
    rw [hc]
    simp only [HalfSum.map, HalfSum.size, HalfSum.leaves, HalfSum.total, HalfSum.eval, differenceHalf]
    norm_num [t2, t2', squareHalf, t4, HalfSum.plus, f8, HalfSum.toStored, t8, divCount, t4']
  have hstd : stdHalf (.add (.leaf (.num 2)) (.leaf (.num 6))) = .num 2 := by
    unfold stdHalf
    rw [hvar]
    simp only
    rw [show (4 : ℝ) = 2 ^ 2 by norm_num, Real.sqrt_sq (by norm_num), t2]
  have hmean : meanHalf (.node (.leaf 2) (.leaf 6)) = .num 4 := by
    simp only [meanHalf, Summation.eval, Summation.size, Summation.leaves]
    norm_num [f8, f4, t4]
  refine ⟨?_, 2, hstd, ?_⟩
  · have hv : Spec.variance [2, 6] = 2 ^ 2 := by
      unfold Spec.variance Spec.mean
      norm_num
    unfold Spec.snr
    rw [hv, Real.sqrt_sq (by norm_num)]
    unfold Spec.mean
    norm_num
  · unfold snrHalf
    rw [hstd, hmean]
    norm_num [ratioHalf, t2]

end Viqa
