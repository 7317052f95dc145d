import Verif.Lemmas.Rounding
import Verif.Model.GsmRounded
import Verif.Props.NoiseAccuracy

/-!
GSM in floating point arithmetic: C147 and C148.
-/

namespace Viqa

section
variable {P : Type} {b : ℕ}

theorem fl_unit (hb : 1 ≤ b) : fl b (1 : ℝ) = 1 := by
  have := fl_int (K := ℝ) hb 1 (by simpa using one_le_pow₀ (by norm_num : (1 : ℤ) ≤ 2))
  simpa using this

theorem fl_double_unit (hb : 1 ≤ b) : fl b (2 : ℝ) = 2 := by
  have := fl_two_mul b (1 : ℝ)
  rw [mul_one, fl_unit hb, mul_one] at this
  exact this

theorem fl_of_log (x : ℝ) (hx : x ≠ 0) (k : ℤ) (h1 : 2 ^ k ≤ |x|) (h2 : |x| < 2 ^ (k + 1)) :
    fl b x = (nearestEven (x / 2 ^ (k + 1 - b)) : ℝ) * 2 ^ (k + 1 - b) := by
  have hl : Int.log 2 |x| = k := by
    have hp : 0 < |x| := abs_pos.2 hx
    apply le_antisymm
    · have := (Int.lt_zpow_iff_log_lt (b := 2) (by norm_num) hp (x := k + 1)).1 (by exact_mod_cast h2)
      omega
    · exact (Int.zpow_le_iff_le_log (b := 2) (by norm_num) hp).1 (by exact_mod_cast h1)
  unfold fl ulpExp
  rw [if_neg hx, hl]

/-- Numbers from 0 to 1 are rounded by at most `2 ^ -(b + 1)`. -/
theorem fl_error_unit (hb : 1 ≤ b) {x : ℝ} (h0 : 0 ≤ x) (h1 : x ≤ 1) : |fl b x - x| ≤ 2 ^ (-(b : ℤ) - 1) := by
  have e : (2 : ℝ) ^ (-(b : ℤ) - 1) = 1 / 2 / 2 ^ b := by
    rw [zpow_sub₀ (by norm_num), zpow_neg, zpow_natCast]; field_simp
  rcases h1.eq_or_lt with rfl | h1
  · rw [fl_unit hb, sub_self, abs_zero]; positivity
  rcases le_or_gt x (1 / 2) with h | h
  · refine (fl_error b x).trans ?_
    rw [e, abs_of_nonneg h0]
    exact div_le_div_of_nonneg_right h (by positivity)
  · have hx : x ≠ 0 := by linarith
    rw [fl_of_log x hx (-1) (by rw [abs_of_nonneg h0]; norm_num; linarith) (by rw [abs_of_nonneg h0]; norm_num; linarith)]
    have hp : (0 : ℝ) < 2 ^ (-1 + 1 - (b : ℤ)) := by positivity
    have := nearestEven_near (x / 2 ^ (-1 + 1 - (b : ℤ)))
    have e2 : (nearestEven (x / 2 ^ (-1 + 1 - (b : ℤ))) : ℝ) * 2 ^ (-1 + 1 - (b : ℤ)) - x =
        ((nearestEven (x / 2 ^ (-1 + 1 - (b : ℤ))) : ℝ) - x / 2 ^ (-1 + 1 - (b : ℤ))) * 2 ^ (-1 + 1 - (b : ℤ)) := by
      field_simp
    rw [e2, abs_mul, abs_of_pos hp]
    refine (mul_le_mul_of_nonneg_right this hp.le).trans (le_of_eq ?_)
    rw [e, show (-1 + 1 - (b : ℤ)) = -(b : ℤ) by ring, zpow_neg, zpow_natCast]
    ring

/-- Numbers so close to 1 are rounded to 1 (below, the tie goes to the even number). -/
theorem fl_near_one (hb : 2 ≤ b) {s : ℝ} (h : |s - 1| ≤ 2 ^ (-(b : ℤ) - 1)) : fl b s = 1 := by
  have hb1 : 1 ≤ b := by omega
  have hsmall : (2 : ℝ) ^ (-(b : ℤ) - 1) ≤ 1 / 4 := by
    have : (2 : ℝ) ^ (-(b : ℤ) - 1) ≤ 2 ^ (-2 : ℤ) := zpow_le_zpow_right₀ (by norm_num) (by omega)
    refine this.trans (by norm_num)
  have hpos : (0 : ℝ) < 2 ^ (-(b : ℤ) - 1) := by positivity
  rw [abs_le] at h
  apply le_antisymm
  · have hu : fl b (1 + 2 ^ (-(b : ℤ) - 1)) = (1 : ℝ) := by
      have hx : (1 + 2 ^ (-(b : ℤ) - 1) : ℝ) ≠ 0 := by positivity
      rw [fl_of_log _ hx 0 (by rw [abs_of_pos (by positivity), zpow_zero]; linarith)
        (by rw [abs_of_pos (by positivity)]; norm_num; linarith)]
      have e : (1 + 2 ^ (-(b : ℤ) - 1) : ℝ) / 2 ^ (0 + 1 - (b : ℤ)) = ((2 ^ (b - 1) : ℤ) : ℝ) + 1 / 4 := by
        rw [div_eq_mul_inv, ← zpow_neg, add_mul, one_mul, ← zpow_add₀ (by norm_num)]
        congr 1
        · push_cast
          rw [← zpow_natCast]
          congr 1
          omega
        · rw [show -(b : ℤ) - 1 + -(0 + 1 - (b : ℤ)) = -2 by ring]; norm_num
      rw [e]
      have hn : nearestEven (((2 ^ (b - 1) : ℤ) : ℝ) + 1 / 4) = 2 ^ (b - 1) := by
        unfold nearestEven
        have hf : ⌊((2 ^ (b - 1) : ℤ) : ℝ) + 1 / 4⌋ = 2 ^ (b - 1) := by
          rw [Int.floor_eq_iff]; constructor <;> linarith
        rw [hf, if_pos (by linarith)]
      rw [hn, Int.cast_pow, Int.cast_ofNat, ← zpow_natCast, ← zpow_add₀ (by norm_num), show ((b - 1 : ℕ) : ℤ) + (0 + 1 - (b : ℤ)) = 0 by omega, zpow_zero]
    rw [← hu]
    exact fl_mono hb1 (by linarith)
  · have hl : fl b (1 - 2 ^ (-(b : ℤ) - 1)) = (1 : ℝ) := by
      have hx : (1 - 2 ^ (-(b : ℤ) - 1) : ℝ) ≠ 0 := by linarith
      have ha : |(1 - 2 ^ (-(b : ℤ) - 1) : ℝ)| = 1 - 2 ^ (-(b : ℤ) - 1) := abs_of_pos (by linarith)
      rw [fl_of_log _ hx (-1) (by rw [ha]; norm_num; linarith) (by rw [ha]; norm_num; linarith)]
      have e : (1 - 2 ^ (-(b : ℤ) - 1) : ℝ) / 2 ^ (-1 + 1 - (b : ℤ)) = ((2 ^ b - 1 : ℤ) : ℝ) + 1 / 2 := by
        rw [div_eq_mul_inv, ← zpow_neg, sub_mul, one_mul, ← zpow_add₀ (by norm_num)]
        rw [show -(-1 + 1 - (b : ℤ)) = (b : ℤ) by ring, show -(b : ℤ) - 1 + (b : ℤ) = -1 by ring, zpow_natCast]
        push_cast
        norm_num
        ring
      rw [e]
      have hn : nearestEven (((2 ^ b - 1 : ℤ) : ℝ) + 1 / 2) = 2 ^ b := by
        unfold nearestEven
        have hf : ⌊((2 ^ b - 1 : ℤ) : ℝ) + 1 / 2⌋ = 2 ^ b - 1 := by
          rw [Int.floor_eq_iff]; constructor <;> linarith
        rw [hf, if_neg (by linarith), if_neg (by linarith), if_neg]
        · ring
        · obtain ⟨m, rfl⟩ : ∃ m, b = m + 1 := ⟨b - 1, by omega⟩
          rw [pow_succ]
          omega
      rw [hn, Int.cast_pow, Int.cast_ofNat, ← zpow_natCast, ← zpow_add₀ (by norm_num), show (b : ℤ) + (-1 + 1 - (b : ℤ)) = 0 by ring, zpow_zero]
    rw [← hl]
    exact fl_mono hb1 (by linarith)

/-- A weight and its complement as computed add up to 1. -/
theorem complement_add (hb : 2 ≤ b) {w : ℝ} (h0 : 0 ≤ w) (h1 : w ≤ 1) : fl b (fl b (1 - w) + w) = 1 := by
  apply fl_near_one hb
  have := fl_error_unit (by omega : 1 ≤ b) (show 0 ≤ 1 - w by linarith) (show 1 - w ≤ 1 by linarith)
  rwa [show fl b (1 - w) + w - 1 = fl b (1 - w) - (1 - w) by ring]

/-- The numerator is at most the denominator, also as computed. -/
theorem gsmNum_le_gsmDen (hb : 2 ≤ b) (k r : ℝ) : gsmNum b k r ≤ gsmDen b k r := by
  have hb1 : 1 ≤ b := by omega
  unfold gsmNum gsmDen
  have ht : fl b (fl b (1 - r)) = fl b (1 - r) := fl_fl hb1 _
  set t := fl b (1 - r)
  have h2 : fl b (2 * t) = 2 * t := by rw [fl_two_mul, ht]
  refine fl_mono hb1 (add_le_add_left ?_ k)
  have hsq : 0 ≤ fl b (t * t) := fl_nonneg hb1 (mul_self_nonneg t)
  rcases lt_or_ge t (1 / 2) with h | h
  · rw [h2]
    refine le_trans ?_ (fl_mono hb1 (show (1 : ℝ) ≤ 1 + fl b (t * t) by linarith))
    rw [fl_unit hb1]
    linarith
  refine fl_mono hb1 ?_
  rcases le_or_gt 2 t with h' | h'
  · have : fl b (2 * t) ≤ fl b (t * t) := fl_mono hb1 (by nlinarith)
    rw [h2] at this
    linarith
  -- between 1/2 and 2
  suffices hr : Representable b (2 * t - 1) by
    have : fl b (2 * t - 1) ≤ fl b (t * t) := fl_mono hb1 (by nlinarith [sq_nonneg (t - 1)])
    rw [fl_of_representable hb1 hr] at this
    linarith
  have key : ∀ (e : ℤ) (j : ℕ), e = -1 ∧ j = b - 1 ∨ e = 0 ∧ j = b - 2 → (2 : ℝ) ^ e ≤ t → t < 2 ^ (e + 1) →
      Representable b (2 * t - 1) := by
    intro e j hej h1 h2
    have hpos : 0 < t := by linarith
    have hlog := fl_of_log (b := b) t hpos.ne' e (by rwa [abs_of_pos hpos]) (by rwa [abs_of_pos hpos])
    rw [ht] at hlog
    set n := nearestEven (t / 2 ^ (e + 1 - (b : ℤ)))
    have hw : (0 : ℝ) < 2 ^ (e + 1 - (b : ℤ)) := by positivity
    have hn0 : 0 ≤ n := by
      have : (0 : ℝ) ≤ n := by
        by_contra hneg
        push Not at hneg
        have := mul_neg_of_neg_of_pos hneg hw
        linarith
      exact_mod_cast this
    have hn1 : n ≤ 2 ^ b := by
      have : (n : ℝ) * 2 ^ (e + 1 - (b : ℤ)) < 2 ^ b * 2 ^ (e + 1 - (b : ℤ)) := by
        rw [← hlog, ← zpow_natCast (2 : ℝ) b, ← zpow_add₀ (by norm_num), show (b : ℤ) + (e + 1 - b) = e + 1 by ring]
        exact h2
      have := lt_of_mul_lt_mul_right this hw.le
      have : n < 2 ^ b := by exact_mod_cast this
      exact this.le
    have hj : j ≤ b := by omega
    have hj2 : (2 : ℤ) ^ j ≤ 2 ^ b := pow_le_pow_right₀ (by norm_num) hj
    have hj0 : (0 : ℤ) < 2 ^ j := by positivity
    refine ⟨n - 2 ^ j, e + 2 - b, ?_, ?_⟩
    · rw [abs_le]; constructor <;> linarith
    · rw [hlog]
      push_cast
      rw [sub_mul, ← zpow_natCast (2 : ℝ) j, ← zpow_add₀ (by norm_num), show (j : ℤ) + (e + 2 - b) = 0 by omega, zpow_zero,
        show e + 2 - (b : ℤ) = (e + 1 - b) + 1 by ring, zpow_add₀ (by norm_num) (e + 1 - (b : ℤ)) 1, zpow_one]
      ring
  rcases lt_or_ge t 1 with h1 | h1
  · exact key (-1) (b - 1) (.inl ⟨rfl, rfl⟩) (by norm_num; linarith) (by norm_num; linarith)
  · exact key 0 (b - 2) (.inr ⟨rfl, rfl⟩) (by norm_num; linarith) (by norm_num; linarith)

theorem gsmDen_pos (hb : 2 ≤ b) {k : ℝ} (hk : 0 ≤ k) (r : ℝ) : 0 < gsmDen b k r := by
  have hb1 : 1 ≤ b := by omega
  refine fl_pos hb1 (add_pos_of_pos_of_nonneg (fl_pos hb1 ?_) hk)
  have := fl_nonneg hb1 (mul_self_nonneg (fl b (1 - r)))
  linarith

theorem gsmLum_bounds (hb : 2 ≤ b) {dr x y : ℝ} (hdr : 0 < dr) (hrep : Representable b dr) (h : |x - y| ≤ dr) :
    0 ≤ gsmLum b dr x y ∧ gsmLum b dr x y ≤ 1 := by
  have hb1 : 1 ≤ b := by omega
  have hd : fl b dr = dr := fl_of_representable hb1 hrep
  rw [abs_le] at h
  have u1 : fl b (x - y) ≤ dr := hd ▸ fl_mono hb1 h.2
  have u2 : -dr ≤ fl b (x - y) := by
    have := fl_mono hb1 h.1
    rwa [fl_neg, hd] at this
  have v1 : fl b (fl b (x - y) / dr) ≤ 1 := by
    rw [← fl_unit hb1]; exact fl_mono hb1 ((div_le_one hdr).2 u1)
  have v2 : -1 ≤ fl b (fl b (x - y) / dr) := by
    rw [← fl_unit hb1, ← fl_neg]
    refine fl_mono hb1 ?_
    rw [le_div_iff₀ hdr]; linarith
  set v := fl b (fl b (x - y) / dr) with hv
  have w0 : 0 ≤ fl b (v * v) := fl_nonneg hb1 (mul_self_nonneg v)
  have w1 : fl b (v * v) ≤ 1 := by
    rw [← fl_unit hb1]; exact fl_mono hb1 (by nlinarith)
  constructor
  · exact fl_nonneg hb1 (by linarith)
  · have := fl_mono hb1 (show 1 - fl b (v * v) ≤ 1 by linarith)
    rwa [fl_unit hb1] at this

/-- A pixel has at most quality 1. -/
theorem gsmCombine_le (hb : 2 ≤ b) {p con lum : ℝ} (hp : 0 ≤ p) (hp1 : p ≤ 1) (hc : con ≤ 1) (l0 : 0 ≤ lum) (l1 : lum ≤ 1) :
    gsmCombine b p con lum ≤ 1 := by
  have hb1 : 1 ≤ b := by omega
  unfold gsmCombine
  rcases le_or_gt 0 con with h | h
  · have w0 : 0 ≤ fl b (p * con) := fl_nonneg hb1 (mul_nonneg hp h)
    have w1 : fl b (p * con) ≤ 1 := by
      rw [← fl_unit hb1]; exact fl_mono hb1 (by nlinarith)
    refine le_trans ?_ (complement_add hb w0 w1).le
    refine fl_mono hb1 (add_le_add ?_ ?_)
    · have h0 : 0 ≤ fl b (1 - fl b (p * con)) := fl_nonneg hb1 (by linarith)
      exact (fl_mono hb1 (show fl b (1 - fl b (p * con)) * con ≤ fl b (1 - fl b (p * con)) by nlinarith)).trans_eq
        (fl_fl hb1 _)
    · exact (fl_mono hb1 (show fl b (p * con) * lum ≤ fl b (p * con) by nlinarith)).trans_eq (fl_fl hb1 _)
  · have hz : fl b (0 : ℝ) = 0 := fl_zero b
    have w0 : fl b (p * con) ≤ 0 := by rw [← hz]; exact fl_mono hb1 (by nlinarith)
    have h1 : fl b (fl b (1 - fl b (p * con)) * con) ≤ 0 := by
      rw [← hz]
      refine fl_mono hb1 ?_
      exact mul_nonpos_of_nonneg_of_nonpos (fl_nonneg hb1 (by linarith)) h.le
    have h2 : fl b (fl b (p * con) * lum) ≤ 0 := by
      rw [← hz]
      refine fl_mono hb1 ?_
      exact mul_nonpos_of_nonpos_of_nonneg w0 l0
    refine le_trans (fl_mono hb1 (add_nonpos h1 h2)) ?_
    rw [hz]; norm_num

open Classical in
/-- Number of pixels with a quality. -/
noncomputable def rated (o : SumOrder P) (q : P → NF) : ℕ := (o.positions.filter (fun i => q i ≠ .nan)).length

theorem rated_node (l r : SumOrder P) (q : P → NF) : rated (.node l r) q = rated l q + rated r q := by
  simp [rated, SumOrder.positions]

theorem sum_le_rated (hb : 1 ≤ b) (o : SumOrder P) (q : P → NF) (hn : rated o q ≤ 2 ^ b)
    (h : ∀ i ∈ o.positions, q i = .nan ∨ ∃ v, q i = .fin v ∧ v ≤ 1) :
    (o.additions (fun i => (q i).orZero)).eval b ≤ rated o q := by
  induction o with
  | leaf i =>
    simp only [SumOrder.additions, Summation.eval, rated, SumOrder.positions]
    rcases h i (by simp [SumOrder.positions]) with h | ⟨v, h, hv⟩
    · simp [h, NF.orZero]
    · simpa [h, NF.orZero] using hv
  | node l r hl hr =>
    rw [rated_node] at hn ⊢
    simp only [SumOrder.positions, List.mem_append] at h
    simp only [SumOrder.additions, Summation.eval]
    have h1 := hl (by omega) fun i hi => h i (.inl hi)
    have h2 := hr (by omega) fun i hi => h i (.inr hi)
    refine (fl_mono hb (add_le_add h1 h2)).trans (le_of_eq ?_)
    have := fl_int (K := ℝ) hb ((rated l q + rated r q : ℕ) : ℤ) (by rw [abs_of_nonneg (by positivity)]; exact_mod_cast hn)
    push_cast at this ⊢
    exact this

theorem sum_eq_rated (hb : 1 ≤ b) (o : SumOrder P) (q : P → NF) (hn : rated o q ≤ 2 ^ b)
    (h : ∀ i ∈ o.positions, q i = .nan ∨ q i = .fin 1) :
    (o.additions (fun i => (q i).orZero)).eval b = rated o q := by
  induction o with
  | leaf i =>
    simp only [SumOrder.additions, Summation.eval, rated, SumOrder.positions]
    rcases h i (by simp [SumOrder.positions]) with h | h
    · simp [h, NF.orZero]
    · simp [h, NF.orZero]
  | node l r hl hr =>
    rw [rated_node] at hn ⊢
    simp only [SumOrder.positions, List.mem_append] at h
    simp only [SumOrder.additions, Summation.eval]
    rw [hl (by omega) fun i hi => h i (.inl hi), hr (by omega) fun i hi => h i (.inr hi)]
    have := fl_int (K := ℝ) hb ((rated l q + rated r q : ℕ) : ℤ) (by rw [abs_of_nonneg (by positivity)]; exact_mod_cast hn)
    push_cast at this ⊢
    exact this

theorem rated_le (o : SumOrder P) (q : P → NF) : rated o q ≤ o.positions.length := List.length_filter_le _ _

theorem SumOrder.top_mem (g : P → ℝ) (o : SumOrder P) : ∃ i ∈ o.positions, g i = o.top g := by
  induction o with
  | leaf q => exact ⟨q, by simp [positions], rfl⟩
  | node l r hl hr =>
    simp only [positions, List.mem_append, top]
    rcases le_total (l.top g) (r.top g) with h | h
    · obtain ⟨i, hi, e⟩ := hr; exact ⟨i, .inr hi, by rw [e, max_eq_right h]⟩
    · obtain ⟨i, hi, e⟩ := hl; exact ⟨i, .inl hi, by rw [e, max_eq_left h]⟩

/-! ### C147 -/

/-- **C147.** GSM of an image with itself, exactly: 1, or nan if the largest gradient `m` is 0 or `2 + c / m` is rounded to
0. For every order of summation, every gradient filter and every number of bits. -/
theorem C147_identical (hb : 2 ≤ b) (G : (P → ℝ) → P → ℝ) (key : (P → ℝ) → ℝ) (o : SumOrder P) (hn : o.positions.length ≤ 2 ^ b)
    (dr c p : ℝ) (hp : 0 ≤ p) (hp1 : p ≤ 1) (hrep : Representable b p) (x : P → ℝ) (m : ℝ)
    (hm : ∃ i ∈ o.positions, G x i = m) (hmax : ∀ i ∈ o.positions, G x i ≤ m) :
    gsmRounded b G key o dr c p x x = if m = 0 ∨ viaDouble b (c / m) = -2 then .nan else .fin 1 := by
  classical
  have hb1 : 1 ≤ b := by omega
  have htop : o.top (G x) = m := by
    obtain ⟨i, hi, e⟩ := o.top_mem (G x)
    obtain ⟨j, hj, e'⟩ := hm
    apply le_antisymm
    · rw [← e]; exact hmax i hi
    · have : ∀ o : SumOrder P, ∀ j ∈ o.positions, G x j ≤ o.top (G x) := by
        intro o
        induction o with
        | leaf q => intro j hj; simp only [SumOrder.positions, List.mem_singleton] at hj; rw [hj]; rfl
        | node l r hl hr =>
          intro j hj
          simp only [SumOrder.positions, List.mem_append] at hj
          simp only [SumOrder.top]
          rcases hj with hj | hj
          · exact (hl j hj).trans (le_max_left _ _)
          · exact (hr j hj).trans (le_max_right _ _)
      rw [← e']; exact this o j hj
  unfold gsmRounded
  simp only [max_self, htop, lt_irrefl, if_false]
  by_cases h0 : m = 0
  · simp [h0]
  rw [if_neg h0]
  set k := viaDouble b (c / m) with hk
  have hchange : ∀ d : ℝ, gsmChange b d d d = 0 := by intro d; simp [gsmChange, fl_zero]
  have e1 : fl b (1 - (0 : ℝ)) = 1 := by rw [sub_zero, fl_unit hb1]
  have hnum : gsmNum b k 0 = fl b (2 + k) := by simp only [gsmNum]; rw [e1, mul_one, fl_double_unit hb1]
  have hden : gsmDen b k 0 = fl b (2 + k) := by
    unfold gsmDen; rw [e1, mul_one, fl_unit hb1, one_add_one_eq_two, fl_double_unit hb1]
  have hz : fl b (2 + k) = 0 ↔ k = -2 := by
    rw [fl_eq_zero_iff hb1]; constructor <;> intro h <;> linarith
  have hlum : ∀ v : ℝ, gsmLum b dr v v = 1 := by intro v; simp [gsmLum, fl_zero, fl_unit hb1]
  have hpp : fl b (p * 1) = p := by rw [mul_one, fl_of_representable hb1 hrep]
  have hone : gsmCombine b p 1 1 = 1 := by
    unfold gsmCombine
    rw [hpp, mul_one, mul_one, fl_fl hb1, fl_of_representable hb1 hrep, complement_add hb hp hp1]
  by_cases h2 : k = -2
  · rw [if_pos (.inr h2)]
    have hq : ∀ i, gsmQuality b p k dr (G x i) (G x i) (G x i) (x i) (x i) = .nan := by
      intro i
      unfold gsmQuality
      by_cases hd : G x i = 0
      · rw [if_pos hd]
      · rw [if_neg hd, hchange, hnum, hden, if_pos (hz.2 h2), if_pos (hz.2 h2)]
    unfold nanMeanRounded
    simp [hq]
  · rw [if_neg (by tauto)]
    have hq : ∀ i, gsmQuality b p k dr (G x i) (G x i) (G x i) (x i) (x i) = if G x i = 0 then .nan else .fin 1 := by
      intro i
      unfold gsmQuality
      by_cases hd : G x i = 0
      · rw [if_pos hd, if_pos hd]
      · rw [if_neg hd, if_neg hd, hchange, hnum, hden, if_neg (fun h => h2 (hz.1 h)),
          div_self (fun h => h2 (hz.1 h)), fl_unit hb1, hlum, hone]
    set q : P → NF := fun i => gsmQuality b p k dr (G x i) (G x i) (G x i) (x i) (x i) with hqdef
    have hall : ∀ i ∈ o.positions, q i = .nan ∨ q i = .fin 1 := by
      intro i _
      simp only [hqdef, hq]
      split <;> simp
    have hpos : 0 < rated o q := by
      obtain ⟨i, hi, e⟩ := hm
      apply List.length_pos_of_mem (a := i)
      rw [List.mem_filter]
      refine ⟨hi, ?_⟩
      simp only [hqdef, hq]
      rw [if_neg (by rw [e]; exact h0)]
      simp
    unfold nanMeanRounded
    rw [if_neg, if_neg]
    · have := sum_eq_rated hb1 o q ((rated_le o q).trans hn) hall
      rw [this]
      change NF.fin (viaDouble b ((rated o q : ℝ) / (rated o q : ℝ))) = _
      rw [div_self (by exact_mod_cast hpos.ne'), viaDouble_unit hb1]
    · exact hpos.ne'
    · rintro ⟨i, hi, h⟩
      rcases hall i hi with h' | h' <;> rw [h'] at h <;> simp at h

example : gsmRounded 24 (fun x i => if i then x true - x false else x false - x true) (fun g => |g true|)
    (.node (.leaf true) (.leaf false)) 255 200 (1 / 2) (fun i => if i then 3 else 1) (fun i => if i then 3 else 1) = .fin 1 := by
  rw [C147_identical (by norm_num) _ _ _ (by simp [SumOrder.positions]) 255 200 (1 / 2) (by norm_num) (by norm_num)
    ⟨1, -1, by norm_num, by norm_num⟩ _ 2 ⟨true, by simp [SumOrder.positions], by norm_num⟩
    (by intro i _; cases i <;> norm_num), if_neg]
  rintro (h | h)
  · norm_num at h
  · have : (0 : ℝ) ≤ viaDouble 24 (200 / 2) := viaDouble_nonneg (by norm_num) (by norm_num)
    linarith

/-- The pixels `n, …, 1, 0` added one after the other. -/
def oneByOne : ℕ → SumOrder ℕ
  | 0 => .leaf 0
  | n + 1 => .node (oneByOne n) (.leaf (n + 1))

/-- **C147**, the limit is sharp: with one pixel more than `2 ^ b` there is an order of summation for which the score of an
image with itself is not 1. -/
theorem C147_sharp (hb : 2 ≤ b) (hd : b + 2 ≤ 53 ∨ 53 ≤ b) : (oneByOne (2 ^ b)).positions.length = 2 ^ b + 1 ∧
    gsmRounded b (fun x => x) (fun _ => 0) (oneByOne (2 ^ b)) 255 200 0 (fun _ => 1) (fun _ => 1) = .fin (1 - 1 / 2 ^ b) := by
  classical
  have hb1 : 1 ≤ b := by omega
  have hlen : ∀ n, (oneByOne n).positions.length = n + 1 := by
    intro n
    induction n with
    | zero => rfl
    | succ n ih => simp [oneByOne, SumOrder.positions, ih]
  have htop : ∀ n, (oneByOne n).top (fun _ => (1 : ℝ)) = 1 := by
    intro n
    induction n with
    | zero => rfl
    | succ n ih => simp [oneByOne, SumOrder.top, ih]
  have heval : ∀ n, n < 2 ^ b → ((oneByOne n).additions (fun _ => (1 : ℝ))).eval b = n + 1 := by
    intro n
    induction n with
    | zero => intro _; simp [oneByOne, SumOrder.additions, Summation.eval]
    | succ n ih =>
      intro hn
      simp only [oneByOne, SumOrder.additions, Summation.eval]
      rw [ih (by omega)]
      have := fl_int (K := ℝ) hb1 ((n + 1 + 1 : ℕ) : ℤ) (by rw [abs_of_nonneg (by positivity)]; exact_mod_cast hn)
      push_cast at this ⊢
      exact this
  have h2 : (2 : ℝ) ^ b = ((2 ^ b : ℤ) : ℝ) := by push_cast; rfl
  have hB : (4 : ℝ) ≤ 2 ^ b := by
    calc (4 : ℝ) = 2 ^ 2 := by norm_num
      _ ≤ 2 ^ b := pow_le_pow_right₀ (by norm_num) hb
  have hlast : ((oneByOne (2 ^ b)).additions (fun _ => (1 : ℝ))).eval b = 2 ^ b := by
    obtain ⟨n, hn⟩ : ∃ n, 2 ^ b = n + 1 := ⟨2 ^ b - 1, by have := Nat.one_le_two_pow (n := b); omega⟩
    rw [hn]
    simp only [oneByOne, SumOrder.additions, Summation.eval]
    rw [heval n (by omega)]
    have hn' : (n : ℝ) + 1 = 2 ^ b := by exact_mod_cast hn.symm
    rw [hn']
    rw [fl_of_log _ (by positivity) b (by rw [abs_of_pos (by positivity), zpow_natCast]; linarith)
      (by rw [abs_of_pos (by positivity), zpow_add₀ (by norm_num), zpow_natCast, zpow_one]; linarith)]
    obtain ⟨m, rfl⟩ : ∃ m, b = m + 2 := ⟨b - 2, by omega⟩
    have e : ((2 : ℝ) ^ (m + 2) + 1) / 2 ^ (((m + 2 : ℕ) : ℤ) + 1 - ((m + 2 : ℕ) : ℤ)) = ((2 ^ (m + 1) : ℤ) : ℝ) + 1 / 2 := by
      rw [show (((m + 2 : ℕ) : ℤ) + 1 - ((m + 2 : ℕ) : ℤ)) = 1 by ring]
      push_cast
      rw [pow_succ]
      norm_num
      ring
    rw [e]
    have hne : nearestEven (((2 ^ (m + 1) : ℤ) : ℝ) + 1 / 2) = 2 ^ (m + 1) := by
      unfold nearestEven
      have hf : ⌊((2 ^ (m + 1) : ℤ) : ℝ) + 1 / 2⌋ = 2 ^ (m + 1) := by
        rw [Int.floor_eq_iff]; constructor <;> linarith
      rw [hf, if_neg (by linarith), if_neg (by linarith), if_pos]
      rw [pow_succ]; omega
    rw [hne, show (((m + 2 : ℕ) : ℤ) + 1 - ((m + 2 : ℕ) : ℤ)) = 1 by ring]
    push_cast
    rw [zpow_one]
    ring
  refine ⟨hlen _, ?_⟩
  unfold gsmRounded
  simp only [htop, max_self, lt_irrefl, if_false, one_ne_zero]
  set k := viaDouble b ((200 : ℝ) / 1)
  have hk : 0 < k := fl_pos hb1 (fl_pos (by omega) (by norm_num))
  have hq : gsmQuality b 0 k 255 1 1 1 1 1 = .fin 1 := by
    have hc : gsmChange b (1 : ℝ) 1 1 = 0 := by simp [gsmChange, fl_zero]
    have e1 : fl b (1 - (0 : ℝ)) = 1 := by rw [sub_zero, fl_unit hb1]
    have hnum : gsmNum b k 0 = fl b (2 + k) := by simp only [gsmNum]; rw [e1, mul_one, fl_double_unit hb1]
    have hden : gsmDen b k 0 = fl b (2 + k) := by
      unfold gsmDen; rw [e1, mul_one, fl_unit hb1, one_add_one_eq_two, fl_double_unit hb1]
    have hne : fl b (2 + k) ≠ 0 := (fl_pos hb1 (by linarith)).ne'
    unfold gsmQuality
    rw [if_neg one_ne_zero, hc, hnum, hden, if_neg hne, div_self hne, fl_unit hb1]
    simp [gsmCombine, gsmLum, fl_zero, fl_unit hb1]
  rw [hq]
  unfold nanMeanRounded
  have hcount : ((oneByOne (2 ^ b)).positions.filter (fun _ => decide (NF.fin 1 ≠ NF.nan))).length = 2 ^ b + 1 := by
    rw [List.filter_eq_self.2 (by simp), hlen]
  rw [if_neg (by simp), hcount, if_neg (Nat.succ_ne_zero _)]
  simp only [NF.orZero]
  rw [hlast]
  congr 1
  push_cast
  have hx0 : (2 : ℝ) ^ b / (2 ^ b + 1) = 1 - 1 / (2 ^ b + 1) := by field_simp; ring
  have hs : 1 / ((2 : ℝ) ^ b + 1) ≤ 1 / 5 := one_div_le_one_div_of_le (by norm_num) (by linarith)
  have hs0 : 0 < 1 / ((2 : ℝ) ^ b + 1) := by positivity
  have hxp : 0 < (2 : ℝ) ^ b / (2 ^ b + 1) := by positivity
  have once : ∀ y : ℝ, ((2 : ℝ) ^ b - 1) / 2 ^ b ≤ y → y < ((2 : ℝ) ^ b - 1 / 2) / 2 ^ b → fl b y = 1 - 1 / 2 ^ b := by
    intro y h1 h2
    have hBp : (0 : ℝ) < 2 ^ b := by positivity
    have h1' : (2 : ℝ) ^ b - 1 ≤ y * 2 ^ b := (div_le_iff₀ hBp).1 h1
    have h2' : y * 2 ^ b < (2 : ℝ) ^ b - 1 / 2 := (lt_div_iff₀ hBp).1 h2
    have hy0 : 1 / 2 ≤ y := by nlinarith
    have hy1 : y < 1 := by nlinarith
    have hyp : 0 < y := by linarith
    rw [fl_of_log _ hyp.ne' (-1) (by rw [abs_of_pos hyp, show (2 : ℝ) ^ (-1 : ℤ) = 1 / 2 by norm_num]; exact hy0)
      (by rw [abs_of_pos hyp, show (2 : ℝ) ^ (-1 + 1 : ℤ) = 1 by norm_num]; exact hy1)]
    have e : y / 2 ^ (-1 + 1 - (b : ℤ)) = y * 2 ^ b := by
      rw [show (-1 + 1 - (b : ℤ)) = -(b : ℤ) by ring, zpow_neg, zpow_natCast, div_inv_eq_mul]
    rw [e]
    have hne : nearestEven (y * 2 ^ b) = 2 ^ b - 1 := by
      unfold nearestEven
      have hf : ⌊y * 2 ^ b⌋ = 2 ^ b - 1 := by
        rw [Int.floor_eq_iff]; push_cast; constructor <;> linarith
      rw [hf, if_pos (by push_cast; linarith)]
    rw [hne, show (-1 + 1 - (b : ℤ)) = -(b : ℤ) by ring, zpow_neg, zpow_natCast]
    push_cast
    field_simp
  have hBp : (0 : ℝ) < 2 ^ b := by positivity
  have lo : ((2 : ℝ) ^ b - 1) / 2 ^ b ≤ 2 ^ b / (2 ^ b + 1) := by
    rw [div_le_div_iff₀ hBp (by positivity)]; nlinarith
  have hi : (2 : ℝ) ^ b / (2 ^ b + 1) ≤ ((2 : ℝ) ^ b - 3 / 4) / 2 ^ b := by
    rw [div_le_div_iff₀ (by positivity) hBp]; nlinarith
  have hlt : ((2 : ℝ) ^ b - 3 / 4) / 2 ^ b < ((2 : ℝ) ^ b - 1 / 2) / 2 ^ b := by
    rw [div_lt_div_iff_of_pos_right hBp]; norm_num
  unfold viaDouble
  rcases hd with hd | hd
  · rw [max_eq_right (by omega : b ≤ 53)]
    have r1 : Representable 53 (((2 : ℝ) ^ b - 1) / 2 ^ b) := by
      refine ⟨2 ^ b - 1, -(b : ℤ), ?_, ?_⟩
      · have h1 : (1 : ℤ) ≤ 2 ^ b := by exact_mod_cast Nat.one_le_two_pow
        have h2 : (2 : ℤ) ^ b ≤ 2 ^ 53 := pow_le_pow_right₀ (by norm_num) (by omega)
        rw [abs_of_nonneg (by linarith)]; linarith
      · push_cast; rw [zpow_neg, zpow_natCast, div_eq_mul_inv]
    have r2 : Representable 53 (((2 : ℝ) ^ b - 3 / 4) / 2 ^ b) := by
      refine ⟨2 ^ (b + 2) - 3, -((b + 2 : ℕ) : ℤ), ?_, ?_⟩
      · have h1 : (3 : ℤ) ≤ 2 ^ (b + 2) := by
          calc (3 : ℤ) ≤ 2 ^ 2 := by norm_num
            _ ≤ 2 ^ (b + 2) := pow_le_pow_right₀ (by norm_num) (by omega)
        have h2 : (2 : ℤ) ^ (b + 2) ≤ 2 ^ 53 := pow_le_pow_right₀ (by norm_num) (by omega)
        rw [abs_of_nonneg (by linarith)]; linarith
      · rw [zpow_neg, zpow_natCast, Int.cast_sub, Int.cast_pow, pow_add]; push_cast; field_simp; ring
    refine once _ ?_ ?_
    · rw [← fl_of_representable (p := 53) (by norm_num) r1]; exact fl_mono (by norm_num) lo
    · refine lt_of_le_of_lt ?_ hlt
      rw [← fl_of_representable (p := 53) (by norm_num) r2]; exact fl_mono (by norm_num) hi
  · rw [max_eq_left hd, fl_fl hb1]
    exact once _ lo (hi.trans_lt hlt)

example : gsmRounded 24 (fun x => x) (fun _ => 0) (oneByOne (2 ^ 24)) 255 200 0 (fun _ => 1) (fun _ => 1) ≠ .fin 1 := by
  rw [(C147_sharp (by norm_num) (by norm_num)).2]
  intro h
  injection h with h
  norm_num at h

/-! ### C148 -/

/-- **C148.** GSM does not exceed 1, rounding included: with a non-negative constant `c`, a weight between 0 and 1, pixels
that differ by at most the data range, and a positive gradient. -/
theorem C148_upper_bound (hb : 2 ≤ b) (G : (P → ℝ) → P → ℝ) (key : (P → ℝ) → ℝ) (o : SumOrder P) (hn : o.positions.length ≤ 2 ^ b)
    (dr c p : ℝ) (hdr : 0 < dr) (hrep : Representable b dr) (hc : 0 ≤ c) (hp : 0 ≤ p) (hp1 : p ≤ 1) (x y : P → ℝ)
    (hrange : ∀ i ∈ o.positions, |x i - y i| ≤ dr)
    (hpos : ∃ i ∈ o.positions, 0 < G x i ∨ 0 < G y i) (v : ℝ) (h : gsmRounded b G key o dr c p x y = .fin v) : v ≤ 1 := by
  classical
  have hb1 : 1 ≤ b := by omega
  have hle : ∀ (g : P → ℝ) (o : SumOrder P), ∀ j ∈ o.positions, g j ≤ o.top g := by
    intro g o
    induction o with
    | leaf q => intro j hj; simp only [SumOrder.positions, List.mem_singleton] at hj; rw [hj]; rfl
    | node l r hl hr =>
      intro j hj
      simp only [SumOrder.positions, List.mem_append] at hj
      simp only [SumOrder.top]
      rcases hj with hj | hj
      · exact (hl j hj).trans (le_max_left _ _)
      · exact (hr j hj).trans (le_max_right _ _)
  have htop : 0 < max (o.top (G x)) (o.top (G y)) := by
    obtain ⟨i, hi, h | h⟩ := hpos
    · exact h.trans_le ((hle _ o i hi).trans (le_max_left _ _))
    · exact h.trans_le ((hle _ o i hi).trans (le_max_right _ _))
  unfold gsmRounded at h
  rw [if_neg htop.ne'] at h
  have hk : 0 ≤ viaDouble b (c / max (o.top (G x)) (o.top (G y))) := viaDouble_nonneg hb1 (div_nonneg hc htop.le)
  set k := viaDouble b (c / max (o.top (G x)) (o.top (G y)))
  set D := if key (G x) < key (G y) then G y else G x
  set q : P → NF := fun i => gsmQuality b p k dr (G x i) (G y i) (D i) (x i) (y i) with hq
  have hall : ∀ i ∈ o.positions, q i = .nan ∨ ∃ v, q i = .fin v ∧ v ≤ 1 := by
    intro i hi
    simp only [hq]
    unfold gsmQuality
    by_cases hd : D i = 0
    · left; rw [if_pos hd]
    right
    set r := gsmChange b (G x i) (G y i) (D i)
    have hden := gsmDen_pos hb hk r
    rw [if_neg hd, if_neg hden.ne']
    refine ⟨_, rfl, ?_⟩
    obtain ⟨l0, l1⟩ := gsmLum_bounds hb hdr hrep (hrange i hi)
    refine gsmCombine_le hb hp hp1 ?_ l0 l1
    rw [← fl_unit hb1]
    exact fl_mono hb1 ((div_le_one hden).2 (gsmNum_le_gsmDen hb k r))
  unfold nanMeanRounded at h
  have hfin : ¬ ∃ i ∈ o.positions, q i = .pinf ∨ q i = .ninf := by
    rintro ⟨i, hi, h⟩
    rcases hall i hi with h' | ⟨v, h', -⟩ <;> rw [h'] at h <;> simp at h
  rw [if_neg hfin] at h
  by_cases hr : rated o q = 0
  · rw [if_pos (show (o.positions.filter (fun i => q i ≠ .nan)).length = 0 from hr)] at h; cases h
  rw [if_neg (show ¬ (o.positions.filter (fun i => q i ≠ .nan)).length = 0 from hr)] at h
  injection h with h
  rw [← h, ← viaDouble_unit hb1]
  refine viaDouble_mono hb1 ?_
  have hp0 : (0 : ℝ) < rated o q := by exact_mod_cast Nat.pos_of_ne_zero hr
  exact (div_le_one hp0).2 (sum_le_rated hb1 o q ((rated_le o q).trans hn) hall)

example (key : (Bool → ℝ) → ℝ) (v : ℝ)
    (h : gsmRounded 24 (fun x i => if i then x true - x false else x false - x true) key
      (.node (.leaf true) (.leaf false)) 255 200 (1 / 10) (fun i => if i then 3 else 1) (fun i => if i then 200 else 7) = .fin v) :
    v ≤ 1 :=
  C148_upper_bound (by norm_num) _ key _ (by simp [SumOrder.positions]) 255 200 (1 / 10) (by norm_num)
    ⟨255, 0, by norm_num, by norm_num⟩ (by norm_num) (by norm_num) (by norm_num) _ _
    (by intro i _; cases i <;> norm_num [abs_le]) ⟨true, by simp [SumOrder.positions], .inl (by norm_num)⟩ v h

end

end Viqa
