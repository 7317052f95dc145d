import Verif.Model.NoiseRounded
import Verif.Lemmas.Rounding
import Mathlib.Data.List.Perm.Basic

/-!
Property C137: flat regions in floating point arithmetic.
-/

namespace Viqa

namespace Summation

theorem leaves_map (f : ℝ → ℝ) (t : Summation) : (t.map f).leaves = t.leaves.map f := by
  induction t with
  | leaf v => rfl
  | node l r hl hr => simp [map, leaves, hl, hr]

theorem size_pos (t : Summation) : 0 < t.size := by
  unfold size
  induction t with
  | leaf v => simp [leaves]
  | node l r hl hr => simp only [leaves, List.length_append]; omega

theorem eval_zero (p : ℕ) (t : Summation) (h : ∀ v ∈ t.leaves, v = 0) : t.eval p = 0 := by
  induction t with
  | leaf v => exact h v (by simp [leaves])
  | node l r hl hr =>
    simp only [leaves, List.mem_append] at h
    simp only [eval]
    rw [hl (fun v hv => h v (Or.inl hv)), hr (fun v hv => h v (Or.inr hv)), add_zero, fl_zero]

theorem eval_nonneg (p : ℕ) (hp : 1 ≤ p) (t : Summation) (h : ∀ v ∈ t.leaves, 0 ≤ v) : 0 ≤ t.eval p := by
  induction t with
  | leaf v => exact h v (by simp [leaves])
  | node l r hl hr =>
    simp only [leaves, List.mem_append] at h
    exact fl_nonneg hp (add_nonneg (hl (fun v hv => h v (Or.inl hv))) (hr (fun v hv => h v (Or.inr hv))))

/-- Sums of multiples of one unit are exact in every order while they have enough bits. -/
theorem eval_exact (p : ℕ) (hp : 1 ≤ p) (e : ℤ) (t : Summation) (k : ℝ → ℤ)
    (hk : ∀ v ∈ t.leaves, v = k v * 2 ^ e) (hs : (t.leaves.map (fun v => |k v|)).sum ≤ 2 ^ p) :
    t.eval p = t.leaves.sum := by
  suffices h : t.eval p = t.leaves.sum ∧ ∃ n : ℤ, t.leaves.sum = n * 2 ^ e ∧ |n| ≤ (t.leaves.map (fun v => |k v|)).sum from h.1
  induction t with
  | leaf v => exact ⟨by simp [eval, leaves], k v, by simpa [leaves] using hk v (by simp [leaves]), by simp [leaves]⟩
  | node l r hl hr =>
    simp only [leaves, List.map_append, List.sum_append, List.mem_append] at hk hs ⊢
    have n1 : 0 ≤ (l.leaves.map (fun v => |k v|)).sum := List.sum_nonneg (by simp)
    have n2 : 0 ≤ (r.leaves.map (fun v => |k v|)).sum := List.sum_nonneg (by simp)
    obtain ⟨h1, a, ha, ha'⟩ := hl (fun v hv => hk v (Or.inl hv)) (by omega)
    obtain ⟨h2, b, hb, hb'⟩ := hr (fun v hv => hk v (Or.inr hv)) (by omega)
    have hsum : l.leaves.sum + r.leaves.sum = ((a + b : ℤ) : ℝ) * 2 ^ e := by rw [ha, hb]; push_cast; ring
    have hab : |a + b| ≤ (l.leaves.map (fun v => |k v|)).sum + (r.leaves.map (fun v => |k v|)).sum :=
      (abs_add_le a b).trans (add_le_add ha' hb')
    refine ⟨?_, a + b, hsum, hab⟩
    simp only [eval]
    rw [h1, h2]
    exact fl_of_representable hp ⟨a + b, e, hab.trans hs, hsum⟩

end Summation

open Summation

theorem viaDouble_double (x : ℝ) : viaDouble 53 x = fl 53 x := by
  unfold viaDouble
  rw [max_self, fl_fl (by norm_num)]

theorem viaDouble_zero (p : ℕ) : viaDouble p 0 = 0 := by
  unfold viaDouble
  rw [fl_zero, fl_zero]

theorem viaDouble_of_representable {p : ℕ} (hp : 1 ≤ p) {x : ℝ} (h : Representable p x) : viaDouble p x = x := by
  have h' : Representable (max p 53) x := by
    obtain ⟨m, k, hm, e⟩ := h
    exact ⟨m, k, hm.trans (pow_le_pow_right₀ (by norm_num) (le_max_left _ _)), e⟩
  unfold viaDouble
  rw [fl_of_representable (by omega) h', fl_of_representable hp h]

/-- float64 -/
theorem viaDouble_mono {p : ℕ} (hp : 1 ≤ p) {x y : ℝ} (h : x ≤ y) : viaDouble p x ≤ viaDouble p y :=
  fl_mono hp (fl_mono (by omega) h)

theorem viaDouble_nonneg {p : ℕ} (hp : 1 ≤ p) {x : ℝ} (h : 0 ≤ x) : 0 ≤ viaDouble p x := by
  rw [← viaDouble_zero p]; exact viaDouble_mono hp h

theorem viaDouble_unit {p : ℕ} (hp : 1 ≤ p) : viaDouble p 1 = 1 :=
  viaDouble_of_representable hp ⟨1, 0, by rw [abs_one]; exact one_le_pow₀ (by norm_num), by norm_num⟩

theorem meanRounded_double (t : Summation) : meanRounded 53 t = fl 53 (t.eval 53 / t.size) := viaDouble_double _

theorem centreRounded_double (t : Summation) : centreRounded 53 t = meanRounded 53 t := by
  unfold centreRounded
  rw [meanRounded_double, viaDouble_double, ite_self]

/-- **C137.** The mean of numbers with few bits (for example whole numbers) does not depend on the order of
the additions: it is the rounded exact mean. -/
theorem C137_mean (p : ℕ) (hp : 1 ≤ p) (e : ℤ) (l : List ℝ) (k : ℝ → ℤ) (hk : ∀ v ∈ l, v = k v * 2 ^ e)
    (hs : (l.map (fun v => |k v|)).sum ≤ 2 ^ p) (t : Summation) (ht : t.leaves.Perm l) :
    meanRounded p t = viaDouble p (l.sum / l.length) := by
  unfold meanRounded Summation.size
  rw [eval_exact p hp e t k (fun v hv => hk v (ht.mem_iff.1 hv)) (by rw [(ht.map _).sum_eq]; exact hs),
    ht.sum_eq, ht.length_eq]

/-- **C137**, partially: a flat region has SNR 0, and a flat background gives CNR 0, if the sum of its values
needs at most `p` bits: integer images of 16 bits with up to `2 ^ 37` pixels, of 32 bits with up to `2 ^ 21`.
Missing: other values, see `C137_refuted`. -/
theorem C137_flat_partial (p : ℕ) (hp : 1 ≤ p) (c : ℝ) (k e : ℤ) (hc : c = k * 2 ^ e) (t : Summation)
    (hflat : ∀ v ∈ t.leaves, v = c) (hs : t.size * |k| ≤ 2 ^ p) :
    snrRounded p t = 0 ∧ ∀ s, cnrRounded p s t = 0 := by
  have hn : (0 : ℝ) < t.size := by exact_mod_cast t.size_pos
  have hlist : t.leaves = List.replicate t.size c := List.eq_replicate_iff.2 ⟨rfl, hflat⟩
  have hk1 : |k| ≤ 2 ^ p := by
    have : (1 : ℤ) ≤ t.size := by exact_mod_cast t.size_pos
    nlinarith [abs_nonneg k]
  have hm : centreRounded p t = c := by
    have he : t.eval p / t.size = c := by
      rw [eval_exact p hp e t (fun _ => k) (fun v hv => (hflat v hv).trans hc) (by
        simp only [List.map_const', List.sum_replicate, nsmul_eq_mul]
        exact hs), hlist, List.sum_replicate, nsmul_eq_mul, mul_div_assoc, mul_div_cancel₀ _ hn.ne']
    unfold centreRounded
    rw [he, viaDouble_of_representable hp ⟨k, e, hk1, hc⟩, fl_of_representable hp ⟨k, e, hk1, hc⟩, ite_self]
  have hv : varRounded p t = 0 := by
    unfold varRounded
    rw [eval_zero, zero_div, viaDouble_zero]
    intro v hv
    rw [leaves_map, List.mem_map] at hv
    obtain ⟨w, hw, rfl⟩ := hv
    rw [hflat w hw, hm, sub_self, fl_zero, mul_zero, fl_zero]
  have hstd : stdRounded p t = 0 := by
    unfold stdRounded
    rw [hv, Real.sqrt_zero, fl_zero]
  exact ⟨by unfold snrRounded; rw [if_pos hstd], fun s => by unfold cnrRounded; rw [if_pos hstd]⟩

/-- Three equal values can be added in one way only. -/
theorem eval_three (p : ℕ) (c : ℝ) (t : Summation) (ht : t.leaves = [c, c, c]) : t.eval p = fl p (fl p (c + c) + c) := by
  have one : ∀ (s : Summation) (x : ℝ), s.leaves = [x] → s.eval p = x := by
    intro s x h
    cases s with
    | leaf v => simpa [leaves, eval] using h
    | node a b =>
      have h1 := a.size_pos
      have h2 := b.size_pos
      have := congrArg List.length h
      simp only [leaves, List.length_append, List.length_cons, List.length_nil] at this
      unfold Summation.size at h1 h2
      omega
  have two : ∀ (s : Summation) (x y : ℝ), s.leaves = [x, y] → s.eval p = fl p (x + y) := by
    intro s x y h
    cases s with
    | leaf v => simp [leaves] at h
    | node a b =>
      have h1 := a.size_pos
      have h2 := b.size_pos
      unfold Summation.size at h1 h2
      have hl := congrArg List.length h
      simp only [leaves, List.length_append, List.length_cons, List.length_nil] at hl h
      obtain ⟨e1, e2⟩ := List.append_inj (show a.leaves ++ b.leaves = [x] ++ [y] from h) (by simp; omega)
      simp only [eval]
      rw [one a x e1, one b y e2]
  cases t with
  | leaf v => simp [leaves] at ht
  | node a b =>
    have h1 := a.size_pos
    have h2 := b.size_pos
    unfold Summation.size at h1 h2
    have hl := congrArg List.length ht
    simp only [leaves, List.length_append, List.length_cons, List.length_nil] at hl ht
    simp only [eval]
    rcases (show a.leaves.length = 1 ∨ a.leaves.length = 2 by omega) with ha | ha
    · obtain ⟨e1, e2⟩ := List.append_inj (show a.leaves ++ b.leaves = [c] ++ [c, c] from ht) (by simpa using ha)
      rw [one a c e1, two b c c e2, add_comm]
    · obtain ⟨e1, e2⟩ := List.append_inj (show a.leaves ++ b.leaves = [c, c] ++ [c] from ht) (by simpa using ha)
      rw [two a c c e1, one b c e2]


/-- The full statement: flat regions have SNR 0. -/
def FlatRegionsHaveNoSignal : Prop :=
  ∀ (t : Summation) (c : ℝ), Representable 53 c → (∀ v ∈ t.leaves, v = c) → snrRounded 53 t = 0

/-- The float64 number written as 0.1. -/
def oneTenth : Rat := fl 53 (1 / 10)

/-- Mean and square of the standard deviation of three times `c`. -/
def threeMean (c : Rat) : Rat := fl 53 (fl 53 (fl 53 (c + c) + c) / 3)

def threeVar (c : Rat) : Rat :=
  let w := fl 53 (fl 53 (c - threeMean c) * fl 53 (c - threeMean c))
  fl 53 (fl 53 (fl 53 (w + w) + w) / 3)

theorem mean_three (c : Rat) (t : Summation) (ht : t.leaves = [(c : ℝ), c, c]) : meanRounded 53 t = (threeMean c : Rat) := by
  rw [meanRounded_double]
  unfold threeMean Summation.size
  rw [eval_three 53 c t ht, ht]
  simp only [List.length_cons, List.length_nil]
  rw [fl_ratCast, Rat.cast_div, fl_ratCast, Rat.cast_add, fl_ratCast, Rat.cast_add]
  norm_num

theorem var_three (c : Rat) (t : Summation) (ht : t.leaves = [(c : ℝ), c, c]) : varRounded 53 t = (threeVar c : Rat) := by
  unfold varRounded Summation.size
  rw [centreRounded_double, mean_three c t ht, viaDouble_double]
  rw [eval_three 53 (((fl 53 (fl 53 (c - threeMean c) * fl 53 (c - threeMean c)) : Rat)) : ℝ) _ (by
    rw [leaves_map, ht]
    simp only [List.map_cons, List.map_nil, fl_ratCast, Rat.cast_sub, Rat.cast_mul]), ht]
  simp only [List.length_cons, List.length_nil]
  unfold threeVar
  simp only
  rw [fl_ratCast 53 (_ / 3), Rat.cast_div, fl_ratCast 53 (_ + _), Rat.cast_add, fl_ratCast 53 (_ + _), Rat.cast_add]
  norm_num

/-- **C137, refuted:** a flat float64 image of three pixels 0.1 has an SNR above `2 ^ 51`, in whatever order the
pixels are added; as background it gives such a CNR as well. -/
theorem C137_actual (t : Summation) (ht : t.leaves = [(oneTenth : ℝ), oneTenth, oneTenth]) :
    2 ^ 51 ≤ snrRounded 53 t ∧ ∀ s : Summation, s.leaves = [1] → 2 ^ 51 ≤ cnrRounded 53 s t := by
  have hV0 : (0 : Rat) < threeVar oneTenth := by decide +kernel
  have hV1 : threeVar oneTenth ≤ (2 ^ (-55 : ℤ)) ^ 2 := by decide +kernel
  have hm : (1 : Rat) / 16 ≤ threeMean oneTenth := by decide +kernel
  have hm2 : threeMean oneTenth ≤ 1 / 8 := by decide +kernel
  have hV0' : (0 : ℝ) < (threeVar oneTenth : Rat) := by exact_mod_cast hV0
  have hs0 : 0 < stdRounded 53 t := by
    unfold stdRounded
    rw [var_three _ t ht]
    exact fl_pos (by norm_num) (Real.sqrt_pos.2 hV0')
  have hs1 : stdRounded 53 t ≤ 2 ^ (-55 : ℤ) := by
    unfold stdRounded
    rw [var_three _ t ht]
    have h1 : Real.sqrt (threeVar oneTenth : Rat) ≤ 2 ^ (-55 : ℤ) := by
      rw [Real.sqrt_le_left (by positivity)]
      have h := (Rat.cast_le (K := ℝ)).2 hV1
      push_cast at h
      exact h
    have h2 := fl_mono (p := 53) (by norm_num) h1
    rwa [fl_of_representable (x := (2 : ℝ) ^ (-55 : ℤ)) (by norm_num) ⟨1, -55, by norm_num, by simp⟩] at h2
  have hrep : Representable 53 ((2 : ℝ) ^ 51) := ⟨1, 51, by norm_num, by norm_num⟩
  have hbig : ∀ x : ℝ, 1 / 16 ≤ x → 2 ^ 51 ≤ fl 53 (x / stdRounded 53 t) := by
    intro x hx
    rw [← fl_of_representable (by norm_num) hrep]
    apply fl_mono (by norm_num)
    rw [le_div_iff₀ hs0]
    refine le_trans (mul_le_mul_of_nonneg_left hs1 (by positivity)) (le_trans ?_ hx)
    norm_num
  have hmean := mean_three _ t ht
  constructor
  · unfold snrRounded
    rw [if_neg hs0.ne']
    apply hbig
    rw [hmean]
    have : (((1 : Rat) / 16 : Rat) : ℝ) ≤ (threeMean oneTenth : Rat) := by exact_mod_cast hm
    push_cast at this
    exact this
  · intro s hs
    have hms : meanRounded 53 s = 1 := by
      cases s with
      | leaf v =>
        have hv : v = 1 := by simpa [leaves] using hs
        have := fl_int (K := ℝ) (p := 53) (by norm_num) 1 (by norm_num)
        simp only [Int.cast_one] at this
        simp [meanRounded_double, eval, Summation.size, leaves, hv, this]
      | node a b =>
        have h1 := a.size_pos
        have h2 := b.size_pos
        have := congrArg List.length hs
        simp only [leaves, List.length_append, List.length_cons, List.length_nil] at this
        unfold Summation.size at h1 h2
        omega
    unfold cnrRounded
    rw [if_neg hs0.ne']
    apply hbig
    rw [hms, hmean]
    have h2 : (((1 : Rat) / 2 : Rat) : ℝ) ≤ 1 - (threeMean oneTenth : Rat) := by
      have : (1 : Rat) / 2 ≤ 1 - threeMean oneTenth := by linarith
      exact_mod_cast this
    push_cast at h2
    have h3 := fl_mono (p := 53) (by norm_num) h2
    rw [fl_of_representable (x := (1 : ℝ) / 2) (by norm_num) ⟨1, -1, by norm_num, by norm_num⟩] at h3
    linarith

theorem C137_refuted : ¬ FlatRegionsHaveNoSignal := by
  intro h
  have h1 := (C137_actual (.node (.node (.leaf oneTenth) (.leaf oneTenth)) (.leaf oneTenth)) rfl).1
  rw [h _ oneTenth (by unfold oneTenth; rw [fl_ratCast]; exact fl_representable 53 _)
    (by simp [leaves])] at h1
  norm_num at h1

/-- A flat integer region. -/
example : snrRounded 53 (.node (.node (.leaf 7) (.leaf 7)) (.leaf 7)) = 0 :=
  (C137_flat_partial 53 (by norm_num) 7 7 0 (by norm_num) _ (by simp [leaves]) (by simp [Summation.size, leaves])).1

/-- The mean of three grey values. -/
example : meanRounded 53 (.node (.node (.leaf 7) (.leaf 9)) (.leaf 4)) = fl 53 (20 / 3) := by
  rw [← viaDouble_double, C137_mean 53 (by norm_num) 0 [7, 9, 4] (fun v => ⌊v⌋) (by simp) (by simp) _ (by simp [leaves])]
  norm_num

end Viqa
