import Verif.Model.NoiseRounded
import Verif.Lemmas.Rounding
import Verif.Props.NoiseRounded

/-!
Property C141: accuracy of the computed mean, standard deviation, SNR and CNR.
-/

namespace Viqa

namespace Summation

/-- The largest number of additions a value takes part in. -/
def depth : Summation → ℕ
  | leaf _ => 0
  | node l r => max l.depth r.depth + 1

theorem depth_map (f : ℝ → ℝ) (t : Summation) : (t.map f).depth = t.depth := by
  induction t with
  | leaf v => rfl
  | node l r hl hr => simp [map, depth, hl, hr]

/-- The depth is less than the number of values. -/
theorem depth_lt_size (t : Summation) : t.depth < t.size := by
  induction t with
  | leaf v => simp [depth, size, leaves]
  | node l r hl hr =>
    simp only [depth, size, leaves, List.length_append] at *
    omega

theorem unit_bounds (p : ℕ) : (0 : ℝ) ≤ 1 - 1 / 2 ^ p ∧ (1 : ℝ) - 1 / 2 ^ p ≤ 1 ∧ (1 : ℝ) ≤ 1 + 1 / 2 ^ p := by
  have h1 : (0 : ℝ) < 1 / 2 ^ p := by positivity
  have h2 : (1 : ℝ) / 2 ^ p ≤ 1 := by
    rw [div_le_one (by positivity)]
    exact one_le_pow₀ (by norm_num)
  exact ⟨by linarith, by linarith, by linarith⟩

/-- Sums of values that are not negative have a small relative error. -/
theorem eval_relative (p : ℕ) (hp : 1 ≤ p) (t : Summation) (h : ∀ v ∈ t.leaves, 0 ≤ v) :
    t.leaves.sum * (1 - 1 / 2 ^ p) ^ t.depth ≤ t.eval p ∧ t.eval p ≤ t.leaves.sum * (1 + 1 / 2 ^ p) ^ t.depth := by
  obtain ⟨u0, u1, u2⟩ := unit_bounds p
  induction t with
  | leaf v => simp [leaves, eval, depth]
  | node l r hl hr =>
    simp only [leaves, List.mem_append] at h
    have hl' := hl fun v hv => h v (Or.inl hv)
    have hr' := hr fun v hv => h v (Or.inr hv)
    have sl : 0 ≤ l.leaves.sum := List.sum_nonneg fun v hv => h v (Or.inl hv)
    have sr : 0 ≤ r.leaves.sum := List.sum_nonneg fun v hv => h v (Or.inr hv)
    have el := eval_nonneg p hp l fun v hv => h v (Or.inl hv)
    have er := eval_nonneg p hp r fun v hv => h v (Or.inr hv)
    simp only [eval, leaves, List.sum_append, depth]
    have a1 := fl_le_mul p (add_nonneg el er)
    have a2 := mul_le_fl p (add_nonneg el er)
    constructor
    · refine le_trans ?_ a2
      rw [pow_succ, ← mul_assoc]
      refine mul_le_mul_of_nonneg_right ?_ u0
      have b1 : l.leaves.sum * (1 - 1 / 2 ^ p) ^ max l.depth r.depth ≤ l.leaves.sum * (1 - 1 / 2 ^ p) ^ l.depth :=
        mul_le_mul_of_nonneg_left (pow_le_pow_of_le_one u0 u1 (le_max_left _ _)) sl
      have b2 : r.leaves.sum * (1 - 1 / 2 ^ p) ^ max l.depth r.depth ≤ r.leaves.sum * (1 - 1 / 2 ^ p) ^ r.depth :=
        mul_le_mul_of_nonneg_left (pow_le_pow_of_le_one u0 u1 (le_max_right _ _)) sr
      rw [add_mul]
      linarith [hl'.1, hr'.1]
    · refine le_trans a1 ?_
      rw [pow_succ, ← mul_assoc]
      refine mul_le_mul_of_nonneg_right ?_ (by linarith)
      have b1 : l.leaves.sum * (1 + 1 / 2 ^ p) ^ l.depth ≤ l.leaves.sum * (1 + 1 / 2 ^ p) ^ max l.depth r.depth :=
        mul_le_mul_of_nonneg_left (pow_le_pow_right₀ u2 (le_max_left _ _)) sl
      have b2 : r.leaves.sum * (1 + 1 / 2 ^ p) ^ r.depth ≤ r.leaves.sum * (1 + 1 / 2 ^ p) ^ max l.depth r.depth :=
        mul_le_mul_of_nonneg_left (pow_le_pow_right₀ u2 (le_max_right _ _)) sr
      rw [add_mul]
      linarith [hl'.2, hr'.2]

end Summation

/-- Mean, variance and SNR in exact arithmetic. -/
noncomputable def Spec.mean (l : List ℝ) : ℝ := l.sum / l.length
noncomputable def Spec.variance (l : List ℝ) : ℝ := (l.map (fun v => (v - Spec.mean l) ^ 2)).sum / l.length
noncomputable def Spec.snr (l : List ℝ) : ℝ := Spec.mean l / Real.sqrt (Spec.variance l)

open Summation

/-- One rounding, or two. -/
theorem viaDouble_relative (p : ℕ) {x : ℝ} (hx : 0 ≤ x) :
    x * (1 - 1 / 2 ^ p) ^ 2 ≤ viaDouble p x ∧ viaDouble p x ≤ x * (1 + 1 / 2 ^ p) ^ 2 := by
  obtain ⟨u0, u1, u2⟩ := unit_bounds p
  have h0 := fl_nonneg (p := max p 53) (by omega) hx
  have a1 := fl_le_mul (max p 53) hx
  have a2 := mul_le_fl (max p 53) hx
  have b1 := fl_le_mul p h0
  have b2 := mul_le_fl p h0
  have hq : (1 : ℝ) / 2 ^ max p 53 ≤ 1 / 2 ^ p :=
    div_le_div_of_nonneg_left (by norm_num) (by positivity) (pow_le_pow_right₀ (by norm_num) (le_max_left _ _))
  unfold viaDouble
  constructor
  · refine le_trans ?_ b2
    rw [sq, ← mul_assoc]
    refine mul_le_mul_of_nonneg_right (le_trans ?_ a2) u0
    exact mul_le_mul_of_nonneg_left (by linarith) hx
  · refine le_trans b1 ?_
    rw [sq, ← mul_assoc]
    refine mul_le_mul_of_nonneg_right (a1.trans ?_) (by linarith)
    exact mul_le_mul_of_nonneg_left (by linarith) hx

/-- A quotient by the number of values. -/
theorem mean_relative (p : ℕ) (hp : 1 ≤ p) (t : Summation) (h : ∀ v ∈ t.leaves, 0 ≤ v) :
    t.leaves.sum / t.size * (1 - 1 / 2 ^ p) ^ (t.depth + 2) ≤ viaDouble p (t.eval p / t.size) ∧
    viaDouble p (t.eval p / t.size) ≤ t.leaves.sum / t.size * (1 + 1 / 2 ^ p) ^ (t.depth + 2) := by
  obtain ⟨u0, u1, u2⟩ := unit_bounds p
  have hn : (0 : ℝ) < t.size := by exact_mod_cast t.size_pos
  obtain ⟨e1, e2⟩ := t.eval_relative p hp h
  obtain ⟨a1, a2⟩ := viaDouble_relative p (div_nonneg (eval_nonneg p hp t h) hn.le)
  constructor
  · refine le_trans ?_ a1
    rw [pow_add, ← mul_assoc]
    refine mul_le_mul_of_nonneg_right ?_ (by positivity)
    rw [div_mul_eq_mul_div]
    exact div_le_div_of_nonneg_right e1 hn.le
  · refine le_trans a2 ?_
    rw [pow_add, ← mul_assoc]
    refine mul_le_mul_of_nonneg_right ?_ (by positivity)
    rw [div_mul_eq_mul_div]
    exact div_le_div_of_nonneg_right e2 hn.le

/-- The mean of values that are not negative. -/
theorem C141_mean (p : ℕ) (hp : 1 ≤ p) (t : Summation) (h : ∀ v ∈ t.leaves, 0 ≤ v) :
    Spec.mean t.leaves * (1 - 1 / 2 ^ p) ^ (t.depth + 2) ≤ meanRounded p t ∧
    meanRounded p t ≤ Spec.mean t.leaves * (1 + 1 / 2 ^ p) ^ (t.depth + 2) :=
  mean_relative p hp t h

/-- The mean inside of the standard deviation. -/
theorem centre_relative (p : ℕ) (hp : 1 ≤ p) (t : Summation) (h : ∀ v ∈ t.leaves, 0 ≤ v) :
    Spec.mean t.leaves * (1 - 1 / 2 ^ p) ^ (t.depth + 2) ≤ centreRounded p t ∧
    centreRounded p t ≤ Spec.mean t.leaves * (1 + 1 / 2 ^ p) ^ (t.depth + 2) := by
  unfold centreRounded
  split
  · obtain ⟨u0, u1, u2⟩ := unit_bounds p
    have hn : (0 : ℝ) < t.size := by exact_mod_cast t.size_pos
    obtain ⟨e1, e2⟩ := t.eval_relative p hp h
    have e0 := eval_nonneg p hp t h
    have a1 := fl_le_mul p (div_nonneg e0 hn.le)
    have a2 := mul_le_fl p (div_nonneg e0 hn.le)
    have hm : 0 ≤ Spec.mean t.leaves := div_nonneg (List.sum_nonneg h) (Nat.cast_nonneg _)
    constructor
    · refine le_trans (mul_le_mul_of_nonneg_left (pow_le_pow_of_le_one u0 u1 (show t.depth + 1 ≤ t.depth + 2 by omega)) hm)
        (le_trans ?_ a2)
      rw [pow_succ, ← mul_assoc]
      refine mul_le_mul_of_nonneg_right ?_ u0
      change t.leaves.sum / (t.size : ℝ) * _ ≤ _
      rw [div_mul_eq_mul_div]
      exact div_le_div_of_nonneg_right e1 hn.le
    · refine le_trans (a1.trans ?_)
        (mul_le_mul_of_nonneg_left (pow_le_pow_right₀ u2 (show t.depth + 1 ≤ t.depth + 2 by omega)) hm)
      rw [pow_succ, ← mul_assoc]
      refine mul_le_mul_of_nonneg_right ?_ (by linarith)
      change _ ≤ t.leaves.sum / (t.size : ℝ) * _
      rw [div_mul_eq_mul_div]
      exact div_le_div_of_nonneg_right e2 hn.le
  · exact mean_relative p hp t h

/-- Squared differences to any number: variance plus the squared distance of the number to the mean. -/
theorem sum_sq_about (l : List ℝ) (c : ℝ) (hl : l ≠ []) :
    (l.map (fun v => (v - c) ^ 2)).sum = l.length * (Spec.variance l + (c - Spec.mean l) ^ 2) := by
  have hn : (l.length : ℝ) ≠ 0 := by
    have := List.length_pos_iff.2 hl
    positivity
  have key : ∀ (l' : List ℝ) (d : ℝ), (l'.map (fun v => (v - d) ^ 2)).sum =
      (l'.map (fun v => v ^ 2)).sum - 2 * d * l'.sum + l'.length * d ^ 2 := by
    intro l' d
    induction l' with
    | nil => simp
    | cons a l' ih =>
      simp only [List.map_cons, List.sum_cons, ih, List.length_cons]
      push_cast
      ring
  unfold Spec.variance
  rw [key l c, key l (Spec.mean l)]
  have hm : l.sum = l.length * Spec.mean l := by
    unfold Spec.mean; field_simp
  rw [hm]
  field_simp
  ring

/-- The variance is computed with a small relative error, up to the error of the mean. -/
theorem C141_variance (p : ℕ) (hp : 1 ≤ p) (t : Summation) :
    (Spec.variance t.leaves + (centreRounded p t - Spec.mean t.leaves) ^ 2) * (1 - 1 / 2 ^ p) ^ (t.depth + 5) ≤ varRounded p t ∧
    varRounded p t ≤ (Spec.variance t.leaves + (centreRounded p t - Spec.mean t.leaves) ^ 2) * (1 + 1 / 2 ^ p) ^ (t.depth + 5) := by
  obtain ⟨u0, u1, u2⟩ := unit_bounds p
  have hn : (0 : ℝ) < t.size := by exact_mod_cast t.size_pos
  have hne : t.leaves ≠ [] := List.length_pos_iff.1 t.size_pos
  set c := centreRounded p t with hc
  set f : ℝ → ℝ := fun v => fl p (fl p (v - c) * fl p (v - c)) with hf
  -- one square
  have hsq : ∀ v, (v - c) ^ 2 * (1 - 1 / 2 ^ p) ^ 3 ≤ f v ∧ f v ≤ (v - c) ^ 2 * (1 + 1 / 2 ^ p) ^ 3 := by
    intro v
    have a1 := fl_le_mul p (mul_self_nonneg (fl p (v - c)))
    have a2 := mul_le_fl p (mul_self_nonneg (fl p (v - c)))
    have b1 : |fl p (v - c)| ≤ |v - c| * (1 + 1 / 2 ^ p) := abs_fl_le p _
    have b2 : |v - c| * (1 - 1 / 2 ^ p) ≤ |fl p (v - c)| := by
      have := fl_error p (v - c)
      have h3 := abs_sub_abs_le_abs_sub (v - c) (fl p (v - c))
      rw [abs_sub_comm (v - c) (fl p (v - c))] at h3
      have e : |v - c| * (1 - 1 / 2 ^ p) = |v - c| - |v - c| / 2 ^ p := by ring
      linarith
    have s1 : fl p (v - c) * fl p (v - c) ≤ (v - c) ^ 2 * (1 + 1 / 2 ^ p) ^ 2 := by
      rw [← abs_mul_abs_self, ← sq_abs (v - c), ← mul_pow, sq]
      exact mul_le_mul b1 b1 (abs_nonneg _) (by positivity)
    have s2 : (v - c) ^ 2 * (1 - 1 / 2 ^ p) ^ 2 ≤ fl p (v - c) * fl p (v - c) := by
      rw [← abs_mul_abs_self (fl p (v - c)), ← sq_abs (v - c), ← mul_pow, sq]
      exact mul_le_mul b2 b2 (by positivity) (abs_nonneg _)
    constructor
    · refine le_trans ?_ a2
      rw [pow_succ _ 2, ← mul_assoc]
      exact mul_le_mul_of_nonneg_right s2 u0
    · refine le_trans a1 ?_
      rw [pow_succ _ 2, ← mul_assoc]
      exact mul_le_mul_of_nonneg_right s1 (by linarith)
  have hnn : ∀ v ∈ (t.map f).leaves, 0 ≤ v := by
    intro v hv
    rw [leaves_map, List.mem_map] at hv
    obtain ⟨w, -, rfl⟩ := hv
    exact fl_nonneg hp (mul_self_nonneg _)
  obtain ⟨e1, e2⟩ := (t.map f).eval_relative p hp hnn
  rw [depth_map] at e1 e2
  have e0 := eval_nonneg p hp (t.map f) hnn
  have hs := sum_sq_about t.leaves c hne
  have hS0 : 0 ≤ (t.leaves.map (fun v => (v - c) ^ 2)).sum := List.sum_nonneg (by
    intro x hx
    rw [List.mem_map] at hx
    obtain ⟨y, -, rfl⟩ := hx
    exact sq_nonneg _)
  have t1 : (t.leaves.map (fun v => (v - c) ^ 2)).sum * (1 - 1 / 2 ^ p) ^ 3 ≤ (t.map f).leaves.sum := by
    rw [leaves_map, ← List.sum_map_mul_right]
    exact List.sum_le_sum fun v _ => (hsq v).1
  have t2 : (t.map f).leaves.sum ≤ (t.leaves.map (fun v => (v - c) ^ 2)).sum * (1 + 1 / 2 ^ p) ^ 3 := by
    rw [leaves_map, ← List.sum_map_mul_right]
    exact List.sum_le_sum fun v _ => (hsq v).2
  obtain ⟨a2, a1⟩ := viaDouble_relative p (div_nonneg e0 hn.le)
  have hV : (t.leaves.map (fun v => (v - c) ^ 2)).sum = t.size * (Spec.variance t.leaves + (c - Spec.mean t.leaves) ^ 2) := hs
  set S := Spec.variance t.leaves + (c - Spec.mean t.leaves) ^ 2 with hSdef
  have hS : (t.leaves.map (fun v => (v - c) ^ 2)).sum / t.size = S := by rw [hV]; field_simp
  change S * _ ≤ viaDouble p ((t.map f).eval p / t.size) ∧ viaDouble p ((t.map f).eval p / t.size) ≤ S * _
  constructor
  · refine le_trans ?_ a2
    rw [show t.depth + 5 = (3 + t.depth) + 2 by ring, pow_add _ (3 + t.depth), ← mul_assoc]
    refine mul_le_mul_of_nonneg_right ?_ (by positivity)
    rw [← hS, div_mul_eq_mul_div]
    refine div_le_div_of_nonneg_right ?_ hn.le
    rw [pow_add, ← mul_assoc]
    exact le_trans (mul_le_mul_of_nonneg_right t1 (pow_nonneg u0 _)) e1
  · refine le_trans a1 ?_
    rw [show t.depth + 5 = (3 + t.depth) + 2 by ring, pow_add _ (3 + t.depth), ← mul_assoc]
    refine mul_le_mul_of_nonneg_right ?_ (by positivity)
    rw [← hS, div_mul_eq_mul_div]
    refine div_le_div_of_nonneg_right ?_ hn.le
    rw [pow_add, ← mul_assoc]
    exact le_trans e2 (mul_le_mul_of_nonneg_right t2 (pow_nonneg (by linarith) _))

/-- Powers around one. -/
theorem pow_around (p k : ℕ) : 1 - (1 - 1 / 2 ^ p : ℝ) ^ k ≤ (1 + 1 / 2 ^ p) ^ k - 1 := by
  obtain ⟨u0, u1, u2⟩ := unit_bounds p
  have h1 := one_add_mul_le_pow (a := -(1 / 2 ^ p : ℝ)) (by linarith) k
  have h2 := one_add_mul_le_pow (a := (1 / 2 ^ p : ℝ)) (by linarith) k
  rw [← sub_eq_add_neg] at h1
  linarith

/-- The distance to the mean from bounds as above. -/
theorem distance_of_relative (p : ℕ) (t : Summation) (h : ∀ v ∈ t.leaves, 0 ≤ v) {c : ℝ}
    (h1 : Spec.mean t.leaves * (1 - 1 / 2 ^ p) ^ (t.depth + 2) ≤ c)
    (h2 : c ≤ Spec.mean t.leaves * (1 + 1 / 2 ^ p) ^ (t.depth + 2)) :
    |c - Spec.mean t.leaves| ≤ ((1 + 1 / 2 ^ p) ^ (t.depth + 2) - 1) * Spec.mean t.leaves := by
  have hm : 0 ≤ Spec.mean t.leaves := div_nonneg (List.sum_nonneg h) (Nat.cast_nonneg _)
  have h3 := mul_le_mul_of_nonneg_left (pow_around p (t.depth + 2)) hm
  rw [abs_le]
  constructor <;> nlinarith

/-- The distance of the computed mean to the mean. -/
theorem mean_distance (p : ℕ) (hp : 1 ≤ p) (t : Summation) (h : ∀ v ∈ t.leaves, 0 ≤ v) :
    |meanRounded p t - Spec.mean t.leaves| ≤ ((1 + 1 / 2 ^ p) ^ (t.depth + 2) - 1) * Spec.mean t.leaves :=
  distance_of_relative p t h (C141_mean p hp t h).1 (C141_mean p hp t h).2

/-- The same for the mean inside of the standard deviation. -/
theorem centre_distance (p : ℕ) (hp : 1 ≤ p) (t : Summation) (h : ∀ v ∈ t.leaves, 0 ≤ v) :
    |centreRounded p t - Spec.mean t.leaves| ≤ ((1 + 1 / 2 ^ p) ^ (t.depth + 2) - 1) * Spec.mean t.leaves :=
  distance_of_relative p t h (centre_relative p hp t h).1 (centre_relative p hp t h).2

/-- **C141.** The computed SNR of a region with noise and without negative values, for every number of bits and every
order of summation. The error grows with the number of additions a value takes part in, and if the noise is as small
as the error of the mean. -/
theorem C141_snr (p : ℕ) (hp : 1 ≤ p) (t : Summation) (h : ∀ v ∈ t.leaves, 0 ≤ v) (hv : 0 < Spec.variance t.leaves) :
    Spec.snr t.leaves / Real.sqrt (1 + (((1 + 1 / 2 ^ p) ^ (t.depth + 2) - 1) * Spec.snr t.leaves) ^ 2) *
      ((1 - 1 / 2 ^ p) ^ (t.depth + 3) / (1 + 1 / 2 ^ p) ^ (t.depth + 6)) ≤ snrRounded p t ∧
    snrRounded p t ≤ Spec.snr t.leaves * ((1 + 1 / 2 ^ p) ^ (t.depth + 3) / (1 - 1 / 2 ^ p) ^ (t.depth + 6)) := by
  obtain ⟨u0, u1, u2⟩ := unit_bounds p
  have u3 : (0 : ℝ) < 1 - 1 / 2 ^ p := by
    have h2 : (2 : ℝ) ≤ 2 ^ p := by
      calc (2 : ℝ) = 2 ^ 1 := by norm_num
        _ ≤ 2 ^ p := pow_le_pow_right₀ (by norm_num) hp
    have h3 : (1 : ℝ) / 2 ^ p ≤ 1 / 2 := div_le_div_of_nonneg_left (by norm_num) (by norm_num) h2
    linarith
  obtain ⟨m1, m2⟩ := C141_mean p hp t h
  obtain ⟨v1, v2⟩ := C141_variance p hp t
  have hd := centre_distance p hp t h
  have hm : 0 ≤ Spec.mean t.leaves := div_nonneg (List.sum_nonneg h) (Nat.cast_nonneg _)
  unfold Spec.snr
  set m := Spec.mean t.leaves
  set V := Spec.variance t.leaves
  set d := t.depth
  set w : ℝ := 1 - 1 / 2 ^ p
  set W : ℝ := 1 + 1 / 2 ^ p
  set g : ℝ := W ^ (d + 2) - 1
  set s := Real.sqrt V with hs
  have hs0 : 0 < s := Real.sqrt_pos.2 hv
  have hs2 : s ^ 2 = V := Real.sq_sqrt hv.le
  have hg : 0 ≤ g := by
    have : (1 : ℝ) ≤ W ^ (d + 2) := one_le_pow₀ u2
    linarith
  have hw0 : 0 < w ^ (d + 5) := pow_pos u3 _
  have hw1 : w ^ (d + 5) ≤ 1 := pow_le_one₀ u0 u1
  have hW1 : 1 ≤ W ^ (d + 5) := one_le_pow₀ u2
  -- the root from below
  have r1 : s * w ^ (d + 5) ≤ Real.sqrt (varRounded p t) := by
    apply Real.le_sqrt_of_sq_le
    refine le_trans ?_ v1
    rw [mul_pow, hs2]
    have : (w ^ (d + 5)) ^ 2 ≤ w ^ (d + 5) := by nlinarith
    calc V * (w ^ (d + 5)) ^ 2 ≤ V * w ^ (d + 5) := mul_le_mul_of_nonneg_left this hv.le
      _ ≤ _ := mul_le_mul_of_nonneg_right (by nlinarith [sq_nonneg (centreRounded p t - m)]) hw0.le
  -- the root from above
  have hq : (centreRounded p t - m) ^ 2 ≤ (g * m) ^ 2 := by
    rw [← sq_abs (centreRounded p t - m)]
    exact pow_le_pow_left₀ (abs_nonneg _) hd 2
  set R := Real.sqrt (1 + (g * (m / s)) ^ 2) with hR
  have hR0 : 0 < R := Real.sqrt_pos.2 (by positivity)
  have hR2 : (s * R) ^ 2 = V + (g * m) ^ 2 := by
    rw [mul_pow, hs2, hR, Real.sq_sqrt (by positivity), ← hs2]
    field_simp
  have r2 : Real.sqrt (varRounded p t) ≤ s * R * W ^ (d + 5) := by
    rw [Real.sqrt_le_left (by positivity)]
    refine le_trans v2 ?_
    rw [mul_pow, hR2]
    have : W ^ (d + 5) ≤ (W ^ (d + 5)) ^ 2 := by nlinarith
    refine mul_le_mul (by linarith) this (by linarith) (by positivity)
  have f1 := fl_le_mul p (Real.sqrt_nonneg (varRounded p t))
  have f2 := mul_le_fl p (Real.sqrt_nonneg (varRounded p t))
  have q1 : s * w ^ (d + 6) ≤ stdRounded p t := by
    refine le_trans ?_ f2
    rw [show d + 6 = d + 5 + 1 by ring, pow_succ, ← mul_assoc]
    exact mul_le_mul_of_nonneg_right r1 u0
  have q2 : stdRounded p t ≤ s * R * W ^ (d + 6) := by
    refine le_trans f1 ?_
    rw [show d + 6 = d + 5 + 1 by ring, pow_succ, ← mul_assoc]
    exact mul_le_mul_of_nonneg_right r2 (by linarith)
  have q0 : 0 < stdRounded p t := lt_of_lt_of_le (mul_pos hs0 (pow_pos u3 _)) q1
  have mh : 0 ≤ meanRounded p t := le_trans (mul_nonneg hm (pow_nonneg u0 _)) m1
  have hW0 : 0 < W := by linarith
  unfold snrRounded
  rw [if_neg q0.ne']
  have z1 := fl_le_mul p (div_nonneg mh q0.le)
  have z2 := mul_le_fl p (div_nonneg mh q0.le)
  constructor
  · refine le_trans ?_ z2
    have : m * w ^ (d + 2) / (s * R * W ^ (d + 6)) ≤ meanRounded p t / stdRounded p t :=
      div_le_div₀ mh m1 q0 q2
    calc m / s / R * (w ^ (d + 3) / W ^ (d + 6)) = m * w ^ (d + 2) / (s * R * W ^ (d + 6)) * w := by
          rw [show d + 3 = d + 2 + 1 by ring, pow_succ w (d + 2)]
          field_simp
      _ ≤ _ := mul_le_mul_of_nonneg_right this u0
  · refine le_trans z1 ?_
    have : meanRounded p t / stdRounded p t ≤ m * W ^ (d + 2) / (s * w ^ (d + 6)) :=
      div_le_div₀ (by positivity) m2 (mul_pos hs0 (pow_pos u3 _)) q1
    calc meanRounded p t / stdRounded p t * W ≤ m * W ^ (d + 2) / (s * w ^ (d + 6)) * W :=
          mul_le_mul_of_nonneg_right this hW0.le
      _ = m / s * (W ^ (d + 3) / w ^ (d + 6)) := by
          rw [show d + 3 = d + 2 + 1 by ring, pow_succ W (d + 2)]
          have : w ≠ 0 := u3.ne'
          field_simp

/-- Powers of numbers close to one. -/
theorem pow_near_one (k : ℕ) (hk : k ≤ 2 ^ 21) :
    1 - 1 / 2 ^ 32 ≤ (1 - 1 / 2 ^ 53 : ℝ) ^ k ∧ (1 + 1 / 2 ^ 53 : ℝ) ^ k ≤ 1 + 1 / 2 ^ 31 := by
  have hk' : (k : ℝ) ≤ 2 ^ 21 := by exact_mod_cast hk
  have h1 := one_add_mul_le_pow (a := -(1 / 2 ^ 53 : ℝ)) (by norm_num) k
  rw [← sub_eq_add_neg] at h1
  have h2 : 1 - 1 / 2 ^ 32 ≤ (1 - 1 / 2 ^ 53 : ℝ) ^ k := by
    refine le_trans ?_ h1
    nlinarith [mul_le_mul_of_nonneg_right hk' (show (0 : ℝ) ≤ 1 / 2 ^ 53 by norm_num)]
  refine ⟨h2, ?_⟩
  have h3 : (1 + 1 / 2 ^ 53 : ℝ) ^ k * (1 - 1 / 2 ^ 53) ^ k ≤ 1 := by
    rw [← mul_pow]
    exact pow_le_one₀ (by norm_num) (by norm_num)
  have h4 : (0 : ℝ) ≤ (1 + 1 / 2 ^ 53 : ℝ) ^ k := by positivity
  by_contra h
  rw [not_le] at h
  have := mul_le_mul h.le h2 (by norm_num) h4
  norm_num at this h3
  linarith

/-- **C141**, with numbers: the SNR of a region of up to a million float64 values, at most 65536, is computed to
eight digits in every order of summation. -/
theorem C141_snr_digits (t : Summation) (h : ∀ v ∈ t.leaves, 0 ≤ v) (hv : 0 < Spec.variance t.leaves)
    (hn : t.size ≤ 2 ^ 20) (hs : Spec.snr t.leaves ≤ 2 ^ 16) :
    |snrRounded 53 t - Spec.snr t.leaves| ≤ Spec.snr t.leaves / 2 ^ 28 := by
  have hd : t.depth + 6 ≤ 2 ^ 21 := by
    have := t.depth_lt_size
    omega
  obtain ⟨l, u⟩ := C141_snr 53 (by norm_num) t h hv
  obtain ⟨a1, a2⟩ := pow_near_one (t.depth + 6) hd
  obtain ⟨b1, b2⟩ := pow_near_one (t.depth + 3) (by omega)
  obtain ⟨c1, c2⟩ := pow_near_one (t.depth + 2) (by omega)
  have hm : 0 ≤ Spec.mean t.leaves := div_nonneg (List.sum_nonneg h) (Nat.cast_nonneg _)
  have hs0 : 0 ≤ Spec.snr t.leaves := div_nonneg hm (Real.sqrt_nonneg _)
  have hc : (1 : ℝ) ≤ (1 + 1 / 2 ^ 53) ^ (t.depth + 2) := one_le_pow₀ (by norm_num)
  set S := Spec.snr t.leaves
  set A := (1 - 1 / 2 ^ 53 : ℝ) ^ (t.depth + 6)
  set B := (1 + 1 / 2 ^ 53 : ℝ) ^ (t.depth + 6)
  set A' := (1 - 1 / 2 ^ 53 : ℝ) ^ (t.depth + 3)
  set B' := (1 + 1 / 2 ^ 53 : ℝ) ^ (t.depth + 3)
  have hg0 : (0 : ℝ) ≤ (1 + 1 / 2 ^ 53) ^ (t.depth + 2) - 1 := by linarith
  have hg1 : (1 + 1 / 2 ^ 53 : ℝ) ^ (t.depth + 2) - 1 ≤ 1 / 2 ^ 31 := by linarith
  set g := (1 + 1 / 2 ^ 53 : ℝ) ^ (t.depth + 2) - 1
  have hR : Real.sqrt (1 + (g * S) ^ 2) ≤ 1 + 1 / 2 ^ 30 := by
    rw [Real.sqrt_le_left (by norm_num)]
    have h1 : g * S ≤ 1 / 2 ^ 31 * 2 ^ 16 := mul_le_mul hg1 hs hs0 (by norm_num)
    have h0 : 0 ≤ g * S := mul_nonneg hg0 hs0
    have h2 := mul_le_mul h1 h1 h0 (by norm_num)
    norm_num at h2 ⊢
    nlinarith
  have hR0 : 0 < Real.sqrt (1 + (g * S) ^ 2) := Real.sqrt_pos.2 (by positivity)
  have hA0 : (0 : ℝ) < A := lt_of_lt_of_le (by norm_num) a1
  have hB0 : (0 : ℝ) < B := by positivity
  rw [abs_le]
  constructor
  · have h1 : (1 - 1 / 2 ^ 32) / (1 + 1 / 2 ^ 31) ≤ A' / B := div_le_div₀ (by positivity) b1 hB0 a2
    have h2 : S / (1 + 1 / 2 ^ 30) ≤ S / Real.sqrt (1 + (g * S) ^ 2) := div_le_div_of_nonneg_left hs0 hR0 hR
    have h3 : S / (1 + 1 / 2 ^ 30) * ((1 - 1 / 2 ^ 32) / (1 + 1 / 2 ^ 31)) ≤ snrRounded 53 t :=
      le_trans (mul_le_mul h2 h1 (by norm_num) (by positivity)) l
    have h4 : S * (1 - 1 / 2 ^ 28) ≤ S / (1 + 1 / 2 ^ 30) * ((1 - 1 / 2 ^ 32) / (1 + 1 / 2 ^ 31)) := by
      rw [div_mul_eq_mul_div, mul_div_assoc]
      exact mul_le_mul_of_nonneg_left (by norm_num) hs0
    have e : S * (1 - 1 / 2 ^ 28) = S - S / 2 ^ 28 := by ring
    linarith
  · have h1 : B' / A ≤ (1 + 1 / 2 ^ 31) / (1 - 1 / 2 ^ 32) := div_le_div₀ (by norm_num) b2 (by norm_num) a1
    have h2 : S * (B' / A) ≤ S * (1 + 1 / 2 ^ 28) := mul_le_mul_of_nonneg_left (h1.trans (by norm_num)) hs0
    have e : S * (1 + 1 / 2 ^ 28) = S + S / 2 ^ 28 := by ring
    linarith

/-- The computed standard deviation. -/
theorem std_near (t : Summation) (h : ∀ v ∈ t.leaves, 0 ≤ v) (hv : 0 < Spec.variance t.leaves)
    (hn : t.size ≤ 2 ^ 20) (hs : Spec.snr t.leaves ≤ 2 ^ 16) :
    Real.sqrt (Spec.variance t.leaves) * (1 - 1 / 2 ^ 31) ≤ stdRounded 53 t ∧
      stdRounded 53 t ≤ Real.sqrt (Spec.variance t.leaves) * (1 + 1 / 2 ^ 29) := by
  have hd : t.depth + 6 ≤ 2 ^ 21 := by
    have := t.depth_lt_size
    omega
  obtain ⟨v1, v2⟩ := C141_variance 53 (by norm_num) t
  have hm := centre_distance 53 (by norm_num) t h
  obtain ⟨a1, a2⟩ := pow_near_one (t.depth + 5) (by omega)
  obtain ⟨c1, c2⟩ := pow_near_one (t.depth + 2) (by omega)
  have hm0 : 0 ≤ Spec.mean t.leaves := div_nonneg (List.sum_nonneg h) (Nat.cast_nonneg _)
  have hc : (1 : ℝ) ≤ (1 + 1 / 2 ^ 53) ^ (t.depth + 2) := one_le_pow₀ (by norm_num)
  have hg0 : (0 : ℝ) ≤ (1 + 1 / 2 ^ 53) ^ (t.depth + 2) - 1 := by linarith
  have hg1 : (1 + 1 / 2 ^ 53 : ℝ) ^ (t.depth + 2) - 1 ≤ 1 / 2 ^ 31 := by linarith
  unfold Spec.snr at hs
  have hs0 : 0 < Real.sqrt (Spec.variance t.leaves) := Real.sqrt_pos.2 hv
  have hs2 : Real.sqrt (Spec.variance t.leaves) ^ 2 = Spec.variance t.leaves := Real.sq_sqrt hv.le
  rw [div_le_iff₀ hs0] at hs
  set s := Real.sqrt (Spec.variance t.leaves)
  set m := Spec.mean t.leaves
  set g := (1 + 1 / 2 ^ 53 : ℝ) ^ (t.depth + 2) - 1
  have e1 : |centreRounded 53 t - m| ≤ 1 / 2 ^ 15 * s := by
    refine hm.trans ?_
    calc g * m ≤ 1 / 2 ^ 31 * (2 ^ 16 * s) := mul_le_mul hg1 hs hm0 (by norm_num)
      _ = 1 / 2 ^ 15 * s := by ring
  have e2 : (centreRounded 53 t - m) ^ 2 ≤ 1 / 2 ^ 30 * s ^ 2 := by
    rw [← sq_abs]
    calc |centreRounded 53 t - m| ^ 2 ≤ (1 / 2 ^ 15 * s) ^ 2 := pow_le_pow_left₀ (abs_nonneg _) e1 2
      _ = _ := by ring
  rw [← hs2] at v1 v2
  have r1 : s * (1 - 1 / 2 ^ 32) ≤ Real.sqrt (varRounded 53 t) := by
    apply Real.le_sqrt_of_sq_le
    refine le_trans ?_ v1
    calc (s * (1 - 1 / 2 ^ 32)) ^ 2 = s ^ 2 * (1 - 1 / 2 ^ 32) ^ 2 := by ring
      _ ≤ (s ^ 2 + (centreRounded 53 t - m) ^ 2) * (1 - 1 / 2 ^ 32) := by
          nlinarith [sq_nonneg s, sq_nonneg (centreRounded 53 t - m)]
      _ ≤ _ := mul_le_mul_of_nonneg_left a1 (by positivity)
  have r2 : Real.sqrt (varRounded 53 t) ≤ s * (1 + 1 / 2 ^ 30 + 1 / 2 ^ 32) := by
    rw [Real.sqrt_le_left (by positivity)]
    refine le_trans v2 ?_
    calc (s ^ 2 + (centreRounded 53 t - m) ^ 2) * (1 + 1 / 2 ^ 53) ^ (t.depth + 5) ≤
          (s ^ 2 + 1 / 2 ^ 30 * s ^ 2) * (1 + 1 / 2 ^ 31) :=
          mul_le_mul (by linarith) a2 (by positivity) (by positivity)
      _ = s ^ 2 * ((1 + 1 / 2 ^ 30) * (1 + 1 / 2 ^ 31)) := by ring
      _ ≤ s ^ 2 * (1 + 1 / 2 ^ 30 + 1 / 2 ^ 32) ^ 2 := mul_le_mul_of_nonneg_left (by norm_num) (by positivity)
      _ = _ := by ring
  have f1 := fl_le_mul 53 (Real.sqrt_nonneg (varRounded 53 t))
  have f2 := mul_le_fl 53 (Real.sqrt_nonneg (varRounded 53 t))
  constructor
  · refine le_trans ?_ f2
    calc s * (1 - 1 / 2 ^ 31) ≤ s * ((1 - 1 / 2 ^ 32) * (1 - 1 / 2 ^ 53)) :=
          mul_le_mul_of_nonneg_left (by norm_num) hs0.le
      _ = s * (1 - 1 / 2 ^ 32) * (1 - 1 / 2 ^ 53) := by ring
      _ ≤ _ := mul_le_mul_of_nonneg_right r1 (by norm_num)
  · refine le_trans f1 ?_
    calc Real.sqrt (varRounded 53 t) * (1 + 1 / 2 ^ 53) ≤ s * (1 + 1 / 2 ^ 30 + 1 / 2 ^ 32) * (1 + 1 / 2 ^ 53) :=
          mul_le_mul_of_nonneg_right r2 (by norm_num)
      _ = s * ((1 + 1 / 2 ^ 30 + 1 / 2 ^ 32) * (1 + 1 / 2 ^ 53)) := by ring
      _ ≤ s * (1 + 1 / 2 ^ 29) := mul_le_mul_of_nonneg_left (by norm_num) hs0.le

/-- The contrast to noise ratio. -/
noncomputable def Spec.cnr (signal background : List ℝ) : ℝ :=
  (Spec.mean signal - Spec.mean background) / Real.sqrt (Spec.variance background)

/-- **C141.** The computed CNR: the error is relative to the means, not to their difference, as the means are
computed before they are subtracted. -/
theorem C141_cnr_digits (signal background : Summation) (hs : ∀ v ∈ signal.leaves, 0 ≤ v)
    (hb : ∀ v ∈ background.leaves, 0 ≤ v) (hv : 0 < Spec.variance background.leaves)
    (ns : signal.size ≤ 2 ^ 20) (nb : background.size ≤ 2 ^ 20) (hq : Spec.snr background.leaves ≤ 2 ^ 16) :
    |cnrRounded 53 signal background - Spec.cnr signal.leaves background.leaves| ≤
      (Spec.mean signal.leaves + Spec.mean background.leaves) / Real.sqrt (Spec.variance background.leaves) / 2 ^ 28 := by
  obtain ⟨s1, s2⟩ := std_near background hb hv nb hq
  have ms := mean_distance 53 (by norm_num) signal hs
  have mb := mean_distance 53 (by norm_num) background hb
  have ds := signal.depth_lt_size
  have db := background.depth_lt_size
  obtain ⟨_, cs⟩ := pow_near_one (signal.depth + 2) (by omega)
  obtain ⟨_, cb⟩ := pow_near_one (background.depth + 2) (by omega)
  have p1 : 0 ≤ Spec.mean signal.leaves := div_nonneg (List.sum_nonneg hs) (Nat.cast_nonneg _)
  have p2 : 0 ≤ Spec.mean background.leaves := div_nonneg (List.sum_nonneg hb) (Nat.cast_nonneg _)
  have p0 : 0 < Real.sqrt (Spec.variance background.leaves) := Real.sqrt_pos.2 hv
  unfold Spec.cnr cnrRounded
  set S := Real.sqrt (Spec.variance background.leaves)
  set m := Spec.mean signal.leaves
  set n := Spec.mean background.leaves
  set m' := meanRounded 53 signal
  set n' := meanRounded 53 background
  set T := stdRounded 53 background
  have ms' : |m' - m| ≤ 1 / 2 ^ 31 * m := ms.trans (mul_le_mul_of_nonneg_right (by linarith) p1)
  have mb' : |n' - n| ≤ 1 / 2 ^ 31 * n := mb.trans (mul_le_mul_of_nonneg_right (by linarith) p2)
  have hT : 0 < T := lt_of_lt_of_le (mul_pos p0 (by norm_num)) s1
  rw [if_neg hT.ne']
  have d1 : |m' - n' - (m - n)| ≤ 1 / 2 ^ 31 * (m + n) := by
    calc |m' - n' - (m - n)| = |(m' - m) - (n' - n)| := by ring_nf
      _ ≤ |m' - m| + |n' - n| := abs_sub _ _
      _ ≤ _ := by linarith
  have dmn : |m - n| ≤ m + n := by
    rw [abs_le]
    constructor <;> linarith
  have d2 : |m' - n'| ≤ 2 * (m + n) := by
    calc |m' - n'| = |(m' - n' - (m - n)) + (m - n)| := by ring_nf
      _ ≤ |m' - n' - (m - n)| + |m - n| := abs_add_le _ _
      _ ≤ _ := by nlinarith
  have e1 := fl_error 53 (m' - n')
  set D := fl 53 (m' - n')
  have d3 : |D - (m - n)| ≤ 1 / 2 ^ 30 * (m + n) := by
    calc |D - (m - n)| = |(D - (m' - n')) + (m' - n' - (m - n))| := by ring_nf
      _ ≤ |D - (m' - n')| + |m' - n' - (m - n)| := abs_add_le _ _
      _ ≤ _ := by nlinarith
  have d4 : |D / T - (m - n) / S| ≤ (m + n) / S * (1 / 2 ^ 30 * (1 + 1 / 2 ^ 30) + 1 / 2 ^ 29) := by
    have hST : |S / T - 1| ≤ 1 / 2 ^ 29 := by
      rw [div_sub_one hT.ne', abs_div, abs_of_pos hT, div_le_iff₀ hT, abs_le]
      constructor <;> nlinarith
    have hST1 : S / T ≤ 1 + 1 / 2 ^ 30 := by
      rw [div_le_iff₀ hT]
      nlinarith
    have hST0 : 0 ≤ S / T := by positivity
    have e : D / T - (m - n) / S = ((D - (m - n)) * (S / T) + (m - n) * (S / T - 1)) / S := by
      field_simp
      ring
    rw [e, abs_div, abs_of_pos p0, div_mul_eq_mul_div]
    apply div_le_div_of_nonneg_right _ p0.le
    calc |(D - (m - n)) * (S / T) + (m - n) * (S / T - 1)| ≤ |D - (m - n)| * (S / T) + |m - n| * |S / T - 1| := by
          refine (abs_add_le _ _).trans ?_
          rw [abs_mul, abs_mul, abs_of_nonneg hST0]
      _ ≤ 1 / 2 ^ 30 * (m + n) * (1 + 1 / 2 ^ 30) + (m + n) * (1 / 2 ^ 29) :=
          add_le_add (mul_le_mul d3 hST1 hST0 (by positivity)) (mul_le_mul dmn hST (abs_nonneg _) (by positivity))
      _ = _ := by ring
  have hK : 0 ≤ (m + n) / S := by positivity
  have hC : |(m - n) / S| ≤ (m + n) / S := by
    rw [abs_div, abs_of_pos p0]
    exact div_le_div_of_nonneg_right dmn p0.le
  have d5 : |D / T| ≤ 2 * ((m + n) / S) := by
    calc |D / T| = |(D / T - (m - n) / S) + (m - n) / S| := by ring_nf
      _ ≤ |D / T - (m - n) / S| + |(m - n) / S| := abs_add_le _ _
      _ ≤ _ := by nlinarith
  have e2 := fl_error 53 (D / T)
  calc |fl 53 (D / T) - (m - n) / S| = |(fl 53 (D / T) - D / T) + (D / T - (m - n) / S)| := by ring_nf
    _ ≤ |fl 53 (D / T) - D / T| + |D / T - (m - n) / S| := abs_add_le _ _
    _ ≤ (m + n) / S / 2 ^ 28 := by nlinarith

/-- Two pixels, 2 and 4: the mean is 3 and the deviation 1. -/
example : |snrRounded 53 (.node (.leaf 2) (.leaf 4)) - 3| ≤ 3 / 2 ^ 28 := by
  have hm : Spec.mean [2, 4] = 3 := by unfold Spec.mean; norm_num
  have hv : Spec.variance [2, 4] = 1 := by unfold Spec.variance; rw [hm]; norm_num
  have hs : Spec.snr [2, 4] = 3 := by unfold Spec.snr; rw [hm, hv]; simp
  have := C141_snr_digits (.node (.leaf 2) (.leaf 4)) (by simp [leaves]) (by simp [leaves, hv]) (by simp [size, leaves])
    (by simp only [leaves, List.cons_append, List.nil_append]; rw [hs]; norm_num)
  simpa only [leaves, List.cons_append, List.nil_append, hs] using this

/-- A flat region of the value 10 against the background 2 and 4. -/
example : |cnrRounded 53 (.node (.leaf 10) (.leaf 10)) (.node (.leaf 2) (.leaf 4)) - 7| ≤ 13 / 2 ^ 28 := by
  have hm : Spec.mean [2, 4] = 3 := by unfold Spec.mean; norm_num
  have hn : Spec.mean [10, 10] = 10 := by unfold Spec.mean; norm_num
  have hv : Spec.variance [2, 4] = 1 := by unfold Spec.variance; rw [hm]; norm_num
  have hs : Spec.snr [2, 4] = 3 := by unfold Spec.snr; rw [hm, hv]; simp
  have hc : Spec.cnr [10, 10] [2, 4] = 7 := by unfold Spec.cnr; rw [hm, hn, hv]; norm_num
  have := C141_cnr_digits (.node (.leaf 10) (.leaf 10)) (.node (.leaf 2) (.leaf 4)) (by simp [leaves]) (by simp [leaves])
    (by simp [leaves, hv]) (by simp [size, leaves]) (by simp [size, leaves])
    (by simp only [leaves, List.cons_append, List.nil_append]; rw [hs]; norm_num)
  simp only [leaves, List.cons_append, List.nil_append, hc, hm, hn, hv, Real.sqrt_one, div_one] at this
  norm_num at this ⊢
  exact this

/-- Means and variances of two pixels. -/
example : 3 * (1 - 1 / 2 ^ 53) ^ 3 ≤ meanRounded 53 (.node (.leaf 2) (.leaf 4)) := by
  have hm : Spec.mean [2, 4] = 3 := by unfold Spec.mean; norm_num
  have := (C141_mean 53 (by norm_num) (.node (.leaf 2) (.leaf 4)) (by simp [leaves])).1
  simpa only [leaves, List.cons_append, List.nil_append, hm, depth, max_self, zero_add, Nat.reduceAdd] using this

example : (1 + (centreRounded 53 (.node (.leaf 2) (.leaf 4)) - 3) ^ 2) * (1 - 1 / 2 ^ 53) ^ 6 ≤ varRounded 53 (.node (.leaf 2) (.leaf 4)) := by
  have hm : Spec.mean [2, 4] = 3 := by unfold Spec.mean; norm_num
  have hv : Spec.variance [2, 4] = 1 := by unfold Spec.variance; rw [hm]; norm_num
  have := (C141_variance 53 (by norm_num) (.node (.leaf 2) (.leaf 4))).1
  simpa only [leaves, List.cons_append, List.nil_append, hm, hv, depth, max_self, zero_add, Nat.reduceAdd] using this

end Viqa
