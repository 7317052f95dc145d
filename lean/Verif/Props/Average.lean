import Verif.Props.DataRange
import Mathlib.Algebra.BigOperators.Fin
import Mathlib.Algebra.Order.BigOperators.Ring.Finset

/-! C188: scores of averaged images. -/

namespace Viqa

/-- Weighted sum of images of the same shape. -/
noncomputable def Spec.blend {n : Nat} (w : Fin n → ℝ) (s : List Nat) (ys : Fin n → NDArray ℝ) : NDArray ℝ :=
  ⟨s, fun i => ∑ k, w k * (ys k).get i⟩

/-- Average of `n` images. -/
noncomputable def Spec.average {n : Nat} (s : List Nat) (ys : Fin n → NDArray ℝ) : NDArray ℝ :=
  ⟨s, fun i => (∑ k, (ys k).get i) / n⟩

theorem average_blend {n : Nat} (s : List Nat) (ys : Fin n → NDArray ℝ) : Spec.average s ys = Spec.blend (fun _ => 1 / (n : ℝ)) s ys := by
  unfold Spec.average Spec.blend
  congr 1
  funext i
  rw [← Finset.mul_sum]
  ring

theorem minkowski_sum {ι κ : Type} (l : List ι) (s : Finset κ) (w : κ → ℝ) (hw : ∀ k ∈ s, 0 ≤ w k) (e : κ → ι → ℝ) :
    Real.sqrt ((l.map (fun i => (∑ k ∈ s, w k * e k i) ^ 2)).sum) ≤ ∑ k ∈ s, w k * Real.sqrt ((l.map (fun i => e k i ^ 2)).sum) := by
  classical
  induction s using Finset.induction_on with
  | empty => simp
  | insert a s ha ih =>
    have h := minkowski l (fun i => w a * e a i) (fun i => ∑ k ∈ s, w k * e k i)
    have hsq : Real.sqrt ((l.map (fun i => (w a * e a i) ^ 2)).sum) = w a * Real.sqrt ((l.map (fun i => e a i ^ 2)).sum) := by
      have : (fun i => (w a * e a i) ^ 2) = fun i => w a ^ 2 * e a i ^ 2 := by funext i; ring
      rw [this, sum_map_mul, Real.sqrt_mul (sq_nonneg _), Real.sqrt_sq (hw a (by simp))]
    have ih' := ih (fun k hk => hw k (by simp [hk]))
    simp only [Finset.sum_insert ha]
    rw [hsq] at h
    linarith

/-- **C188.** The RMSE of a weighted average of images is at most the weighted average of their RMSE; so it is not greater than the
greatest of them. -/
theorem C188_rmse {n : Nat} (w : Fin n → ℝ) (hw : ∀ k, 0 ≤ w k) (h1 : ∑ k, w k = 1) (x : NDArray ℝ) (hx : x.size ≠ 0)
    (ys : Fin n → NDArray ℝ) (hs : ∀ k, (ys k).shape = x.shape) (r : Fin n → ℝ) (hr : ∀ k, rmse x (ys k) = .ok (r k)) :
    ∃ v, rmse x (Spec.blend w x.shape ys) = .ok v ∧ v ≤ ∑ k, w k * r k ∧ ∀ R, (∀ k, r k ≤ R) → v ≤ R := by
  have hc : Comparable x (Spec.blend w x.shape ys) := ⟨rfl, hx⟩
  have key : Real.sqrt (((indices x.shape).map (fun i => (x.get i - (Spec.blend w x.shape ys).get i) ^ 2)).sum / x.size) ≤ ∑ k, w k * r k := by
    have he : (fun i => (x.get i - (Spec.blend w x.shape ys).get i) ^ 2) = fun i => (∑ k, w k * (x.get i - (ys k).get i)) ^ 2 := by
      funext i
      congr 1
      simp only [Spec.blend, mul_sub, Finset.sum_sub_distrib, ← Finset.sum_mul, h1, one_mul]
    have hrk : ∀ k, r k = Real.sqrt ((indices x.shape).map (fun i => (x.get i - (ys k).get i) ^ 2)).sum / Real.sqrt x.size := by
      intro k
      have := hr k
      rw [rmse_eq ⟨(hs k).symm, hx⟩] at this
      rw [← Except.ok.inj this, Real.sqrt_div' _ (Nat.cast_nonneg _)]
    rw [he, Real.sqrt_div' _ (Nat.cast_nonneg _)]
    simp only [hrk, ← mul_div_assoc]
    rw [← Finset.sum_div]
    exact div_le_div_of_nonneg_right (minkowski_sum _ Finset.univ w (fun k _ => hw k) _) (Real.sqrt_nonneg _)
  refine ⟨_, rmse_eq hc, key, fun R hR => key.trans ?_⟩
  calc ∑ k, w k * r k ≤ ∑ k, w k * R := Finset.sum_le_sum (fun k _ => mul_le_mul_of_nonneg_left (hR k) (hw k))
    _ = R := by rw [← Finset.sum_mul, h1, one_mul]

/-- PSNR at least `P`. -/
def Spec.PsnrAtLeast (P : ℝ) (v : Py Psnr) : Prop := v = .ok .infinite ∨ ∃ p, v = .ok (.finite p) ∧ P ≤ p

theorem psnr_atLeast (d P : ℝ) (hd : d ≠ 0) (x y : NDArray ℝ) (h : Comparable x y) (r : ℝ) (hr : rmse x y = .ok r) :
    Spec.PsnrAtLeast P (psnr d x y) ↔ r ≤ |d| * (10 : ℝ) ^ (-P / 20) := by
  have hda : 0 < |d| := abs_pos.2 hd
  have hpow : (0 : ℝ) < (10 : ℝ) ^ (-P / 20) := Real.rpow_pos_of_pos (by norm_num) _
  by_cases hsame : x.Same y
  · have h0 := (C28_zero_iff x y h).2 hsame
    rw [h0] at hr
    cases hr
    exact iff_of_true (.inl ((C29_infinite_iff d x y).2 hsame)) (by positivity)
  · obtain ⟨s, hs, hs0, hps⟩ := C29_formula d x y h hsame hd
    rw [hs] at hr
    have hrs := Except.ok.inj hr
    subst hrs
    have e : Spec.PsnrAtLeast P (psnr d x y) ↔ P ≤ 20 * Real.logb 10 (|d| / s) := by
      rw [hps]
      constructor
      · rintro (h | ⟨p, hp, hP⟩)
        · cases h
        · cases hp
          exact hP
      · exact fun h => .inr ⟨_, rfl, h⟩
    have e2 : P ≤ 20 * Real.logb 10 (|d| / s) ↔ P / 20 ≤ Real.logb 10 (|d| / s) := by
      constructor <;> intro h <;> linarith
    rw [e, e2, Real.le_logb_iff_rpow_le (by norm_num) (by positivity), le_div_iff₀ hs0, neg_div, Real.rpow_neg (by norm_num)]
    have hq : (0 : ℝ) < (10 : ℝ) ^ (P / 20) := Real.rpow_pos_of_pos (by norm_num) _
    rw [← div_eq_mul_inv, le_div_iff₀ hq, mul_comm]

/-- **C188.** The PSNR of a weighted average of images is at least the lowest of theirs. -/
theorem C188_psnr {n : Nat} (w : Fin n → ℝ) (hw : ∀ k, 0 ≤ w k) (h1 : ∑ k, w k = 1) (d : ℝ) (hd : d ≠ 0) (x : NDArray ℝ) (hx : x.size ≠ 0)
    (ys : Fin n → NDArray ℝ) (hs : ∀ k, (ys k).shape = x.shape) (P : ℝ) (hP : ∀ k, Spec.PsnrAtLeast P (psnr d x (ys k))) :
    Spec.PsnrAtLeast P (psnr d x (Spec.blend w x.shape ys)) := by
  have hex : ∀ k, ∃ r, rmse x (ys k) = .ok r := fun k => ⟨_, rmse_eq ⟨(hs k).symm, hx⟩⟩
  choose r hr using hex
  obtain ⟨v, hv, -, hmax⟩ := C188_rmse w hw h1 x hx ys hs r hr
  rw [psnr_atLeast d P hd x (Spec.blend w x.shape ys) ⟨rfl, hx⟩ v hv]
  exact hmax _ (fun k => (psnr_atLeast d P hd x _ ⟨(hs k).symm, hx⟩ (r k) (hr k)).1 (hP k))

theorem sum_square_uncorrelated {ι : Type} {n : Nat} (l : List ι) (e : Fin n → ι → ℝ) (h : ∀ j k, j ≠ k → (l.map (fun i => e j i * e k i)).sum = 0) :
    (l.map (fun i => (∑ k, e k i) ^ 2)).sum = ∑ k, (l.map (fun i => e k i ^ 2)).sum := by
  have hsum : ∀ (f : Fin n → ι → ℝ), (l.map (fun i => ∑ k, f k i)).sum = ∑ k, (l.map (f k)).sum := by
    intro f
    induction l with
    | nil => simp
    | cons a l ih =>
      have ih' : (l.map (fun i => ∑ k, f k i)).sum = ∑ k, (l.map (f k)).sum := by
        clear ih h
        induction l with
        | nil => simp
        | cons b l ih2 => simp only [List.map_cons, List.sum_cons, Finset.sum_add_distrib, ih2]
      simp only [List.map_cons, List.sum_cons, Finset.sum_add_distrib, ih']
  have he : (fun i => (∑ k, e k i) ^ 2) = fun i => ∑ j, ∑ k, e j i * e k i := by
    funext i
    rw [sq, Finset.sum_mul_sum]
  rw [he, hsum (fun j i => ∑ k, e j i * e k i)]
  refine Finset.sum_congr rfl (fun j _ => ?_)
  rw [hsum (fun k i => e j i * e k i), Finset.sum_eq_single j (fun k _ hk => h j k hk.symm) (by simp)]
  exact sum_congr _ _ _ (fun i _ => by ring)

/-- **C188.** The average of `n` images whose errors are not correlated: the squares of the RMSE add up to `n²` times the square of the
RMSE of the average. -/
theorem C188_uncorrelated {n : Nat} (hn : n ≠ 0) (x : NDArray ℝ) (hx : x.size ≠ 0) (ys : Fin n → NDArray ℝ) (hs : ∀ k, (ys k).shape = x.shape)
    (hu : ∀ j k, j ≠ k → ((indices x.shape).map (fun i => (x.get i - (ys j).get i) * (x.get i - (ys k).get i))).sum = 0)
    (r : Fin n → ℝ) (hr : ∀ k, rmse x (ys k) = .ok (r k)) :
    rmse x (Spec.average x.shape ys) = .ok (Real.sqrt (∑ k, r k ^ 2) / n) := by
  have hn' : (n : ℝ) ≠ 0 := by exact_mod_cast hn
  have hrk : ∀ k, r k ^ 2 = ((indices x.shape).map (fun i => (x.get i - (ys k).get i) ^ 2)).sum / x.size := by
    intro k
    have := hr k
    rw [rmse_eq ⟨(hs k).symm, hx⟩] at this
    rw [← Except.ok.inj this, Real.sq_sqrt (mse_nonneg x (ys k))]
  rw [rmse_eq (show Comparable x (Spec.average x.shape ys) from ⟨rfl, hx⟩), Except.ok.injEq]
  have he : (fun i => (x.get i - (Spec.average x.shape ys).get i) ^ 2) = fun i => (1 / (n : ℝ) ^ 2) * (∑ k, (x.get i - (ys k).get i)) ^ 2 := by
    funext i
    simp only [Spec.average, Finset.sum_sub_distrib, Finset.sum_const, Finset.card_univ, Fintype.card_fin, nsmul_eq_mul]
    field_simp
  rw [he, sum_map_mul, sum_square_uncorrelated _ (fun k i => x.get i - (ys k).get i) hu]
  simp only [hrk]
  rw [← Finset.sum_div, mul_div_assoc, Real.sqrt_mul (by positivity), Real.sqrt_div zero_le_one, Real.sqrt_one, Real.sqrt_sq (Nat.cast_nonneg _)]
  ring

/-- **C188.** Averaging `n` images of the same PSNR whose errors are not correlated adds `10 log10 n` dB. -/
theorem C188_gain {n : Nat} (hn : n ≠ 0) (d : ℝ) (hd : d ≠ 0) (x : NDArray ℝ) (hx : x.size ≠ 0) (ys : Fin n → NDArray ℝ) (hs : ∀ k, (ys k).shape = x.shape)
    (hu : ∀ j k, j ≠ k → ((indices x.shape).map (fun i => (x.get i - (ys j).get i) * (x.get i - (ys k).get i))).sum = 0)
    (p : ℝ) (hp : ∀ k, psnr d x (ys k) = .ok (.finite p)) :
    psnr d x (Spec.average x.shape ys) = .ok (.finite (p + 10 * Real.logb 10 n)) := by
  have hda : 0 < |d| := abs_pos.2 hd
  have hn0 : (0 : ℝ) < n := by exact_mod_cast Nat.pos_of_ne_zero hn
  have hdiff : ∀ k, ¬ x.Same (ys k) := fun k h => by
    have := hp k
    rw [(C29_infinite_iff d x (ys k)).2 h] at this
    cases this
  have hform : ∀ k, ∃ s, rmse x (ys k) = .ok s ∧ 0 < s ∧ psnr d x (ys k) = .ok (.finite (20 * Real.logb 10 (|d| / s))) := fun k =>
    C29_formula d x (ys k) ⟨(hs k).symm, hx⟩ (hdiff k) hd
  choose r hr hr0 hpr using hform
  have hk0 : Fin n := ⟨0, Nat.pos_of_ne_zero hn⟩
  have heq : ∀ k, r k = r hk0 := by
    intro k
    have h1 := (hpr k).symm.trans (hp k)
    have h2 := (hpr hk0).symm.trans (hp hk0)
    simp only [Except.ok.injEq, Psnr.finite.injEq] at h1 h2
    have h3 : Real.logb 10 (|d| / r k) = Real.logb 10 (|d| / r hk0) := by linarith
    have h4 := Real.logb_injOn_pos (by norm_num : (1 : ℝ) < 10) (Set.mem_Ioi.2 (div_pos hda (hr0 k))) (Set.mem_Ioi.2 (div_pos hda (hr0 hk0))) h3
    have := hr0 k; have := hr0 hk0
    field_simp at h4
    exact h4.symm
  have hv := C188_uncorrelated hn x hx ys hs hu r hr
  have hval : Real.sqrt (∑ k, r k ^ 2) / n = r hk0 / Real.sqrt n := by
    simp only [heq, Finset.sum_const, Finset.card_univ, Fintype.card_fin, nsmul_eq_mul]
    rw [Real.sqrt_mul hn0.le, Real.sqrt_sq (hr0 hk0).le]
    have hq : Real.sqrt n * Real.sqrt n = n := Real.mul_self_sqrt hn0.le
    have hq0 : 0 < Real.sqrt n := Real.sqrt_pos.2 hn0
    rw [div_eq_div_iff hn0.ne' hq0.ne']
    linear_combination r hk0 * hq
  rw [hval] at hv
  have hq0 : 0 < Real.sqrt n := Real.sqrt_pos.2 hn0
  have hne : ¬ x.Same (Spec.average x.shape ys) := by
    intro h
    have h0 := (C28_zero_iff x (Spec.average x.shape ys) ⟨rfl, hx⟩).2 h
    rw [h0] at hv
    simp only [Except.ok.injEq] at hv
    exact (div_pos (hr0 hk0) hq0).ne hv
  obtain ⟨s, hs', -, hps⟩ := C29_formula d x (Spec.average x.shape ys) ⟨rfl, hx⟩ hne hd
  rw [hv] at hs'
  cases hs'
  rw [hps]
  have h2 := (hpr hk0).symm.trans (hp hk0)
  simp only [Except.ok.injEq, Psnr.finite.injEq] at h2
  have hsplit : |d| / (r hk0 / Real.sqrt n) = |d| / r hk0 * Real.sqrt n := by
    have := hr0 hk0
    field_simp
  rw [hsplit, Real.logb_mul (div_pos hda (hr0 hk0)).ne' hq0.ne', mul_add, h2, Real.sqrt_eq_rpow, Real.logb_rpow_eq_mul_logb_of_pos hn0]
  congr 3
  ring

/-! ### SSIM -/

/-- A row of four gray values, two windows. -/
theorem ssim_four (big dr k1 k2 : ℝ) (h1 : 0 ≤ k1) (h2 : 0 ≤ k2) (x y : NDArray ℝ) (hx : x.shape = [4]) (hy : y.shape = [4]) :
    structuralSimilarity big { gaussian := false, winSize := some 3, k1 := k1, k2 := k2 } dr x y =
      (let f (p : Nat) : ℝ :=
        let ux := (x.get [p - 1] + x.get [p] + x.get [p + 1]) / 3
        let uy := (y.get [p - 1] + y.get [p] + y.get [p + 1]) / 3
        let vx := 3 / 2 * ((x.get [p - 1] * x.get [p - 1] + x.get [p] * x.get [p] + x.get [p + 1] * x.get [p + 1]) / 3 - ux * ux)
        let vy := 3 / 2 * ((y.get [p - 1] * y.get [p - 1] + y.get [p] * y.get [p] + y.get [p + 1] * y.get [p + 1]) / 3 - uy * uy)
        let vxy := 3 / 2 * ((x.get [p - 1] * y.get [p - 1] + x.get [p] * y.get [p] + x.get [p + 1] * y.get [p + 1]) / 3 - ux * uy)
        nanToNum big (luminanceTerm ux uy ((k1 * dr) ^ 2)) * nanToNum big (contrastTerm vx vy ((k2 * dr) ^ 2)) *
          nanToNum big (structureTerm vx vy vxy ((k2 * dr) ^ 2 / 2))
       .ok ((f 1 + f 2) / 2)) := by
  obtain ⟨sx, x⟩ := x
  obtain ⟨sy, y⟩ := y
  simp only at hx hy
  subst hx hy
  have ha : ∀ (z : List Nat → ℝ) (p : Nat), 1 ≤ p → p ≤ 2 →
      (SsimArgs.filter { gaussian := false, winSize := some 3, k1 := k1, k2 := k2 } .reflect).apply ⟨[4], z⟩ [p] = (z [p - 1] + z [p] + z [p + 1]) / 3 := by
    intro z p hp1 hp2
    have hr : (SsimArgs.filter { gaussian := false, winSize := some 3, k1 := k1, k2 := k2 } .reflect) = ⟨1, boxWeight 1, .reflect, 0⟩ := by
      simp [SsimArgs.filter, SsimArgs.window]
    rw [hr]
    have ho : offsets 1 1 = [[-1], [0], [1]] := by decide
    have hi : ∀ a : Nat, a < 4 → extendIndices .reflect [4] [(a : Int)] = some [a] := fun a ha =>
      extendIndices_inside .reflect [4] [a] ⟨ha, trivial⟩
    have h0 := hi 0; have h1 := hi 1; have h2 := hi 2; have h3 := hi 3
    norm_num at h0 h1 h2 h3
    simp only [Filter.apply, NDArray.ndim, List.length_cons, List.length_nil, zero_add, ho, List.map_cons, List.map_nil, sample, shiftIndex,
      List.zipWith_cons_cons, List.zipWith_nil_right]
    interval_cases p
    · norm_num [h0, h1, h2, h3, offsetWeight, boxWeight]
      ring
    · norm_num [h0, h1, h2, h3, offsetWeight, boxWeight]
      ring
  rw [ssim_valid _ _ _ _ _ (by constructor <;> norm_num [SsimArgs.window, h1, h2])]
  have hc : covNorm { gaussian := false, winSize := some 3, k1 := k1, k2 := k2 } (NDArray.ndim (⟨[4], x⟩ : NDArray ℝ)) = .ok (3 / 2) := by
    norm_num [covNorm, SsimArgs.window, NDArray.ndim]
  have hp : cropPositions ((SsimArgs.window { gaussian := false, winSize := some 3, k1 := k1, k2 := k2 } - 1) / 2) [4] = [[1], [2]] := by
    rw [show SsimArgs.window { gaussian := false, winSize := some 3, k1 := k1, k2 := k2 } = 3 by simp [SsimArgs.window]]
    decide
  have hb : borderMode "reflect" = .ok .reflect := by simp [borderMode]
  unfold ssimBody
  simp only [hc, Bool.false_eq_true, false_and, if_false, hb, hp, List.map_cons, List.map_nil]
  rw [ssimAt_terms, ssimAt_terms]
  simp only [NDArray.zip, ha _ 1 le_rfl (by norm_num), ha _ 2 (by norm_num) le_rfl, ExpArg.cast, npPow]
  norm_num [allOk, meanList]

/-- A row of four pixels. -/
def rowOfFour (a b c d : ℝ) : NDArray ℝ := ⟨[4], fun i => [a, b, c, d].getD (i.getD 0 0) 0⟩

/-- **C188 is false** for SSIM: of two images with one bright spot each, both have a score above one half, their average one of less
than one hundredth. -/
theorem C188_ssim_refuted (big : ℝ) : ∃ u v w : ℝ,
    structuralSimilarity big { gaussian := false, winSize := some 3, k1 := 1 / 100, k2 := 3 / 100 } 1 (rowOfFour 0 0 0 0) (rowOfFour 1 0 0 0) = .ok u ∧
    structuralSimilarity big { gaussian := false, winSize := some 3, k1 := 1 / 100, k2 := 3 / 100 } 1 (rowOfFour 0 0 0 0) (rowOfFour 0 0 0 1) = .ok v ∧
    structuralSimilarity big { gaussian := false, winSize := some 3, k1 := 1 / 100, k2 := 3 / 100 } 1 (rowOfFour 0 0 0 0)
      (Spec.average [4] ![rowOfFour 1 0 0 0, rowOfFour 0 0 0 1]) = .ok w ∧ 1 / 2 < u ∧ 1 / 2 < v ∧ w < 1 / 100 := by
  refine ⟨_, _, _, ssim_four big 1 _ _ (by norm_num) (by norm_num) _ _ rfl rfl, ssim_four big 1 _ _ (by norm_num) (by norm_num) _ _ rfl rfl,
    ssim_four big 1 _ _ (by norm_num) (by norm_num) _ _ rfl rfl, ?_, ?_, ?_⟩ <;>
  norm_num [luminanceTerm, contrastTerm, structureTerm, npDiv, nanToNum, rowOfFour, Spec.average, Fin.sum_univ_two]

/-! ### Examples -/

/-- Two images with opposite errors: the average has none. -/
example : ∃ v, rmse (rowOfFour 5 5 5 5) (Spec.blend ![1 / 2, 1 / 2] [4] ![rowOfFour 6 6 6 6, rowOfFour 4 4 4 4]) = .ok v ∧ v ≤ 1 := by
  have h : ∀ k : Fin 2, rmse (rowOfFour 5 5 5 5) ((![rowOfFour 6 6 6 6, rowOfFour 4 4 4 4] : Fin 2 → NDArray ℝ) k) = .ok 1 := by
    intro k
    rw [rmse_eq ⟨by fin_cases k <;> rfl, by decide⟩, Except.ok.injEq, Real.sqrt_eq_one]
    have hi : indices (rowOfFour 5 5 5 5).shape = [[0], [1], [2], [3]] := by decide
    rw [hi]
    fin_cases k <;> norm_num [rowOfFour, NDArray.size]
  obtain ⟨v, hv, hle, -⟩ := C188_rmse ![1 / 2, 1 / 2] (by intro k; fin_cases k <;> norm_num) (by norm_num [Fin.sum_univ_two]) (rowOfFour 5 5 5 5) (by decide)
    ![rowOfFour 6 6 6 6, rowOfFour 4 4 4 4] (by intro k; fin_cases k <;> rfl) (fun _ => 1) h
  refine ⟨v, hv, hle.trans ?_⟩
  norm_num [Fin.sum_univ_two]

/-- Two images with errors that are not correlated: 3 dB. -/
example (p : ℝ) (h : psnr 10 (rowOfFour 5 5 5 5) (rowOfFour 6 4 6 4) = .ok (.finite p)) (h' : psnr 10 (rowOfFour 5 5 5 5) (rowOfFour 6 6 4 4) = .ok (.finite p)) :
    psnr 10 (rowOfFour 5 5 5 5) (Spec.average [4] ![rowOfFour 6 4 6 4, rowOfFour 6 6 4 4]) = .ok (.finite (p + 10 * Real.logb 10 2)) := by
  have := C188_gain (n := 2) two_ne_zero 10 (by norm_num) (rowOfFour 5 5 5 5) (by decide) ![rowOfFour 6 4 6 4, rowOfFour 6 6 4 4]
    (by intro k; fin_cases k <;> rfl) ?_ p (by intro k; fin_cases k; exacts [h, h'])
  · exact_mod_cast this
  · have hi : indices (rowOfFour 5 5 5 5).shape = [[0], [1], [2], [3]] := by decide
    intro j k hjk
    rw [hi]
    fin_cases j <;> fin_cases k <;> first | exact absurd rfl hjk | norm_num [rowOfFour]

end Viqa
