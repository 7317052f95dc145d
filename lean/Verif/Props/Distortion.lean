import Verif.Props.Ssim
import Verif.Props.Unit
import Verif.Props.Gsm
import Verif.Props.Distance

/-!
C161: the stronger the distortion, the worse the score.
-/

namespace Viqa

/-! ### Gain and brightness in SSIM -/

/-- The image with all gray values multiplied by `t` and raised by `c`. -/
def Spec.toned (t c : ℝ) (x : NDArray ℝ) : NDArray ℝ := ⟨x.shape, fun i => t * x.get i + c⟩

/-- All pixels read by the filter lie in the image. -/
def ReadsInside (f : Filter) (sh p : List Nat) : Prop :=
  ∀ o ∈ offsets f.radius sh.length, ∃ i, extendIndices f.mode sh (shiftIndex p o) = some i

/-- Border handling that reads only pixels of the image. -/
def Spec.NoFill (a : SsimArgs) : Prop := borderMode a.mode ≠ .ok .constant ∨ a.winSize = none ∨ a.gaussian = false

theorem noFill_inside (a : SsimArgs) (sh : List Nat) (hv : a.Valid sh) (hb : Spec.NoFill a) (m : BorderMode)
    (hm : (open Classical in if a.gaussian = true ∧ a.sigma = 0 then .ok .reflect else borderMode a.mode) =
      (.ok m : Py BorderMode)) (p : List Nat) (hp : p ∈ cropPositions ((a.window - 1) / 2) sh) :
    ReadsInside (a.filter m) sh p := by
  have hpos : ∀ n ∈ sh, 0 < n := by
    intro n hn
    have := hv.fits n hn
    have := hv.odd
    omega
  have hlen := (mem_cropPositions _ _ _).1 hp
  intro o ho
  rcases hb with h | h
  · have hmode : (a.filter m).mode ≠ .constant := by
      rw [(filter_mode a m).1]
      rintro rfl
      split at hm
      · cases hm
      · exact h hm
    obtain ⟨i, hi, -⟩ := extendIndices_spec (a.filter m).mode sh (shiftIndex p o)
      (by
        have := ((mem_offsets _ _ _).1 ho).1
        unfold shiftIndex
        rw [List.length_zipWith, hlen.1, this, min_self]) hpos hmode
    exact ⟨i, hi⟩
  · rw [filter_radius a m h] at ho
    obtain ⟨idx, h1, h2⟩ := shiftIndex_inside sh p o _ hlen.1 hlen.2 ho
    exact ⟨idx, by rw [h2, extendIndices_inside _ _ _ h1]⟩

theorem apply_affine (f : Filter) (hf : f.Proper) (x g h : NDArray ℝ) (hg : g.shape = x.shape) (hh : h.shape = x.shape) (s t c : ℝ)
    (hget : ∀ i, g.get i = s * h.get i + t * x.get i + c) (p : List Nat) (hp : ReadsInside f x.shape p) :
    f.apply g p = s * f.apply h p + t * f.apply x p + c := by
  have hone : ((offsets f.radius x.ndim).map (offsetWeight f.weight)).sum = 1 := offsetWeight_sum _ _ _ hf.sum
  unfold Filter.apply
  have hnd : g.ndim = x.ndim := by unfold NDArray.ndim; rw [hg]
  have hnd' : h.ndim = x.ndim := by unfold NDArray.ndim; rw [hh]
  rw [hnd, hnd']
  have hc : c = ((offsets f.radius x.ndim).map (fun o => c * offsetWeight f.weight o)).sum := by
    rw [List.sum_map_mul_left, hone, mul_one]
  rw [← List.sum_map_mul_left, ← List.sum_map_mul_left]
  conv_rhs => rw [hc]
  rw [← List.sum_map_add, ← List.sum_map_add]
  refine congrArg List.sum (List.map_congr_left (fun o ho => ?_))
  obtain ⟨i, hi⟩ := hp o ho
  unfold sample
  rw [hg, hh, hi]
  simp only [hget]
  ring

/-- Quotient of the luminance and of the contrast term for values `w` and `t * w` with `w ^ 2 = A`. -/
noncomputable def gainTerm (t A C : ℝ) : ℝ := if A = 0 ∧ C = 0 then 1 else (2 * t * A + C) / (A + t ^ 2 * A + C)

theorem gain_den (t A C : ℝ) (hA : 0 ≤ A) (hC : 0 ≤ C) (h : ¬ (A = 0 ∧ C = 0)) : 0 < A + t ^ 2 * A + C := by
  have h2 : 0 ≤ t ^ 2 * A := by positivity
  rcases hA.lt_or_eq with h1 | h1
  · linarith
  · rcases hC.lt_or_eq with h3 | h3
    · linarith
    · exact absurd ⟨h1.symm, h3.symm⟩ h

theorem gain_nonneg (t A C : ℝ) (ht : 0 ≤ t) (hA : 0 ≤ A) (hC : 0 ≤ C) : 0 ≤ gainTerm t A C := by
  unfold gainTerm
  split_ifs with h
  · norm_num
  · have := gain_den t A C hA hC h
    positivity

/-- Farther from 1 on either side, the quotient is smaller. -/
theorem gain_anti (s t A C : ℝ) (hs : 0 ≤ s) (h : 1 ≤ s ∧ s ≤ t ∨ s ≤ 1 ∧ 0 ≤ t ∧ t ≤ s) (hA : 0 ≤ A) (hC : 0 ≤ C) :
    gainTerm t A C ≤ gainTerm s A C := by
  unfold gainTerm
  split_ifs with h0
  · exact le_rfl
  · have h1 := gain_den t A C hA hC h0
    have h2 := gain_den s A C hA hC h0
    rw [div_le_div_iff₀ h1 h2]
    have key : (2 * s * A + C) * (A + t ^ 2 * A + C) - (2 * t * A + C) * (A + s ^ 2 * A + C) =
        A * ((t - s) * (2 * A * (s * t - 1) + C * (t + s - 2))) := by ring
    have hsign : 0 ≤ (t - s) * (2 * A * (s * t - 1) + C * (t + s - 2)) := by
      rcases h with ⟨a1, a2⟩ | ⟨a1, a2, a3⟩
      · have : 1 ≤ s * t := by nlinarith
        have h3 : 0 ≤ A * (s * t - 1) := mul_nonneg hA (by linarith)
        have h4 : 0 ≤ C * (t + s - 2) := mul_nonneg hC (by linarith)
        exact mul_nonneg (by linarith) (by linarith)
      · have : s * t ≤ 1 := by nlinarith
        have h3 : A * (s * t - 1) ≤ 0 := mul_nonpos_of_nonneg_of_nonpos hA (by linarith)
        have h4 : C * (t + s - 2) ≤ 0 := mul_nonpos_of_nonneg_of_nonpos hC (by linarith)
        exact mul_nonneg_of_nonpos_of_nonpos (by linarith) (by linarith)
    have := mul_nonneg hA hsign
    linarith

/-- Luminance term of the means `u` and `u + c`. -/
noncomputable def shiftTerm (c u C : ℝ) : ℝ :=
  if u ^ 2 + (u + c) ^ 2 + C = 0 then 1 else (2 * u * (u + c) + C) / (u ^ 2 + (u + c) ^ 2 + C)

theorem shift_nonneg (c u C : ℝ) (hc : 0 ≤ c) (hu : 0 ≤ u) (hC : 0 ≤ C) : 0 ≤ shiftTerm c u C := by
  unfold shiftTerm
  split_ifs
  · norm_num
  · positivity

theorem shift_anti (c c' u C : ℝ) (hc : 0 ≤ c) (hcc : c < c') (hu : 0 ≤ u) (hC : 0 < C) :
    shiftTerm c' u C < shiftTerm c u C := by
  unfold shiftTerm
  have h1 : 0 < u ^ 2 + (u + c) ^ 2 + C := by positivity
  have h2 : 0 < u ^ 2 + (u + c') ^ 2 + C := by positivity
  rw [if_neg h1.ne', if_neg h2.ne', div_lt_div_iff₀ h2 h1]
  have key : (2 * u * (u + c) + C) * (u ^ 2 + (u + c') ^ 2 + C) - (2 * u * (u + c') + C) * (u ^ 2 + (u + c) ^ 2 + C) =
      (c' - c) * (2 * u * c * c' + C * (c + c') + 2 * u ^ 2 * (c + c')) := by ring
  have : 0 < (c' - c) * (2 * u * c * c' + C * (c + c') + 2 * u ^ 2 * (c + c')) := by
    apply mul_pos (by linarith)
    have : 0 < c' := by linarith
    have h3 : 0 < C * (c + c') := by positivity
    have h4 : 0 ≤ 2 * u * c * c' := by positivity
    have h5 : 0 ≤ 2 * u ^ 2 * (c + c') := by positivity
    linarith
  linarith

/-- The local index of an image and the same image with another gain and brightness. -/
theorem ssimAt_toned (big : ℝ) (f : Filter) (hf : f.Proper) (norm dr : ℝ) (hn : 0 < norm) (a : SsimArgs) (x : NDArray ℝ)
    (t c : ℝ) (ht : 0 ≤ t) (p : List Nat) (hp : ReadsInside f x.shape p)
    (hα : 0 ≤ a.alpha.cast) (hβ : 0 ≤ a.beta.cast) (hγ : 0 ≤ a.gamma.cast) :
    ssimAt big f norm dr a x (Spec.toned t c x) p =
      .ok ((nanToNum big (luminanceTerm (f.apply x p) (t * f.apply x p + c) ((a.k1 * dr) ^ 2))) ^ a.alpha.cast *
        gainTerm t (norm * (f.apply (NDArray.zip (· * ·) x x) p - f.apply x p * f.apply x p)) ((a.k2 * dr) ^ 2) ^ a.beta.cast) := by
  have hv : 0 ≤ norm * (f.apply (NDArray.zip (· * ·) x x) p - f.apply x p * f.apply x p) :=
    (scaled_stats f hf x x rfl p (Or.inr hp) norm hn).1
  have e1 : f.apply (Spec.toned t c x) p = t * f.apply x p + c := by
    rw [apply_affine f hf x (Spec.toned t c x) x rfl rfl 0 t c (fun i => by simp only [Spec.toned]; ring) p hp]
    ring
  have e2 : f.apply (NDArray.zip (· * ·) x (Spec.toned t c x)) p = t * f.apply (NDArray.zip (· * ·) x x) p + c * f.apply x p := by
    rw [apply_affine f hf x (NDArray.zip (· * ·) x (Spec.toned t c x)) (NDArray.zip (· * ·) x x) rfl rfl t c 0
      (fun i => by simp only [Spec.toned, NDArray.zip]; ring) p hp]
    ring
  have e3 : f.apply (NDArray.zip (· * ·) (Spec.toned t c x) (Spec.toned t c x)) p =
      t ^ 2 * f.apply (NDArray.zip (· * ·) x x) p + 2 * t * c * f.apply x p + c ^ 2 := by
    rw [apply_affine f hf x (NDArray.zip (· * ·) (Spec.toned t c x) (Spec.toned t c x)) (NDArray.zip (· * ·) x x) rfl rfl (t ^ 2) (2 * t * c) (c ^ 2)
      (fun i => by simp only [Spec.toned, NDArray.zip]; ring) p hp]
  unfold ssimAt
  simp only [e1, e2, e3]
  generalize f.apply x p = u at *
  generalize f.apply (NDArray.zip (· * ·) x x) p = q at *
  have hvy : norm * (t ^ 2 * q + 2 * t * c * u + c ^ 2 - (t * u + c) * (t * u + c)) = t ^ 2 * (norm * (q - u * u)) := by ring
  have hvxy : norm * (t * q + c * u - u * (t * u + c)) = t * (norm * (q - u * u)) := by ring
  rw [hvy, hvxy]
  generalize norm * (q - u * u) = v at *
  have hsq : Real.sqrt v * Real.sqrt (t ^ 2 * v) = t * v := by
    rw [Real.sqrt_mul (sq_nonneg t), Real.sqrt_sq ht]
    have := Real.mul_self_sqrt hv
    linear_combination t * this
  have hnn : ¬ (v < 0 ∨ t ^ 2 * v < 0) := by
    have : 0 ≤ t ^ 2 * v := by positivity
    rintro (h | h) <;> linarith
  have hstru : nanToNum big (structureTerm v (t ^ 2 * v) (t * v) ((a.k2 * dr) ^ 2 / 2)) = 1 := by
    unfold structureTerm npDiv
    rw [if_neg hnn, hsq]
    split_ifs with h0
    · rfl
    · exact div_self h0
  have hcon : nanToNum big (contrastTerm v (t ^ 2 * v) ((a.k2 * dr) ^ 2)) = gainTerm t v ((a.k2 * dr) ^ 2) := by
    unfold contrastTerm npDiv gainTerm
    rw [if_neg hnn, mul_assoc, hsq]
    by_cases h : v = 0 ∧ (a.k2 * dr) ^ 2 = 0
    · rw [if_pos h, h.1, h.2]
      simp [nanToNum]
    · rw [if_neg h, if_neg (gain_den t v _ hv (sq_nonneg _) h).ne', ← mul_assoc]
      rfl
  rw [hstru, hcon]
  unfold npPow
  rw [if_neg (by omega), if_neg (by omega), if_neg (by omega)]
  simp

theorem luminance_gain (big t u C : ℝ) (hC : 0 ≤ C) : nanToNum big (luminanceTerm u (t * u + 0) C) = gainTerm t (u ^ 2) C := by
  unfold luminanceTerm npDiv gainTerm
  by_cases h : u ^ 2 = 0 ∧ C = 0
  · rw [if_pos h]
    have hu : u = 0 := pow_eq_zero_iff two_ne_zero |>.1 h.1
    simp [hu, h.2, nanToNum]
  · have := gain_den t (u ^ 2) C (sq_nonneg _) hC h
    rw [if_neg h, if_neg (by rw [add_zero, mul_pow]; exact this.ne')]
    unfold nanToNum
    simp only
    congr 1 <;> ring

theorem luminance_shift (big c u C : ℝ) (hc : 0 ≤ c) (hu : 0 ≤ u) (hC : 0 ≤ C) :
    nanToNum big (luminanceTerm u (1 * u + c) C) = shiftTerm c u C := by
  unfold luminanceTerm npDiv shiftTerm
  rw [one_mul]
  split_ifs with h h1 h2
  · rfl
  · exfalso
    have : 0 ≤ 2 * u * (u + c) := by positivity
    nlinarith [sq_nonneg u, sq_nonneg (u + c)]
  · exfalso
    have h3 : u ^ 2 = 0 := by nlinarith [sq_nonneg u, sq_nonneg (u + c)]
    have h4 : C = 0 := by nlinarith [sq_nonneg u, sq_nonneg (u + c)]
    have : u = 0 := pow_eq_zero_iff two_ne_zero |>.1 h3
    exact h1 (by rw [this, h4]; ring)
  · rfl

theorem gain_one (v C : ℝ) : gainTerm 1 v C = 1 ∨ v + v + C = 0 := by
  unfold gainTerm
  split_ifs with h
  · left; rfl
  · by_cases h0 : v + v + C = 0
    · right; exact h0
    · left
      rw [show 2 * 1 * v + C = v + v + C by ring, show v + 1 ^ 2 * v + C = v + v + C by ring, div_self h0]

theorem mean_le (l l' : List ℝ) (v v' : ℝ) (h : List.Forall₂ (· ≤ ·) l' l) (hv : meanList l = .ok v) (hv' : meanList l' = .ok v') :
    v' ≤ v := by
  have hlen := h.length_eq
  unfold meanList at hv hv'
  split_ifs at hv hv' with h1 h2
  cases hv
  cases hv'
  rw [hlen]
  apply div_le_div_of_nonneg_right _ (Nat.cast_nonneg _)
  exact h.sum_le_sum

theorem mean_lt (l l' : List ℝ) (v v' : ℝ) (h : List.Forall₂ (· < ·) l' l) (hv : meanList l = .ok v) (hv' : meanList l' = .ok v') :
    v' < v := by
  have hlen := h.length_eq
  unfold meanList at hv hv'
  split_ifs at hv hv' with h1 h2
  cases hv
  cases hv'
  rw [hlen]
  have hpos : (0 : ℝ) < l.length := by
    have : 0 < l.length := by omega
    exact_mod_cast this
  apply div_lt_div_of_pos_right _ hpos
  clear hlen hpos h2
  induction h with
  | nil => simp at h1
  | cons hab hrest ih =>
    rename_i a b l' l
    rw [List.sum_cons, List.sum_cons]
    by_cases h0 : l.length = 0
    · have e1 : l = [] := List.length_eq_zero_iff.1 h0
      have e2 : l' = [] := List.length_eq_zero_iff.1 (by rw [hrest.length_eq, h0])
      rw [e1, e2]
      simpa using hab
    · linarith [ih h0]

theorem pointwise (R : ℝ → ℝ → Prop) (F F' : List Nat → Py ℝ) (P : List (List Nat)) (l l' : List ℝ)
    (hl : P.map F = l.map .ok) (hl' : P.map F' = l'.map .ok) (h : ∀ p ∈ P, ∀ v v', F p = .ok v → F' p = .ok v' → R v' v) :
    List.Forall₂ R l' l := by
  induction P generalizing l l' with
  | nil =>
    cases l with
    | cons => simp at hl
    | nil =>
      cases l' with
      | cons => simp at hl'
      | nil => exact .nil
  | cons p P ih =>
    cases l with
    | nil => simp at hl
    | cons v l =>
      cases l' with
      | nil => simp at hl'
      | cons v' l' =>
        simp only [List.map_cons, List.cons.injEq] at hl hl'
        exact .cons (h p (by simp) v v' hl.1 hl'.1) (ih l l' hl.2 hl'.2 (fun q hq => h q (by simp [hq])))

/-- **C161.** The farther the gain is from 1 (above or below), the lower is the SSIM with the original. -/
theorem C161_gain (big dr : ℝ) (a : SsimArgs) (x : NDArray ℝ) (hb : Spec.NoFill a)
    (hα : 0 ≤ a.alpha.cast) (hβ : 0 ≤ a.beta.cast) (hγ : 0 ≤ a.gamma.cast) (s t : ℝ)
    (h : 1 ≤ s ∧ s ≤ t ∨ s ≤ 1 ∧ 0 ≤ t ∧ t ≤ s) (v v' : ℝ)
    (hv : structuralSimilarity big a dr x (Spec.toned s 0 x) = .ok v)
    (hv' : structuralSimilarity big a dr x (Spec.toned t 0 x) = .ok v') : v' ≤ v := by
  obtain ⟨hval, norm, m, l, hn, hm, hl, hmean⟩ := ssim_ok _ _ _ _ _ _ hv
  obtain ⟨-, norm', m', l', hn', hm', hl', hmean'⟩ := ssim_ok _ _ _ _ _ _ hv'
  rw [hn] at hn'
  cases hn'
  rw [hm] at hm'
  cases hm'
  have hpos := covNorm_pos a _ norm hval.odd hn
  have hs : 0 ≤ s := by rcases h with h | h <;> linarith
  have ht : 0 ≤ t := by rcases h with h | h <;> linarith
  refine mean_le l l' v v' (pointwise _ _ _ _ l l' hl hl' ?_) hmean hmean'
  intro p hp w w' hw hw'
  have hin := noFill_inside a x.shape hval hb m hm p hp
  rw [ssimAt_toned big _ (a.filter_proper m) norm dr hpos a x s 0 hs p hin hα hβ hγ, luminance_gain _ _ _ _ (sq_nonneg _)] at hw
  rw [ssimAt_toned big _ (a.filter_proper m) norm dr hpos a x t 0 ht p hin hα hβ hγ, luminance_gain _ _ _ _ (sq_nonneg _)] at hw'
  cases hw
  cases hw'
  have hvar := (scaled_stats (a.filter m) (a.filter_proper m) x x rfl p (Or.inr hin) norm hpos).1
  have g1 := gain_anti s t ((a.filter m).apply x p ^ 2) ((a.k1 * dr) ^ 2) hs h (sq_nonneg _) (sq_nonneg _)
  have g2 := gain_anti s t _ ((a.k2 * dr) ^ 2) hs h hvar (sq_nonneg _)
  have n1 := gain_nonneg t ((a.filter m).apply x p ^ 2) ((a.k1 * dr) ^ 2) ht (sq_nonneg _) (sq_nonneg _)
  have n2 := gain_nonneg t _ ((a.k2 * dr) ^ 2) ht hvar (sq_nonneg _)
  apply mul_le_mul
  · exact zpow_le_zpow_left₀ hα n1 g1
  · exact zpow_le_zpow_left₀ hβ n2 g2
  · exact zpow_nonneg n2 _
  · exact zpow_nonneg (n1.trans g1) _

/-- **C161.** The more an image (without negative gray values) is brightened, the lower is the SSIM with the original,
strictly. -/
theorem C161_brightness (big dr : ℝ) (a : SsimArgs) (x : NDArray ℝ) (hb : Spec.NoFill a) (hx : ∀ i, InShape x.shape i → 0 ≤ x.get i)
    (hα : 1 ≤ a.alpha.cast) (hβ : 0 ≤ a.beta.cast) (hγ : 0 ≤ a.gamma.cast) (hk : a.k1 ≠ 0) (hdr : dr ≠ 0) (c c' : ℝ) (hc : 0 ≤ c) (hcc : c < c')
    (v v' : ℝ) (hv : structuralSimilarity big a dr x (Spec.toned 1 c x) = .ok v)
    (hv' : structuralSimilarity big a dr x (Spec.toned 1 c' x) = .ok v') : v' < v := by
  obtain ⟨hval, norm, m, l, hn, hm, hl, hmean⟩ := ssim_ok _ _ _ _ _ _ hv
  obtain ⟨-, norm', m', l', hn', hm', hl', hmean'⟩ := ssim_ok _ _ _ _ _ _ hv'
  rw [hn] at hn'
  cases hn'
  rw [hm] at hm'
  cases hm'
  have hpos := covNorm_pos a _ norm hval.odd hn
  refine mean_lt l l' v v' (pointwise _ _ _ _ l l' hl hl' ?_) hmean hmean'
  intro p hp w w' hw hw'
  have hin := noFill_inside a x.shape hval hb m hm p hp
  have hu : 0 ≤ (a.filter m).apply x p := by
    unfold Filter.apply
    apply List.sum_nonneg
    intro q hq
    obtain ⟨o, ho, rfl⟩ := List.mem_map.1 hq
    have h1 := offsetWeight_pos (a.filter m).weight _ _ (a.filter_proper m).pos o ho
    obtain ⟨i, hi⟩ := hin o ho
    have h2 : 0 ≤ sample (a.filter m) x (shiftIndex p o) := by
      unfold sample
      rw [hi]
      refine hx i (extendIndices_inShape _ _ _ _ ?_ (fun n hn => by have := hval.fits n hn; have := hval.odd; omega) hi)
      unfold shiftIndex
      rw [List.length_zipWith, ((mem_cropPositions _ _ _).1 hp).1, ((mem_offsets _ _ _).1 ho).1]
      exact min_self _
    positivity
  rw [ssimAt_toned big _ (a.filter_proper m) norm dr hpos a x 1 c zero_le_one p hin (by omega) hβ hγ,
    luminance_shift _ _ _ _ hc hu (sq_nonneg _)] at hw
  rw [ssimAt_toned big _ (a.filter_proper m) norm dr hpos a x 1 c' zero_le_one p hin (by omega) hβ hγ,
    luminance_shift _ _ _ _ (hc.trans hcc.le) hu (sq_nonneg _)] at hw'
  cases hw
  cases hw'
  have hvar := (scaled_stats (a.filter m) (a.filter_proper m) x x rfl p (Or.inr hin) norm hpos).1
  have hone : gainTerm 1 (norm * ((a.filter m).apply (NDArray.zip (· * ·) x x) p - (a.filter m).apply x p * (a.filter m).apply x p))
      ((a.k2 * dr) ^ 2) = 1 := by
    unfold gainTerm
    split_ifs with h
    · rfl
    · have h0 := gain_den 1 _ ((a.k2 * dr) ^ 2) hvar (sq_nonneg _) h
      rw [div_eq_one_iff_eq h0.ne']
      ring
  rw [hone, one_zpow, mul_one, mul_one]
  have hC : 0 < (a.k1 * dr) ^ 2 := by positivity
  exact zpow_lt_zpow_left₀ (by omega) (shift_nonneg _ _ _ (hc.trans hcc.le) hu hC.le) (shift_anti c c' _ _ hc hcc hu hC)

/-- A slope that is amplified more and more. -/
example : ∃ v v', structuralSimilarity 1e308 { gaussian := false, winSize := some 7 } 255 ⟨[9, 9], fun i => i.sum⟩
      (Spec.toned 2 0 ⟨[9, 9], fun i => i.sum⟩) = .ok v ∧
    structuralSimilarity 1e308 { gaussian := false, winSize := some 7 } 255 ⟨[9, 9], fun i => i.sum⟩
      (Spec.toned 3 0 ⟨[9, 9], fun i => i.sum⟩) = .ok v' ∧ v' ≤ v := by
  have hex : ∀ y, ∃ v, structuralSimilarity 1e308 { gaussian := false, winSize := some 7 } 255 ⟨[9, 9], fun i => i.sum⟩ y = .ok v :=
    fun y => C32_score_exists _ _ _ _ y validSeven (by simp) (by simp) .reflect (by simp [borderMode]) (by simp [ExpArg.cast])
      (by simp [ExpArg.cast]) (by simp [ExpArg.cast])
  obtain ⟨v, hv⟩ := hex (Spec.toned 2 0 ⟨[9, 9], fun i => i.sum⟩)
  obtain ⟨v', hv'⟩ := hex (Spec.toned 3 0 ⟨[9, 9], fun i => i.sum⟩)
  exact ⟨v, v', hv, hv', C161_gain _ _ _ _ (Or.inr (Or.inr rfl)) (by simp [ExpArg.cast]) (by simp [ExpArg.cast]) (by simp [ExpArg.cast])
    2 3 (Or.inl (by norm_num)) v v' hv hv'⟩

/-- A slope that is brightened. -/
example : ∃ v v', structuralSimilarity 1e308 { gaussian := false, winSize := some 7 } 255 ⟨[9, 9], fun i => i.sum⟩
      (Spec.toned 1 10 ⟨[9, 9], fun i => i.sum⟩) = .ok v ∧
    structuralSimilarity 1e308 { gaussian := false, winSize := some 7 } 255 ⟨[9, 9], fun i => i.sum⟩
      (Spec.toned 1 20 ⟨[9, 9], fun i => i.sum⟩) = .ok v' ∧ v' < v := by
  have hex : ∀ y, ∃ v, structuralSimilarity 1e308 { gaussian := false, winSize := some 7 } 255 ⟨[9, 9], fun i => i.sum⟩ y = .ok v :=
    fun y => C32_score_exists _ _ _ _ y validSeven (by simp) (by simp) .reflect (by simp [borderMode]) (by simp [ExpArg.cast])
      (by simp [ExpArg.cast]) (by simp [ExpArg.cast])
  obtain ⟨v, hv⟩ := hex (Spec.toned 1 10 ⟨[9, 9], fun i => i.sum⟩)
  obtain ⟨v', hv'⟩ := hex (Spec.toned 1 20 ⟨[9, 9], fun i => i.sum⟩)
  exact ⟨v, v', hv, hv', C161_brightness _ _ _ _ (Or.inr (Or.inr rfl)) (fun i _ => Nat.cast_nonneg _) (by simp [ExpArg.cast])
    (by simp [ExpArg.cast]) (by simp [ExpArg.cast]) (by norm_num) (by norm_num) 10 20 (by norm_num) (by norm_num) v v' hv hv'⟩

/-! ### Other distortions -/

/-- The image with `t` times the error `e`. -/
def Spec.withError (t : ℝ) (x e : NDArray ℝ) : NDArray ℝ := ⟨x.shape, fun i => x.get i + t * e.get i⟩

/-- **C161.** RMSE is proportional to the strength of the error, for errors of every form. -/
theorem C161_rmse (x e : NDArray ℝ) (hs : x.size ≠ 0) (t r : ℝ) (h : rmse x (Spec.withError 1 x e) = .ok r) :
    rmse x (Spec.withError t x e) = .ok (|t| * r) := by
  rw [rmse_eq (a := x) (b := Spec.withError 1 x e) ⟨rfl, hs⟩] at h
  cases h
  rw [rmse_eq (a := x) (b := Spec.withError t x e) ⟨rfl, hs⟩, Except.ok.injEq, ← Real.sqrt_sq_eq_abs, ← Real.sqrt_mul (sq_nonneg _),
    ← mul_div_assoc, ← sum_map_mul]
  congr 3
  apply List.map_congr_left
  intro i _
  simp only [Spec.withError]
  ring

example (r : ℝ) (h : rmse ⟨[2, 2], fun _ => 5⟩ (Spec.withError 1 ⟨[2, 2], fun _ => 5⟩ ⟨[2, 2], fun i => i.sum⟩) = .ok r) :
    rmse ⟨[2, 2], fun _ => 5⟩ (Spec.withError (-3) ⟨[2, 2], fun _ => 5⟩ ⟨[2, 2], fun i => i.sum⟩) = .ok (|-3| * r) :=
  C161_rmse _ _ (by decide) _ _ h

/-- **C161.** PSNR falls by `20 * log10 |t|` if the error becomes `t` times as strong. -/
theorem C161_psnr (d : ℝ) (hd : d ≠ 0) (x e : NDArray ℝ) (hs : x.size ≠ 0) (t : ℝ) (ht : t ≠ 0) (he : ∃ i, InShape x.shape i ∧ e.get i ≠ 0) :
    ∃ p, psnr d x (Spec.withError 1 x e) = .ok (.finite p) ∧
      psnr d x (Spec.withError t x e) = .ok (.finite (p - 20 * Real.logb 10 |t|)) := by
  obtain ⟨i, hi, hei⟩ := he
  have hne : ∀ t : ℝ, t ≠ 0 → ¬ x.Same (Spec.withError t x e) := by
    intro t ht h
    have := h.2 i hi
    simp only [Spec.withError, left_eq_add, mul_eq_zero] at this
    rcases this with h | h
    · exact ht h
    · exact hei h
  obtain ⟨r, hr, hr0, hp⟩ := C29_formula d x (Spec.withError 1 x e) ⟨rfl, hs⟩ (hne 1 one_ne_zero) hd
  obtain ⟨r', hr', hr0', hp'⟩ := C29_formula d x (Spec.withError t x e) ⟨rfl, hs⟩ (hne t ht) hd
  rw [C161_rmse x e hs t r hr] at hr'
  cases hr'
  refine ⟨_, hp, ?_⟩
  rw [hp']
  have h1 : (|d| / (|t| * r)) = (|d| / r) / |t| := by rw [mul_comm, div_mul_eq_div_div]
  have hd' : 0 < |d| := abs_pos.2 hd
  have ht' : 0 < |t| := abs_pos.2 ht
  rw [h1, Real.logb_div (by positivity) ht'.ne']
  congr 2
  ring

example : ∃ p, psnr 255 ⟨[2, 2], fun _ => 5⟩ (Spec.withError 1 ⟨[2, 2], fun _ => 5⟩ ⟨[2, 2], fun i => i.sum⟩) = .ok (.finite p) ∧
    psnr 255 ⟨[2, 2], fun _ => 5⟩ (Spec.withError 2 ⟨[2, 2], fun _ => 5⟩ ⟨[2, 2], fun i => i.sum⟩) =
      .ok (.finite (p - 20 * Real.logb 10 |2|)) :=
  C161_psnr _ (by norm_num) _ _ (by decide) _ (by norm_num) ⟨[1, 1], by simp [InShape], by norm_num⟩

theorem gradient_brightness (w : NDArray Int) (hw : w ∈ allKernels) (x : NDArray Rat) (c : Rat) :
    gradient floatOps w ⟨x.shape, fun i => x.get i + c⟩ = gradient floatOps w x := by
  unfold gradient
  congr 1
  funext p
  exact C38_brightness w hw x c p

theorem nanMean_const (l : List Quality) (q : Rat) (h : ∀ v ∈ l, v = .nan ∨ v = .val q) (hq : .val q ∈ l) : nanMean l = .ok q := by
  unfold nanMean
  rw [if_neg (fun hc => by rcases h _ hc with h | h <;> cases h)]
  have hv : ∀ v ∈ l.filterMap (fun | .val q => some q | _ => none), v = q := by
    intro v hv
    obtain ⟨w, hw, hwv⟩ := List.mem_filterMap.1 hv
    rcases h w hw with rfl | rfl
    · cases hwv
    · cases hwv; rfl
  have hne : q ∈ l.filterMap (fun | .val q => some q | _ => none) := List.mem_filterMap.2 ⟨_, hq, rfl⟩
  generalize l.filterMap (fun | .val q => some q | _ => none) = L at hv hne
  have hn : L ≠ [] := by
    rintro rfl
    cases hne
  simp only [hn, if_false]
  have hrep : L = List.replicate L.length q := List.eq_replicate_of_mem hv
  have hlen : (L.length : Rat) ≠ 0 := by simpa using hn
  rw [hrep]
  simp only [List.sum_replicate, List.length_replicate, nsmul_eq_mul]
  rw [mul_div_cancel_left₀ _ hlen]

/-- **C161.** An offset `o` of the gray values lowers GSM from 1 to `1 - p * (o / data_range) ^ 2`, whatever the image (of
floating point numbers, with a positive gradient somewhere) shows. -/
theorem C161_gsm (dr c p o : Rat) (hc : 0 ≤ c) (x : NDArray Rat) (hd : x.ndim = 2 ∨ x.ndim = 3)
    (hpos : ∃ g ∈ (usedGradient floatOps x).toList, 0 < g) :
    gradientSimilarity floatOps dr c p x ⟨x.shape, fun i => x.get i + o⟩ = .ok (1 - p * (o / dr) ^ 2) := by
  have key : ∀ w ws, (∀ u ∈ w :: ws, u ∈ allKernels) →
      usedGradient floatOps x = strongest (gradient floatOps w x) (ws.map (fun w => gradient floatOps w x)) →
      gsmWith floatOps dr c p x ⟨x.shape, fun i => x.get i + o⟩ w ws = .ok (1 - p * (o / dr) ^ 2) := by
    intro w ws hall hu
    have e1 : gradient floatOps w ⟨x.shape, fun i => x.get i + o⟩ = gradient floatOps w x := gradient_brightness w (hall w (by simp)) x o
    have e2 : ws.map (fun w => gradient floatOps w ⟨x.shape, fun i => x.get i + o⟩) = ws.map (fun w => gradient floatOps w x) :=
      List.map_congr_left (fun u hu => gradient_brightness u (hall u (by simp [hu])) x o)
    obtain ⟨g, hg, hg0⟩ := hpos
    unfold gsmWith
    simp only [e1, e2, ← hu]
    cases hl : (usedGradient floatOps x).toList with
    | nil => rw [hl] at hg; cases hg
    | cons r0 rs =>
      have htop : 0 < largest r0 rs := lt_of_lt_of_le hg0 (largest_le r0 rs g (by rw [← hl]; exact hg))
      have hself : ∀ a, largest a [a] = a := by intro a; simp [largest]
      simp only [hself, if_neg htop.ne', strongest_self]
      have hk : 0 ≤ c / largest r0 rs := div_nonneg hc htop.le
      have hq : ∀ i, (usedGradient floatOps x).get i ≠ 0 → quality floatOps p (c / largest r0 rs) dr ((usedGradient floatOps x).get i)
          ((usedGradient floatOps x).get i) ((usedGradient floatOps x).get i) (x.get i) (x.get i + o) = .val (1 - p * (o / dr) ^ 2) := by
        intro i hi
        unfold quality
        have hr : ratAbs ((usedGradient floatOps x).get i - (usedGradient floatOps x).get i) / (usedGradient floatOps x).get i = 0 := by
          simp [ratAbs]
        have h1 : conDen (c / largest r0 rs) 0 = 2 + c / largest r0 rs := by unfold conDen; ring
        have h2 : conNum (c / largest r0 rs) 0 = 2 + c / largest r0 rs := by unfold conNum; ring
        have h3 : 2 + c / largest r0 rs ≠ 0 := by linarith
        simp only [if_neg hi, hr, h1, h2, if_neg h3, div_self h3]
        congr 1
        unfold combine lumSim floatOps
        simp only
        rw [show x.get i - (x.get i + o) = -o by ring, neg_div, neg_sq]
        ring
      apply nanMean_const
      · intro v hv
        obtain ⟨i, -, rfl⟩ := List.mem_map.1 hv
        by_cases hi : (usedGradient floatOps x).get i = 0
        · left
          unfold quality
          rw [if_pos hi]
        · right
          exact hq i hi
      · unfold NDArray.toList at hg
        rw [usedGradient_shape] at hg
        obtain ⟨i, hi, rfl⟩ := List.mem_map.1 hg
        exact List.mem_map.2 ⟨i, hi, hq i hg0.ne'⟩
  have hnd : (⟨x.shape, fun i => x.get i + o⟩ : NDArray Rat).ndim = x.ndim := rfl
  unfold gradientSimilarity
  rcases hd with hd | hd
  · rw [if_neg (by omega), if_pos hd]
    exact key _ _ kernels2d_sub (by unfold usedGradient; rw [if_neg (by omega)])
  · rw [if_pos hd]
    exact key _ _ kernels3d_sub (by unfold usedGradient; rw [if_pos hd])

/-- An edge, brightened by a tenth of the data range. -/
example : gradientSimilarity floatOps 250 200 (1 / 10) ⟨[4, 4], fun i => if i.getD 1 0 < 2 then 0 else 10⟩
    ⟨[4, 4], fun i => (if i.getD 1 0 < 2 then 0 else 10) + 25⟩ = .ok (1 - 1 / 10 * (25 / 250) ^ 2) :=
  C161_gsm 250 200 (1 / 10) 25 (by norm_num) ⟨[4, 4], fun i => if i.getD 1 0 < 2 then 0 else 10⟩ (Or.inl rfl) (by decide +kernel)

/-- 3 by 3 pixels of gray value `b` around one of gray value `m`. -/
def spot (b m : ℝ) : NDArray ℝ := ⟨[3, 3], fun i => if i = [1, 1] then m else b⟩

theorem spot_apply (b m c : ℝ) (mode : BorderMode) :
    Filter.apply ⟨1, boxWeight 1, mode, c⟩ (spot b m) [1, 1] = (8 * b + m) / 9 := by
  have hoff : offsets 1 2 = [[-1, -1], [-1, 0], [-1, 1], [0, -1], [0, 0], [0, 1], [1, -1], [1, 0], [1, 1]] := by decide
  unfold Filter.apply
  show ((offsets 1 2).map _).sum = _
  rw [hoff]
  simp [sample, spot, shiftIndex, extendIndices, extendIndex, offsetWeight, boxWeight]
  ring

/-- **C161** is false for SSIM and other forms of errors: an error that inverts a spot, made one and a half times as strong, gets a
better score. -/
theorem C161_ssim_refuted (big : ℝ) : ∃ v v', v < v' ∧
    structuralSimilarity big { gaussian := false, winSize := some 3 } 255 (spot 95 140) (Spec.withError 1 (spot 95 140) (spot 10 (-80))) = .ok v ∧
    structuralSimilarity big { gaussian := false, winSize := some 3 } 255 (spot 95 140) (Spec.withError (3 / 2) (spot 95 140) (spot 10 (-80))) =
      .ok v' := by
  have hval : SsimArgs.Valid { gaussian := false, winSize := some 3 } [3, 3] := by
    constructor <;> norm_num [SsimArgs.window]
  have herr : ∀ t, Spec.withError t (spot 95 140) (spot 10 (-80)) = spot (95 + t * 10) (140 + t * (-80)) := by
    intro t
    unfold Spec.withError spot
    congr 1
    funext i
    by_cases hi : i = [1, 1] <;> simp [hi]
  have hzip : ∀ b m b' m', NDArray.zip (· * ·) (spot b m) (spot b' m') = spot (b * b') (m * m') := by
    intro b m b' m'
    unfold NDArray.zip spot
    congr 1
    funext i
    by_cases hi : i = [1, 1] <;> simp [hi]
  have hcrop : cropPositions 1 [3, 3] = [[1, 1]] := by decide
  have hnorm : covNorm { gaussian := false, winSize := some 3 } 2 = .ok (9 / 8) := by
    norm_num [covNorm, SsimArgs.window]
  have hall : ∀ b m : ℝ, b * 8 + m = 900 → ∀ s : ℝ, 0 < s → b - 100 = 5 * s →
      structuralSimilarity big { gaussian := false, winSize := some 3 } 255 (spot 95 140) (spot b m) =
        .ok ((-450 * s + (3 / 100 * 255) ^ 2) / (225 + 225 * s ^ 2 + (3 / 100 * 255) ^ 2)) := by
    intro b m hbm s hs hb
    have hb' : b = 100 + 5 * s := by linarith
    have hm' : m = 100 - 40 * s := by linarith
    subst hb' hm'
    rw [ssim_valid _ _ _ _ _ hval]
    unfold ssimBody
    have hm : (open Classical in if ({ gaussian := false, winSize := some 3 } : SsimArgs).gaussian = true ∧
        ({ gaussian := false, winSize := some 3 } : SsimArgs).sigma = 0 then .ok .reflect else
        borderMode ({ gaussian := false, winSize := some 3 } : SsimArgs).mode) = (.ok .reflect : Py BorderMode) := by
      simp [borderMode]
    have hpad : (({ gaussian := false, winSize := some 3 } : SsimArgs).window - 1) / 2 = 1 := rfl
    have hfil : ({ gaussian := false, winSize := some 3 } : SsimArgs).filter .reflect = ⟨1, boxWeight 1, .reflect, 0⟩ := rfl
    have hnd : (spot 95 140).ndim = 2 := rfl
    have hsh : (spot 95 140).shape = [3, 3] := rfl
    rw [hnd, hnorm]
    simp only [hm, hpad, hsh, hcrop, hfil, List.map_cons, List.map_nil]
    have hat : ssimAt big ⟨1, boxWeight 1, .reflect, 0⟩ (9 / 8) 255 { gaussian := false, winSize := some 3 } (spot 95 140)
        (spot (100 + 5 * s) (100 - 40 * s)) [1, 1] = .ok ((-450 * s + (3 / 100 * 255) ^ 2) / (225 + 225 * s ^ 2 + (3 / 100 * 255) ^ 2)) := by
      unfold ssimAt
      simp only [hzip, spot_apply]
      have e1 : (9 / 8 : ℝ) * ((8 * (95 * 95) + 140 * 140) / 9 - (8 * 95 + 140) / 9 * ((8 * 95 + 140) / 9)) = 225 := by norm_num
      have e2 : (9 / 8 : ℝ) * ((8 * ((100 + 5 * s) * (100 + 5 * s)) + (100 - 40 * s) * (100 - 40 * s)) / 9 -
          (8 * (100 + 5 * s) + (100 - 40 * s)) / 9 * ((8 * (100 + 5 * s) + (100 - 40 * s)) / 9)) = 225 * s ^ 2 := by ring
      have e3 : (9 / 8 : ℝ) * ((8 * (95 * (100 + 5 * s)) + 140 * (100 - 40 * s)) / 9 -
          (8 * 95 + 140) / 9 * ((8 * (100 + 5 * s) + (100 - 40 * s)) / 9)) = -225 * s := by ring
      have e4 : ((8 * (100 + 5 * s) + (100 - 40 * s)) / 9 : ℝ) = 100 := by ring
      have e5 : ((8 * 95 + 140) / 9 : ℝ) = 100 := by norm_num
      rw [e1, e2, e3, e4, e5]
      have hsq : Real.sqrt 225 * Real.sqrt (225 * s ^ 2) = 225 * s := by
        rw [Real.sqrt_mul (by norm_num), Real.sqrt_sq hs.le, show (225 : ℝ) = 15 ^ 2 by norm_num, Real.sqrt_sq (by norm_num)]
        ring
      have hnn : ¬ ((225 : ℝ) < 0 ∨ 225 * s ^ 2 < 0) := by
        have : 0 ≤ 225 * s ^ 2 := by positivity
        rintro (h | h) <;> linarith
      have d1 : 225 * s + (3 / 100 * 255) ^ 2 / 2 ≠ 0 := by positivity
      have d2 : 225 + 225 * s ^ 2 + (3 / 100 * 255) ^ 2 ≠ 0 := by positivity
      have d3 : (100 : ℝ) ^ 2 + 100 ^ 2 + (1 / 100 * 255) ^ 2 ≠ 0 := by positivity
      unfold structureTerm contrastTerm luminanceTerm npDiv
      rw [if_neg hnn, if_neg hnn, mul_assoc 2 (Real.sqrt 225), hsq, if_neg d1, if_neg d2, if_neg d3]
      simp only [nanToNum, npPow, ExpArg.cast]
      norm_num
      field_simp
      ring
    rw [hat]
    simp [allOk, meanList]
  have h1 := hall (95 + 1 * 10) (140 + 1 * (-80)) (by norm_num) 1 (by norm_num) (by norm_num)
  have h2 := hall (95 + 3 / 2 * 10) (140 + 3 / 2 * (-80)) (by norm_num) 2 (by norm_num) (by norm_num)
  rw [← herr] at h1 h2
  refine ⟨_, _, ?_, h1, h2⟩
  norm_num

end Viqa
