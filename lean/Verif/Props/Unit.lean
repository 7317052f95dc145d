import Verif.Model.Ssim
import Verif.Model.Distance
import Verif.Model.Gsm
import Verif.Lemmas.Ssim
import Verif.Props.Ssim

/-!
C128: the unit of the gray values does not matter. If both images, the data range and the other
parameters given in gray values are multiplied by the same factor, the scores stay the same.
-/

namespace Viqa

/-- All gray values multiplied by `s`. -/
def Spec.scaled (s : ℝ) (x : NDArray ℝ) : NDArray ℝ := ⟨x.shape, fun i => s * x.get i⟩

open Spec (scaled)

/-! ### SSIM -/

theorem npDiv_scale (t a b : ℝ) (ht : 0 < t) : npDiv (t * a) (t * b) = npDiv a b := by
  unfold npDiv
  by_cases hb : b = 0
  · subst hb
    simp only [mul_zero, if_true, mul_eq_zero, ht.ne', false_or]
    by_cases ha : a = 0
    · simp [ha]
    · rw [if_neg ha, if_neg ha]
      simp only [mul_pos_iff_of_pos_left ht]
  · rw [if_neg (by simp [ht.ne', hb]), if_neg hb, mul_div_mul_left _ _ ht.ne']

theorem scaled_neg (t v : ℝ) (ht : 0 < t) : t * v < 0 ↔ v < 0 := by
  constructor
  · intro h
    by_contra h'
    have := mul_nonneg ht.le (not_lt.1 h')
    linarith
  · exact fun h => mul_neg_of_pos_of_neg ht h

theorem structure_scale (t vx vy vxy c : ℝ) (ht : 0 < t) :
    structureTerm (t * vx) (t * vy) (t * vxy) (t * c) = structureTerm vx vy vxy c := by
  unfold structureTerm
  simp only [scaled_neg t _ ht]
  split
  · rfl
  · rename_i h
    push Not at h
    rw [Real.sqrt_mul ht.le, Real.sqrt_mul ht.le, ← npDiv_scale t (vxy + c) _ ht]
    congr 1
    · ring
    · have := Real.mul_self_sqrt ht.le
      linear_combination (Real.sqrt vx * Real.sqrt vy) * this

theorem contrast_scale (t vx vy c : ℝ) (ht : 0 < t) : contrastTerm (t * vx) (t * vy) (t * c) = contrastTerm vx vy c := by
  unfold contrastTerm
  simp only [scaled_neg t _ ht]
  split
  · rfl
  · rename_i h
    push Not at h
    rw [Real.sqrt_mul ht.le, Real.sqrt_mul ht.le, ← npDiv_scale t (2 * Real.sqrt vx * Real.sqrt vy + c) _ ht]
    congr 1
    · have := Real.mul_self_sqrt ht.le
      linear_combination (2 * Real.sqrt vx * Real.sqrt vy) * this
    · ring

/-- The padding value is zero or never read. -/
def PaddingUnread (f : Filter) (sh p : List Nat) : Prop :=
  f.cval = 0 ∨ ∀ o ∈ offsets f.radius sh.length, ∃ i, extendIndices f.mode sh (shiftIndex p o) = some i

theorem filter_mul (f : Filter) (t : ℝ) (x g : NDArray ℝ) (hg : g.shape = x.shape) (hget : ∀ i, g.get i = t * x.get i)
    (p : List Nat) (hp : PaddingUnread f x.shape p) : f.apply g p = t * f.apply x p := by
  unfold Filter.apply
  have hnd : g.ndim = x.ndim := by unfold NDArray.ndim; rw [hg]
  rw [← List.sum_map_mul_left, hnd]
  refine congrArg List.sum (List.map_congr_left (fun o ho => ?_))
  have : sample f g (shiftIndex p o) = t * sample f x (shiftIndex p o) := by
    unfold sample
    rw [hg]
    cases hc : extendIndices f.mode x.shape (shiftIndex p o) with
    | some i => exact hget i
    | none =>
      rcases hp with h | h
      · simp [h]
      · obtain ⟨i, hi⟩ := h o ho
        rw [hi] at hc
        cases hc
  rw [this]
  ring

theorem ssimAt_scale (big : ℝ) (f : Filter) (norm dr s : ℝ) (hs : s ≠ 0) (a : SsimArgs) (x y : NDArray ℝ)
    (hxy : x.shape = y.shape) (p : List Nat) (hp : PaddingUnread f x.shape p) :
    ssimAt big f norm (s * dr) a (scaled s x) (scaled s y) p = ssimAt big f norm dr a x y p := by
  have ht : 0 < s * s := mul_self_pos.2 hs
  have hp' : PaddingUnread f y.shape p := hxy ▸ hp
  unfold ssimAt
  rw [filter_mul f s x (scaled s x) rfl (fun _ => rfl) p hp, filter_mul f s y (scaled s y) rfl (fun _ => rfl) p hp',
    filter_mul f (s * s) (NDArray.zip (· * ·) x x) (NDArray.zip (· * ·) (scaled s x) (scaled s x)) rfl
      (fun i => by show s * x.get i * (s * x.get i) = s * s * (x.get i * x.get i); ring) p hp,
    filter_mul f (s * s) (NDArray.zip (· * ·) y y) (NDArray.zip (· * ·) (scaled s y) (scaled s y)) rfl
      (fun i => by show s * y.get i * (s * y.get i) = s * s * (y.get i * y.get i); ring) p hp',
    filter_mul f (s * s) (NDArray.zip (· * ·) x y) (NDArray.zip (· * ·) (scaled s x) (scaled s y)) rfl
      (fun i => by show s * x.get i * (s * y.get i) = s * s * (x.get i * y.get i); ring) p hp]
  generalize f.apply x p = ux
  generalize f.apply y p = uy
  generalize f.apply (NDArray.zip (· * ·) x x) p = uxx
  generalize f.apply (NDArray.zip (· * ·) y y) p = uyy
  generalize f.apply (NDArray.zip (· * ·) x y) p = uxy
  simp only
  rw [show norm * (s * s * uxx - s * ux * (s * ux)) = s * s * (norm * (uxx - ux * ux)) by ring,
    show norm * (s * s * uyy - s * uy * (s * uy)) = s * s * (norm * (uyy - uy * uy)) by ring,
    show norm * (s * s * uxy - s * ux * (s * uy)) = s * s * (norm * (uxy - ux * uy)) by ring,
    show (a.k2 * (s * dr)) ^ 2 / 2 = s * s * ((a.k2 * dr) ^ 2 / 2) by ring,
    show (a.k2 * (s * dr)) ^ 2 = s * s * (a.k2 * dr) ^ 2 by ring,
    show (a.k1 * (s * dr)) ^ 2 = s * s * (a.k1 * dr) ^ 2 by ring,
    structure_scale _ _ _ _ _ ht, contrast_scale _ _ _ _ ht]
  have hl : luminanceTerm (s * ux) (s * uy) (s * s * (a.k1 * dr) ^ 2) = luminanceTerm ux uy ((a.k1 * dr) ^ 2) := by
    unfold luminanceTerm
    rw [← npDiv_scale (s * s) (2 * ux * uy + _) _ ht]
    congr 1 <;> ring
  rw [hl]

theorem harmless_unread (a : SsimArgs) (sh : List Nat) (hv : a.Valid sh) (hb : BorderHarmless a) (m : BorderMode)
    (hm : (open Classical in if a.gaussian = true ∧ a.sigma = 0 then .ok .reflect else borderMode a.mode) =
      (.ok m : Py BorderMode)) (p : List Nat) (hp : p ∈ cropPositions ((a.window - 1) / 2) sh) :
    PaddingUnread (a.filter m) sh p := by
  by_cases h0 : a.cval = 0
  · left; rw [(filter_mode a m).2, h0]
  · right
    have hw : ({ a with cval := 2 } : SsimArgs).window = a.window := rfl
    have hf : (({ a with cval := 2 } : SsimArgs).filter m).mode = (a.filter m).mode ∧
        (({ a with cval := 2 } : SsimArgs).filter m).radius = (a.filter m).radius := by
      unfold SsimArgs.filter
      split <;> exact ⟨rfl, rfl⟩
    have := harmless_faithful { a with cval := 2 } sh ⟨hv.k1, hv.k2, hv.sigma, hv.fits, hv.odd⟩
      (by rcases hb with h | h | h
          · exact .inl h
          · exact absurd h h0
          · exact .inr (.inr h)) m hm p hp
    rcases this with h | h
    · rw [(filter_mode _ m).2] at h
      norm_num at h
    · rw [hf.1, hf.2] at h
      exact h

/-- SSIM: every factor but zero (negative factors invert the images), and all parameters for which the
border cannot falsify the statistics, which includes the default ones. -/
theorem C128_ssim (big dr s : ℝ) (hs : s ≠ 0) (a : SsimArgs) (ha : BorderHarmless a) (x y : NDArray ℝ)
    (hxy : x.shape = y.shape) :
    structuralSimilarity big a (s * dr) (scaled s x) (scaled s y) = structuralSimilarity big a dr x y := by
  unfold structuralSimilarity
  show (if a.k1 < 0 then _ else if a.k2 < 0 then _ else if a.sigma < 0 then _ else if x.shape.any _ = true then _ else _) = _
  split
  · rfl
  split
  · rfl
  split
  · rfl
  split
  · rfl
  split
  · rfl
  rename_i h1 h2 h3 h4 h5
  have hv : a.Valid x.shape := by
    refine ⟨not_lt.1 h1, not_lt.1 h2, not_lt.1 h3, ?_, by simpa using h5⟩
    simpa only [List.any_eq_true, decide_eq_true_eq, not_exists, not_and, not_lt] using h4
  show (match covNorm a x.ndim with | .error e => _ | .ok norm => _) = _
  cases covNorm a x.ndim with
  | error e => rfl
  | ok norm =>
    simp only
    have hun := harmless_unread a x.shape hv ha
    generalize (if a.gaussian ∧ a.sigma = 0 then (Except.ok BorderMode.reflect : Py BorderMode) else borderMode a.mode) = bm at hun ⊢
    cases bm with
    | error e => rfl
    | ok m =>
      simp only
      have : (cropPositions ((a.window - 1) / 2) (scaled s x).shape).map
          (ssimAt big (a.filter m) norm (s * dr) a (scaled s x) (scaled s y)) =
          (cropPositions ((a.window - 1) / 2) x.shape).map (ssimAt big (a.filter m) norm dr a x y) :=
        List.map_congr_left (fun p hp => ssimAt_scale big (a.filter m) norm dr s hs a x y hxy p (hun m rfl p hp))
      rw [this]

theorem C128_uqi (big dr s : ℝ) (hs : s ≠ 0) (w : Option Nat) (x y : NDArray ℝ) (hxy : x.shape = y.shape) :
    uqi big (s * dr) w (scaled s x) (scaled s y) = uqi big dr w x y :=
  C128_ssim big dr s hs _ (.inr (.inr (.inr rfl))) x y hxy

/-! ### RMSE and PSNR -/

theorem mse_scaled (s : ℝ) (x y : NDArray ℝ) (hxy : x.shape = y.shape) :
    meanSquaredError (scaled s x) (scaled s y) = (match meanSquaredError x y with
      | .error e => .error e
      | .ok v => .ok (s ^ 2 * v)) := by
  unfold meanSquaredError
  have h1 : ¬ (scaled s x).shape ≠ (scaled s y).shape := fun h => h hxy
  rw [if_neg h1, if_neg (c := x.shape ≠ y.shape) (fun h => h hxy)]
  show (if x.size = 0 then _ else _) = _
  by_cases hz : x.size = 0
  · rw [if_pos hz, if_pos hz]
  · rw [if_neg hz, if_neg hz]
    simp only [Except.ok.injEq]
    rw [mul_div_assoc', ← List.sum_map_mul_left]
    congr 2
    refine List.map_congr_left (fun i _ => ?_)
    show (s * x.get i - s * y.get i) ^ 2 = s ^ 2 * (x.get i - y.get i) ^ 2
    ring

/-- RMSE is measured in gray values: it is multiplied by the absolute value of the factor. -/
theorem C128_rmse (s : ℝ) (x y : NDArray ℝ) (hxy : x.shape = y.shape) (v : ℝ) (h : rmse x y = .ok v) :
    rmse (scaled s x) (scaled s y) = .ok (|s| * v) := by
  unfold rmse at h ⊢
  rw [mse_scaled s x y hxy]
  cases hm : meanSquaredError x y with
  | error e => rw [hm] at h; cases h
  | ok m =>
    rw [hm] at h
    cases h
    simp only [Except.ok.injEq]
    rw [Real.sqrt_mul (sq_nonneg s), Real.sqrt_sq_eq_abs]

theorem C128_psnr (dr s : ℝ) (hs : s ≠ 0) (x y : NDArray ℝ) (hxy : x.shape = y.shape) :
    psnr (s * dr) (scaled s x) (scaled s y) = psnr dr x y := by
  have he : arrayEqual (scaled s x) (scaled s y) ↔ arrayEqual x y := by
    unfold arrayEqual
    refine and_congr Iff.rfl (forall₂_congr (fun i _ => ?_))
    show s * x.get i = s * y.get i ↔ _
    exact mul_right_inj' hs
  unfold psnr
  rw [mse_scaled s x y hxy]
  by_cases h : arrayEqual x y
  · rw [if_pos h, if_pos (he.2 h)]
  · rw [if_neg h, if_neg (fun h' => h (he.1 h'))]
    cases meanSquaredError x y with
    | error e => rfl
    | ok v =>
      have : (s * dr) ^ 2 / (s ^ 2 * v) = dr ^ 2 / v := by
        rw [mul_pow, mul_div_mul_left _ _ (pow_ne_zero 2 hs)]
      simp only [this]

/-! ### GSM -/

/-- All gray values multiplied by `s`. -/
def Spec.scaledQ (s : Rat) (x : NDArray Rat) : NDArray Rat := ⟨x.shape, fun i => s * x.get i⟩

open Spec (scaledQ)

theorem correlate_scaled (w : NDArray Int) (s : Rat) (x : NDArray Rat) (p : List Nat) :
    correlateAt w (scaledQ s x) p = s * correlateAt w x p := by
  unfold correlateAt
  rw [← List.sum_map_mul_left]
  refine congrArg List.sum (List.map_congr_left (fun o _ => ?_))
  show _ * (match extendIndices .reflect x.shape (kernelPosition w.shape p o) with
    | some i => s * x.get i
    | none => 0) = _
  cases extendIndices .reflect x.shape (kernelPosition w.shape p o) <;> simp only [] <;> ring

theorem gradient_scaled (w : NDArray Int) (s : Rat) (x : NDArray Rat) :
    gradient floatOps w (scaledQ s x) = scaledQ s (gradient floatOps w x) := by
  unfold gradient
  show (⟨x.shape, _⟩ : NDArray Rat) = ⟨x.shape, _⟩
  congr 1
  funext p
  exact correlate_scaled w s x p

theorem ratAbs_scaled (s q : Rat) (hs : 0 < s) : ratAbs (s * q) = s * ratAbs q := by
  unfold ratAbs
  by_cases h : q < 0
  · rw [if_pos h, if_pos (mul_neg_of_pos_of_neg hs h)]; ring
  · rw [if_neg h, if_neg (not_lt.2 (mul_nonneg hs.le (not_lt.1 h)))]

theorem toList_scaled (s : Rat) (g : NDArray Rat) : (scaledQ s g).toList = g.toList.map (s * ·) := by
  unfold NDArray.toList
  rw [List.map_map]
  rfl

theorem meanAbs_scaled (s : Rat) (hs : 0 < s) (g : NDArray Rat) : meanAbs (scaledQ s g) = s * meanAbs g := by
  unfold meanAbs
  rw [toList_scaled, List.map_map, List.length_map, mul_div_assoc', ← List.sum_map_mul_left]
  congr 2
  exact List.map_congr_left (fun q _ => ratAbs_scaled s q hs)

theorem strongest_scaled (s : Rat) (hs : 0 < s) (l : List (NDArray Rat)) (g : NDArray Rat) :
    strongest (scaledQ s g) (l.map (scaledQ s)) = scaledQ s (strongest g l) := by
  induction l generalizing g with
  | nil => rfl
  | cons h l ih =>
    simp only [List.map_cons, strongest, meanAbs_scaled s hs, mul_lt_mul_iff_right₀ hs]
    rw [← ih]
    split <;> rfl

theorem largest_scaled (s : Rat) (hs : 0 < s) (l : List Rat) (a : Rat) :
    largest (s * a) (l.map (s * ·)) = s * largest a l := by
  induction l generalizing a with
  | nil => rfl
  | cons b l ih =>
    simp only [List.map_cons, largest, mul_lt_mul_iff_right₀ hs]
    rw [← ih]
    split <;> rfl

theorem quality_scaled (s : Rat) (hs : 0 < s) (p k dr gr gm d a b : Rat) :
    quality floatOps p k (s * dr) (s * gr) (s * gm) (s * d) (s * a) (s * b) = quality floatOps p k dr gr gm d a b := by
  unfold quality
  have hr : ratAbs (s * gr - s * gm) / (s * d) = ratAbs (gr - gm) / d := by
    rw [← mul_sub, ratAbs_scaled s _ hs, mul_div_mul_left _ _ hs.ne']
  have hl : lumSim floatOps (s * dr) (s * a) (s * b) = lumSim floatOps dr a b := by
    show 1 - ((s * a - s * b) / (s * dr)) ^ 2 = 1 - ((a - b) / dr) ^ 2
    rw [← mul_sub, mul_div_mul_left _ _ hs.ne']
  simp only [hr, hl, mul_eq_zero, hs.ne', false_or]

theorem gsmWith_scaled (s : Rat) (hs : 0 < s) (dr c p : Rat) (x y : NDArray Rat) (w : NDArray Int)
    (ws : List (NDArray Int)) :
    gsmWith floatOps (s * dr) (s * c) p (scaledQ s x) (scaledQ s y) w ws = gsmWith floatOps dr c p x y w ws := by
  have hg : ∀ x, strongest (gradient floatOps w (scaledQ s x)) (ws.map (fun w => gradient floatOps w (scaledQ s x))) =
      scaledQ s (strongest (gradient floatOps w x) (ws.map (fun w => gradient floatOps w x))) := by
    intro x
    rw [← strongest_scaled s hs, List.map_map, gradient_scaled]
    congr 1
    exact List.map_congr_left (fun w _ => gradient_scaled w s x)
  unfold gsmWith
  simp only [hg]
  generalize strongest (gradient floatOps w x) (ws.map (fun w => gradient floatOps w x)) = gr
  generalize strongest (gradient floatOps w y) (ws.map (fun w => gradient floatOps w y)) = gm
  rw [toList_scaled, toList_scaled]
  cases gr.toList with
  | nil => rfl
  | cons r0 rs =>
    cases gm.toList with
    | nil => rfl
    | cons m0 ms =>
      simp only [List.map_cons, largest_scaled s hs]
      rw [show [s * largest m0 ms] = [largest m0 ms].map (s * ·) from rfl, largest_scaled s hs,
        show [scaledQ s gm] = [gm].map (scaledQ s) from rfl, strongest_scaled s hs]
      by_cases h0 : largest (largest r0 rs) [largest m0 ms] = 0
      · rw [if_pos h0, if_pos (by rw [h0, mul_zero])]
      · rw [if_neg h0, if_neg (mul_ne_zero hs.ne' h0), mul_div_mul_left _ _ hs.ne']
        congr 1
        exact List.map_congr_left (fun i _ => quality_scaled s hs p _ dr _ _ _ _ _)

/-- GSM of floating point images, if its constant `c`, which is compared with gradients, is multiplied,
too. -/
theorem C128_gsm (s : Rat) (hs : 0 < s) (dr c p : Rat) (x y : NDArray Rat) :
    gradientSimilarity floatOps (s * dr) (s * c) p (scaledQ s x) (scaledQ s y) =
      gradientSimilarity floatOps dr c p x y := by
  unfold gradientSimilarity
  show (if x.ndim = 3 then _ else if x.ndim = 2 then _ else _) = _
  rw [gsmWith_scaled s hs, gsmWith_scaled s hs]

/-- With the default constant, which is made for 8 bit images, the scores of the same images in 8 bit and
in 16 bit units differ. -/
theorem C128_gsm_constant : ∃ x y : NDArray Rat, x.shape = y.shape ∧
    gradientSimilarity floatOps (257 * 255) 200 (1 / 10) (scaledQ 257 x) (scaledQ 257 y) ≠
      gradientSimilarity floatOps 255 200 (1 / 10) x y := by
  refine ⟨⟨[2, 2], fun i => if i = [0, 1] then 200 else 0⟩, ⟨[2, 2], fun i => if i = [0, 1] then 100 else 0⟩, rfl, ?_⟩
  decide +kernel

/-- Non-trivial instance: the images in millimetres and in metres per pixel. -/
example : psnr (1 / 1000 * 255) (scaled (1 / 1000) ⟨[2], fun i => (i.getD 0 0 : ℝ)⟩) (scaled (1 / 1000) ⟨[2], fun _ => 0⟩) =
    psnr 255 ⟨[2], fun i => (i.getD 0 0 : ℝ)⟩ ⟨[2], fun _ => 0⟩ :=
  C128_psnr 255 (1 / 1000) (by norm_num) _ _ rfl

/-- The default parameters of SSIM are covered. -/
example : BorderHarmless {} := .inr (.inl rfl)

example : uqi 1e308 (1000 * 255) none (scaled 1000 ⟨[9, 9], fun i => i.sum⟩) (scaled 1000 ⟨[9, 9], fun i => i.length⟩) =
    uqi 1e308 255 none ⟨[9, 9], fun i => i.sum⟩ ⟨[9, 9], fun i => i.length⟩ := C128_uqi _ _ _ (by norm_num) _ _ _ rfl

example : structuralSimilarity 1e308 {} (1000 * 255) (scaled 1000 ⟨[11, 11], fun i => i.sum⟩) (scaled 1000 ⟨[11, 11], fun i => i.length⟩) =
    structuralSimilarity 1e308 {} 255 ⟨[11, 11], fun i => i.sum⟩ ⟨[11, 11], fun i => i.length⟩ :=
  C128_ssim _ _ _ (by norm_num) _ (.inr (.inl rfl)) _ _ rfl

example : rmse (scaled (-2) ⟨[2], fun i => (i.getD 0 0 : ℝ)⟩) (scaled (-2) ⟨[2], fun i => (i.getD 0 0 : ℝ) + 1⟩) = .ok 2 := by
  have h : rmse ⟨[2], fun i => (i.getD 0 0 : ℝ)⟩ ⟨[2], fun i => (i.getD 0 0 : ℝ) + 1⟩ = .ok 1 := by
    simp [rmse, meanSquaredError, indices, List.range_succ, NDArray.size]
  have := C128_rmse (-2) ⟨[2], fun i => (i.getD 0 0 : ℝ)⟩ ⟨[2], fun i => (i.getD 0 0 : ℝ) + 1⟩ rfl _ h
  norm_num at this
  exact this

example : gradientSimilarity floatOps (10 * 255) (10 * 200) (1 / 10) (scaledQ 10 ⟨[5, 5], fun i => i.sum⟩) (scaledQ 10 ⟨[5, 5], fun i => i.length⟩) =
    gradientSimilarity floatOps 255 200 (1 / 10) ⟨[5, 5], fun i => i.sum⟩ ⟨[5, 5], fun i => i.length⟩ := C128_gsm _ (by norm_num) _ _ _ _ _

end Viqa
