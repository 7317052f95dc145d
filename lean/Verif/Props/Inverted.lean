import Verif.Props.SsimWeights
import Verif.Props.GsmTurned
import Verif.Props.Noise

/-!
C211: exchanging bright and dark in both images.
-/

namespace Viqa

/-- Negative of an image: the gray value `v` becomes `m - v`. -/
def Spec.invertedBy (m : ℝ) (x : NDArray ℝ) : NDArray ℝ := ⟨x.shape, fun i => m - x.get i⟩

open Spec (invertedBy)

theorem negative_toned (m : ℝ) (x : NDArray ℝ) : invertedBy m x = Spec.toned (-1) m x := by
  unfold Spec.invertedBy Spec.toned
  congr 1
  funext i
  ring

theorem mse_negative (m : ℝ) (x y : NDArray ℝ) : meanSquaredError (invertedBy m x) (invertedBy m y) = meanSquaredError x y := by
  unfold meanSquaredError
  show (if x.shape ≠ y.shape then _ else if x.size = 0 then _ else
    Except.ok (((indices x.shape).map (fun i => (m - x.get i - (m - y.get i)) ^ 2)).sum / x.size)) = _
  have : (fun i => (m - x.get i - (m - y.get i)) ^ 2) = fun i => (x.get i - y.get i) ^ 2 := by funext i; ring
  rw [this]

/-- **C211.** RMSE: for every pivot `m`. -/
theorem C211_rmse (m : ℝ) (x y : NDArray ℝ) : rmse (invertedBy m x) (invertedBy m y) = rmse x y := by
  unfold rmse
  rw [mse_negative]

/-- **C211.** PSNR. -/
theorem C211_psnr (m dr : ℝ) (x y : NDArray ℝ) : psnr dr (invertedBy m x) (invertedBy m y) = psnr dr x y := by
  have he : arrayEqual (invertedBy m x) (invertedBy m y) ↔ arrayEqual x y := by
    refine and_congr Iff.rfl (forall₂_congr (fun i _ => ?_))
    show m - x.get i = m - y.get i ↔ _
    constructor <;> intro h <;> linarith
  unfold psnr
  rw [mse_negative]
  by_cases h : arrayEqual x y
  · rw [if_pos h, if_pos (he.2 h)]
  · rw [if_neg h, if_neg (fun h' => h (he.1 h'))]

/-- **C211.** CNR changes its sign. -/
theorem C211_cnr (a : NDArray Rat) (args : CnrArgs) (m : Rat) (hauto : args.auto = false) :
    cnr (a.map (fun v => m - v)) args = (cnr a args).map (fun v => -v) := C54_invert a args m hauto

/-! ### SSIM -/

theorem stats_negative (f : Filter) (hf : f.Proper) (x y : NDArray ℝ) (hs : x.shape = y.shape) (m : ℝ) (p : List Nat)
    (hp : ReadsInside f x.shape p) :
    f.apply (invertedBy m x) p = m - f.apply x p ∧
    f.apply (NDArray.zip (· * ·) (invertedBy m x) (invertedBy m y)) p - f.apply (invertedBy m x) p * f.apply (invertedBy m y) p =
      f.apply (NDArray.zip (· * ·) x y) p - f.apply x p * f.apply y p := by
  have h1 := stats_toned f hf x (invertedBy m y) hs (-1) m p hp
  have h2 := stats_toned f hf y x hs.symm (-1) m p (hs ▸ hp)
  rw [← negative_toned] at h1 h2
  have comm : ∀ u v : NDArray ℝ, u.shape = v.shape → NDArray.zip (· * ·) u v = NDArray.zip (· * ·) v u := by
    intro u v h
    unfold NDArray.zip
    rw [h]
    congr 1
    funext i
    exact mul_comm _ _
  refine ⟨by rw [h1.1]; ring, ?_⟩
  rw [h1.2.2, comm x (invertedBy m y) hs, comm x y hs, mul_comm (f.apply x p) (f.apply (invertedBy m y) p), h2.2.2]
  ring

theorem ssimAt_negative (big : ℝ) (f : Filter) (hf : f.Proper) (norm dr m : ℝ) (a : SsimArgs) (x y : NDArray ℝ) (hs : x.shape = y.shape)
    (p : List Nat) (hp : ReadsInside f x.shape p) (h : a.alpha.cast = 0 ∨ f.apply x p = f.apply y p) :
    ssimAt big f norm dr a (invertedBy m x) (invertedBy m y) p = ssimAt big f norm dr a x y p := by
  obtain ⟨ux, vx⟩ := stats_negative f hf x x rfl m p hp
  obtain ⟨uy, vy⟩ := stats_negative f hf y y rfl m p (hs ▸ hp)
  obtain ⟨-, vxy⟩ := stats_negative f hf x y hs m p hp
  rw [ssimAt_terms, ssimAt_terms, vx, vy, vxy]
  have hl : npPow (nanToNum big (luminanceTerm (f.apply (invertedBy m x) p) (f.apply (invertedBy m y) p) ((a.k1 * dr) ^ 2))) a.alpha.cast =
      npPow (nanToNum big (luminanceTerm (f.apply x p) (f.apply y p) ((a.k1 * dr) ^ 2))) a.alpha.cast := by
    rcases h with h | h
    · rw [h, npPow_zero, npPow_zero]
    · have one : ∀ u : ℝ, nanToNum big (luminanceTerm u u ((a.k1 * dr) ^ 2)) = 1 := by
        intro u
        unfold luminanceTerm
        rw [show 2 * u * u + (a.k1 * dr) ^ 2 = u ^ 2 + u ^ 2 + (a.k1 * dr) ^ 2 by ring, nanToNum_self]
      rw [ux, uy, h, one, one]
  rw [hl]

/-- **C211 (partial).** SSIM, if the luminance has no weight or the windows of both images are equally bright.
Missing: images of different brightness, see `C211_ssim_refuted`. -/
theorem C211_ssim_partial (big dr m : ℝ) (a : SsimArgs) (hb : Spec.NoFill a) (x y : NDArray ℝ) (hs : x.shape = y.shape)
    (h : a.alpha.cast = 0 ∨ ∀ b, ∀ p ∈ cropPositions ((a.window - 1) / 2) x.shape, (a.filter b).apply x p = (a.filter b).apply y p) :
    structuralSimilarity big a dr (invertedBy m x) (invertedBy m y) = structuralSimilarity big a dr x y := by
  refine ssim_local big dr a a x y (invertedBy m x) (invertedBy m y) rfl rfl rfl rfl rfl rfl rfl rfl ?_
  intro norm b p hv hn hm hp
  refine ssimAt_negative big _ (a.filter_proper b) norm dr m a x y hs p (noFill_inside a x.shape hv hb b hm p hp) ?_
  exact h.imp_right (fun h => h b p hp)

/-- SSIM of two uniform images is the luminance term of their gray values. -/
theorem ssim_uniform (big dr : ℝ) (a : SsimArgs) (hb : Spec.NoFill a) (sh : List Nat) (u w v : ℝ)
    (h : structuralSimilarity big a dr ⟨sh, fun _ => u⟩ ⟨sh, fun _ => w⟩ = .ok v) :
    npPow (nanToNum big (luminanceTerm u w ((a.k1 * dr) ^ 2))) a.alpha.cast = .ok v := by
  obtain ⟨hv, norm, m, l, hn, hm, hl, hmean⟩ := ssim_ok _ _ _ _ _ _ h
  have hprod : ∀ c d : ℝ, NDArray.zip (· * ·) (⟨sh, fun _ => c⟩ : NDArray ℝ) ⟨sh, fun _ => d⟩ = ⟨sh, fun _ => c * d⟩ := fun _ _ => rfl
  have hat : ∀ p ∈ cropPositions ((a.window - 1) / 2) sh,
      ssimAt big (a.filter m) norm dr a ⟨sh, fun _ => u⟩ ⟨sh, fun _ => w⟩ p =
        (match npPow (nanToNum big (luminanceTerm u w ((a.k1 * dr) ^ 2))) a.alpha.cast with
        | .ok t => .ok t
        | .error _ => .error .notANumber) := by
    intro p hp
    have hc : ∀ c : ℝ, (a.filter m).apply ⟨sh, fun _ => c⟩ p = c := fun c =>
      apply_const _ (a.filter_proper m) sh c p (noFill_inside a sh hv hb m hm p hp)
    rw [ssimAt_terms, hprod, hprod, hprod]
    simp only [hc, sub_self, mul_zero]
    have e1 : nanToNum big (contrastTerm 0 0 ((a.k2 * dr) ^ 2)) = 1 := by
      unfold contrastTerm
      rw [if_neg (by simp)]
      simpa using nanToNum_self big ((a.k2 * dr) ^ 2)
    have e2 : nanToNum big (structureTerm 0 0 0 ((a.k2 * dr) ^ 2 / 2)) = 1 := by
      unfold structureTerm
      rw [if_neg (by simp)]
      simpa using nanToNum_self big ((a.k2 * dr) ^ 2 / 2)
    rw [e1, e2, npPow_one, npPow_one]
    cases npPow (nanToNum big (luminanceTerm u w ((a.k1 * dr) ^ 2))) a.alpha.cast with
    | error e => rfl
    | ok t => simp
  have hl0 : l ≠ [] := by
    rintro rfl
    simp [meanList] at hmean
  have hval : ∀ t ∈ l, npPow (nanToNum big (luminanceTerm u w ((a.k1 * dr) ^ 2))) a.alpha.cast = .ok t := by
    intro t ht
    have : (Except.ok t : Py ℝ) ∈ l.map .ok := List.mem_map_of_mem ht
    rw [← hl] at this
    obtain ⟨p, hp, he⟩ := List.mem_map.1 this
    rw [hat p hp] at he
    cases hq : npPow (nanToNum big (luminanceTerm u w ((a.k1 * dr) ^ 2))) a.alpha.cast with
    | error e => rw [hq] at he; cases he
    | ok q => rw [hq] at he; exact he
  obtain ⟨t, ht⟩ := List.exists_mem_of_ne_nil l hl0
  have := meanList_const l t hl0 (fun b hb => by
    have h1 := hval b hb
    rw [hval t ht] at h1
    exact (Except.ok.inj h1).symm)
  rw [this] at hmean
  cases hmean
  exact hval v ht

/-- A black and a dark gray image of any size are far apart, a white and a light gray
one nearly equal. Gray values 0 and 51 of 255: 1/401 and, inverted, 16001/16401. -/
theorem C211_ssim_value (big : ℝ) (sh : List Nat) (v v' : ℝ)
    (h : structuralSimilarity big {} 255 ⟨sh, fun _ => 0⟩ ⟨sh, fun _ => 51⟩ = .ok v)
    (h' : structuralSimilarity big {} 255 (invertedBy 255 ⟨sh, fun _ => 0⟩) (invertedBy 255 ⟨sh, fun _ => 51⟩) = .ok v') :
    v = 1 / 401 ∧ v' = 16001 / 16401 := by
  have h1 := ssim_uniform big 255 {} (.inr (.inl rfl)) sh 0 51 v h
  have h2 := ssim_uniform big 255 {} (.inr (.inl rfl)) sh (255 - 0) (255 - 51) v' h'
  unfold luminanceTerm npDiv at h1 h2
  rw [if_neg (by norm_num)] at h1 h2
  unfold nanToNum npPow ExpArg.cast at h1 h2
  norm_num at h1 h2
  exact ⟨h1.symm, h2.symm⟩

/-- **C211 is false** for SSIM. -/
theorem C211_ssim_refuted (big : ℝ) : ∃ v v',
    structuralSimilarity big {} 255 ⟨[11, 11], fun _ => 0⟩ ⟨[11, 11], fun _ => 51⟩ = .ok v ∧
    structuralSimilarity big {} 255 (invertedBy 255 ⟨[11, 11], fun _ => 0⟩) (invertedBy 255 ⟨[11, 11], fun _ => 51⟩) = .ok v' ∧ v ≠ v' := by
  have hr : gaussRadius (3 / 2) = 5 := by
    unfold gaussRadius
    rw [Nat.floor_eq_iff (by norm_num)]
    norm_num
  have hv : ({} : SsimArgs).Valid [11, 11] :=
    ⟨by norm_num, by norm_num, by norm_num, by intro n hn; simp [SsimArgs.window, hr] at hn ⊢; omega, by simp [SsimArgs.window]⟩
  obtain ⟨v, h⟩ := C32_score_exists big 255 {} ⟨[11, 11], fun _ => 0⟩ ⟨[11, 11], fun _ => 51⟩ hv (by simp) (by simp) .reflect (by decide)
    (by simp [ExpArg.cast]) (by simp [ExpArg.cast]) (by simp [ExpArg.cast])
  obtain ⟨v', h'⟩ := C32_score_exists big 255 {} (invertedBy 255 ⟨[11, 11], fun _ => 0⟩) (invertedBy 255 ⟨[11, 11], fun _ => 51⟩) hv (by simp [invertedBy]) (by simp) .reflect (by decide)
    (by simp [ExpArg.cast]) (by simp [ExpArg.cast]) (by simp [ExpArg.cast])
  obtain ⟨e1, e2⟩ := C211_ssim_value big [11, 11] v v' h h'
  exact ⟨v, v', h, h', by rw [e1, e2]; norm_num⟩

/-- Instance of the partial claim: both images have the same mean in every window of 3 × 3 pixels. -/
example (big : ℝ) : structuralSimilarity big { gaussian := false, winSize := some 3 } 255
      (invertedBy 255 ⟨[3, 3], fun i => i.sum⟩) (invertedBy 255 ⟨[3, 3], fun i => 4 - i.sum⟩) =
    structuralSimilarity big { gaussian := false, winSize := some 3 } 255 ⟨[3, 3], fun i => i.sum⟩ ⟨[3, 3], fun i => 4 - i.sum⟩ := by
  refine C211_ssim_partial big 255 255 _ (.inr (.inr rfl)) _ _ rfl (.inr fun b p hp => ?_)
  have hpos : cropPositions ((({ gaussian := false, winSize := some 3 } : SsimArgs).window - 1) / 2) [3, 3] = [[1, 1]] := by
    simp only [SsimArgs.window]; decide
  rw [hpos, List.mem_singleton] at hp
  subst hp
  simp [SsimArgs.filter, SsimArgs.window, Filter.apply, offsets, offsets1, NDArray.ndim, List.range_succ, offsetWeight, boxWeight,
    sample, shiftIndex, extendIndices, extendIndex]
  norm_num

/-- **C211 (partial).** GSM of the negatives is the GSM of both images turned by 180 degrees, for images and volumes of every
shape and floating point type: exchanging bright and dark is as good or bad as turning the object. -/
theorem C211_gsm_partial (dr c p m : Rat) (x y : NDArray Rat) (hxy : x.shape = y.shape) :
    gradientSimilarity floatOps dr c p (x.map (fun v => m - v)) (y.map (fun v => m - v)) =
      gradientSimilarity floatOps dr c p ⟨x.shape, fun i => x.get (Spec.turned x.shape i)⟩ ⟨y.shape, fun i => y.get (Spec.turned y.shape i)⟩ := by
  have e : ∀ z : NDArray Rat, Spec.turnedNegative m (z.map (fun v => m - v)) = ⟨z.shape, fun i => z.get (Spec.turned z.shape i)⟩ := by
    intro z
    unfold Spec.turnedNegative NDArray.map
    congr 1
    funext i
    simp only
    ring
  have h := C81_turned_partial dr c p m (x.map (fun v => m - v)) (y.map (fun v => m - v)) hxy
  rw [e x, e y] at h
  exact h.symm

/-- The negative of the bar has no score with itself, and neither has the bar if it is turned. -/
example : gradientSimilarity floatOps 255 200 (1 / 10) (row [1, 1, 0]) (row [1, 1, 0]) = .error .notANumber := by
  decide +kernel

/-- **C211 is false** for GSM, which takes the largest gradient and the divisor with their signs: a bright bar has a score with
itself, its negative has none. Both change places if the images are turned by 180 degrees, too (`C81_turned_partial`). -/
theorem C211_gsm_refuted : gradientSimilarity floatOps 255 200 (1 / 10) (row [0, 1, 1]) (row [0, 1, 1]) = .ok 1 ∧
    gradientSimilarity floatOps 255 200 (1 / 10) ((row [0, 1, 1]).map (fun v => 1 - v)) ((row [0, 1, 1]).map (fun v => 1 - v)) =
      .error .notANumber := by
  decide +kernel

end Viqa
