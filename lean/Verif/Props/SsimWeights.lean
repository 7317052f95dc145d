import Verif.Props.Distortion
import Verif.Props.Unit

/-!
C180: the exponents of SSIM weight luminance, contrast and structure.
-/

namespace Viqa

/-- Two computations with the same local results have the same result. -/
theorem ssim_local (big dr : ℝ) (a a' : SsimArgs) (x y x' y' : NDArray ℝ) (hs : x'.shape = x.shape)
    (hwin : a'.winSize = a.winSize) (hgauss : a'.gaussian = a.gaussian) (hk1 : a'.k1 = a.k1) (hk2 : a'.k2 = a.k2)
    (hsig : a'.sigma = a.sigma) (hmode : a'.mode = a.mode) (hcval : a'.cval = a.cval)
    (h : ∀ norm m p, a.Valid x.shape → covNorm a x.ndim = .ok norm →
      (open Classical in if a.gaussian = true ∧ a.sigma = 0 then .ok .reflect else borderMode a.mode) = (.ok m : Py BorderMode) →
      p ∈ cropPositions ((a.window - 1) / 2) x.shape →
      ssimAt big (a.filter m) norm dr a' x' y' p = ssimAt big (a.filter m) norm dr a x y p) :
    structuralSimilarity big a' dr x' y' = structuralSimilarity big a dr x y := by
  have hw : a'.window = a.window := by unfold SsimArgs.window; rw [hwin, hgauss, hsig]
  have hcov : covNorm a' x'.ndim = covNorm a x.ndim := by
    unfold covNorm NDArray.ndim; rw [hw, hgauss, hwin, hs]
  have hf : ∀ m, a'.filter m = a.filter m := by
    intro m; unfold SsimArgs.filter; rw [hgauss, hsig, hcval, hw]
  unfold structuralSimilarity
  rw [hk1, hk2, hsig, hs, hw, hcov, hgauss, hmode]
  split
  · rfl
  split
  · rfl
  split
  · rfl
  split
  · rfl
  split
  · rfl
  rename_i h1 h2 h3 h4 h5
  have hv : a.Valid x.shape := by
    refine ⟨not_lt.1 h1, not_lt.1 h2, not_lt.1 h3, ?_, by simpa using h5⟩
    simpa only [List.any_eq_true, decide_eq_true_eq, not_exists, not_and, not_lt] using h4
  cases hc : covNorm a x.ndim with
  | error e => rfl
  | ok norm =>
    simp only
    generalize hbm : (if a.gaussian = true ∧ a.sigma = 0 then (Except.ok BorderMode.reflect : Py BorderMode) else borderMode a.mode) = bm
    cases bm with
    | error e => rfl
    | ok m =>
      simp only
      have : (cropPositions ((a.window - 1) / 2) x.shape).map (ssimAt big (a'.filter m) norm dr a' x' y') =
          (cropPositions ((a.window - 1) / 2) x.shape).map (ssimAt big (a.filter m) norm dr a x y) := by
        rw [hf]
        exact List.map_congr_left (fun p hp => h norm m p hv hc (by convert hbm) hp)
      rw [this]

/-- Local statistics after a change of gain and brightness of one image. -/
theorem stats_toned (f : Filter) (hf : f.Proper) (x y : NDArray ℝ) (hs : x.shape = y.shape) (t c : ℝ) (p : List Nat)
    (hp : ReadsInside f x.shape p) :
    f.apply (Spec.toned t c x) p = t * f.apply x p + c ∧
    f.apply (NDArray.zip (· * ·) (Spec.toned t c x) (Spec.toned t c x)) p - f.apply (Spec.toned t c x) p * f.apply (Spec.toned t c x) p =
      t ^ 2 * (f.apply (NDArray.zip (· * ·) x x) p - f.apply x p * f.apply x p) ∧
    f.apply (NDArray.zip (· * ·) (Spec.toned t c x) y) p - f.apply (Spec.toned t c x) p * f.apply y p =
      t * (f.apply (NDArray.zip (· * ·) x y) p - f.apply x p * f.apply y p) := by
  have e1 : f.apply (Spec.toned t c x) p = t * f.apply x p + c := by
    rw [apply_affine f hf x (Spec.toned t c x) x rfl rfl 0 t c (fun i => by simp only [Spec.toned]; ring) p hp]
    ring
  have e2 : f.apply (NDArray.zip (· * ·) (Spec.toned t c x) y) p = t * f.apply (NDArray.zip (· * ·) x y) p + c * f.apply y p := by
    rw [apply_affine f hf y (NDArray.zip (· * ·) (Spec.toned t c x) y) (NDArray.zip (· * ·) x y) hs hs t c 0
      (fun i => by simp only [Spec.toned, NDArray.zip]; ring) p (hs ▸ hp)]
    ring
  have e3 : f.apply (NDArray.zip (· * ·) (Spec.toned t c x) (Spec.toned t c x)) p =
      t ^ 2 * f.apply (NDArray.zip (· * ·) x x) p + 2 * t * c * f.apply x p + c ^ 2 := by
    rw [apply_affine f hf x (NDArray.zip (· * ·) (Spec.toned t c x) (Spec.toned t c x)) (NDArray.zip (· * ·) x x) rfl rfl (t ^ 2) (2 * t * c) (c ^ 2)
      (fun i => by simp only [Spec.toned, NDArray.zip]; ring) p hp]
  refine ⟨e1, ?_, ?_⟩
  · rw [e1, e3]; ring
  · rw [e1, e2]; ring

theorem npPow_zero (v : ℝ) : npPow v 0 = .ok 1 := by
  unfold npPow
  rw [if_neg (by omega), zpow_zero]

/-- The local index by its terms. -/
theorem ssimAt_terms (big : ℝ) (f : Filter) (norm dr : ℝ) (a : SsimArgs) (x y : NDArray ℝ) (p : List Nat) :
    ssimAt big f norm dr a x y p =
      (match npPow (nanToNum big (luminanceTerm (f.apply x p) (f.apply y p) ((a.k1 * dr) ^ 2))) a.alpha.cast,
        npPow (nanToNum big (contrastTerm (norm * (f.apply (NDArray.zip (· * ·) x x) p - f.apply x p * f.apply x p))
          (norm * (f.apply (NDArray.zip (· * ·) y y) p - f.apply y p * f.apply y p)) ((a.k2 * dr) ^ 2))) a.beta.cast,
        npPow (nanToNum big (structureTerm (norm * (f.apply (NDArray.zip (· * ·) x x) p - f.apply x p * f.apply x p))
          (norm * (f.apply (NDArray.zip (· * ·) y y) p - f.apply y p * f.apply y p))
          (norm * (f.apply (NDArray.zip (· * ·) x y) p - f.apply x p * f.apply y p)) ((a.k2 * dr) ^ 2 / 2))) a.gamma.cast with
      | .ok l, .ok c, .ok s => .ok (l * c * s)
      | _, _, _ => .error .notANumber) := rfl

/-- **C180 (partial).** Without the weight of the luminance (`alpha` 0) the brightness of an image does not matter. -/
theorem C180_luminance_partial (big dr : ℝ) (a : SsimArgs) (ha : a.alpha = .int 0) (hb : Spec.NoFill a) (x y : NDArray ℝ)
    (hs : x.shape = y.shape) (c d : ℝ) :
    structuralSimilarity big a dr (Spec.toned 1 c x) (Spec.toned 1 d y) = structuralSimilarity big a dr x y := by
  have one : ∀ (x y : NDArray ℝ) (c : ℝ), x.shape = y.shape →
      structuralSimilarity big a dr (Spec.toned 1 c x) y = structuralSimilarity big a dr x y := by
    intro x y c hs
    refine ssim_local big dr a a x y (Spec.toned 1 c x) y rfl rfl rfl rfl rfl rfl rfl rfl ?_
    intro norm m p hv hn hm hp
    obtain ⟨-, h2, h3⟩ := stats_toned (a.filter m) (a.filter_proper m) x y hs 1 c p (noFill_inside a x.shape hv hb m hm p hp)
    rw [ssimAt_terms, ssimAt_terms, h2, h3, ha]
    simp only [ExpArg.cast, npPow_zero, one_pow, one_mul]
  rw [one x (Spec.toned 1 d y) c hs, C30_symm big dr a x (Spec.toned 1 d y) hs, one y x d hs.symm, C30_symm big dr a y x hs.symm]

/-- **C180 (partial).** With contrast alone (`alpha` and `gamma` 0) neither the brightness nor the sign of an image matters: an
inverted image is not told from the image. -/
theorem C180_contrast_partial (big dr : ℝ) (a : SsimArgs) (ha : a.alpha = .int 0) (hg : a.gamma = .int 0) (hb : Spec.NoFill a)
    (x y : NDArray ℝ) (hs : x.shape = y.shape) (c : ℝ) :
    structuralSimilarity big a dr (Spec.toned (-1) c x) y = structuralSimilarity big a dr x y := by
  refine ssim_local big dr a a x y (Spec.toned (-1) c x) y rfl rfl rfl rfl rfl rfl rfl rfl ?_
  intro norm m p hv hn hm hp
  obtain ⟨-, h2, -⟩ := stats_toned (a.filter m) (a.filter_proper m) x y hs (-1) c p (noFill_inside a x.shape hv hb m hm p hp)
  rw [ssimAt_terms, ssimAt_terms, h2, ha, hg]
  simp only [ExpArg.cast, npPow_zero, neg_one_sq, one_mul]

/-- **C180 (partial).** With structure alone (`alpha` and `beta` 0), and without the constant, neither brightness nor contrast of
the images matters. -/
theorem C180_structure_partial (big dr : ℝ) (a : SsimArgs) (ha : a.alpha = .int 0) (hbe : a.beta = .int 0) (hk : a.k2 = 0)
    (hb : Spec.NoFill a) (x y : NDArray ℝ) (hs : x.shape = y.shape) (s c t d : ℝ) (hs0 : 0 < s) (ht0 : 0 < t) :
    structuralSimilarity big a dr (Spec.toned s c x) (Spec.toned t d y) = structuralSimilarity big a dr x y := by
  have one : ∀ (x y : NDArray ℝ) (s c : ℝ), 0 < s → x.shape = y.shape →
      structuralSimilarity big a dr (Spec.toned s c x) y = structuralSimilarity big a dr x y := by
    intro x y s c hs0 hs
    refine ssim_local big dr a a x y (Spec.toned s c x) y rfl rfl rfl rfl rfl rfl rfl rfl ?_
    intro norm m p hv hn hm hp
    obtain ⟨-, h2, h3⟩ := stats_toned (a.filter m) (a.filter_proper m) x y hs s c p (noFill_inside a x.shape hv hb m hm p hp)
    rw [ssimAt_terms, ssimAt_terms, h2, h3, ha, hbe, hk]
    simp only [ExpArg.cast, npPow_zero]
    generalize (a.filter m).apply (NDArray.zip (· * ·) x x) p - (a.filter m).apply x p * (a.filter m).apply x p = A
    generalize (a.filter m).apply (NDArray.zip (· * ·) y y) p - (a.filter m).apply y p * (a.filter m).apply y p = B
    generalize (a.filter m).apply (NDArray.zip (· * ·) x y) p - (a.filter m).apply x p * (a.filter m).apply y p = C
    have : structureTerm (norm * (s ^ 2 * A)) (norm * B) (norm * (s * C)) ((0 * dr) ^ 2 / 2) =
        structureTerm (norm * A) (norm * B) (norm * C) ((0 * dr) ^ 2 / 2) := by
      unfold structureTerm
      have hneg : norm * (s ^ 2 * A) < 0 ↔ norm * A < 0 := by
        rw [show norm * (s ^ 2 * A) = s ^ 2 * (norm * A) by ring]
        exact scaled_neg _ _ (by positivity)
      simp only [hneg]
      split
      · rfl
      · rw [show norm * (s ^ 2 * A) = s ^ 2 * (norm * A) by ring, Real.sqrt_mul (sq_nonneg s), Real.sqrt_sq hs0.le,
          show norm * (s * C) + (0 * dr) ^ 2 / 2 = s * (norm * C + (0 * dr) ^ 2 / 2) by ring,
          show s * Real.sqrt (norm * A) * Real.sqrt (norm * B) + (0 * dr) ^ 2 / 2 =
            s * (Real.sqrt (norm * A) * Real.sqrt (norm * B) + (0 * dr) ^ 2 / 2) by ring, npDiv_scale _ _ _ hs0]
    rw [this]
  rw [one x (Spec.toned t d y) s c hs0 hs, C30_symm big dr a x (Spec.toned t d y) hs, one y x t d ht0 hs.symm,
    C30_symm big dr a y x hs.symm]

/-- **C180 (partial).** With luminance alone (`beta` and `gamma` 0) the score only depends on the smoothed images. -/
theorem C180_mean_partial (big dr : ℝ) (a : SsimArgs) (hbe : a.beta = .int 0) (hg : a.gamma = .int 0) (x y x' y' : NDArray ℝ)
    (hs : x'.shape = x.shape) (h : ∀ m, ∀ p ∈ cropPositions ((a.window - 1) / 2) x.shape,
      (a.filter m).apply x' p = (a.filter m).apply x p ∧ (a.filter m).apply y' p = (a.filter m).apply y p) :
    structuralSimilarity big a dr x' y' = structuralSimilarity big a dr x y := by
  refine ssim_local big dr a a x y x' y' hs rfl rfl rfl rfl rfl rfl rfl ?_
  intro norm m p hv hn hm hp
  rw [ssimAt_terms, ssimAt_terms, (h m p hp).1, (h m p hp).2, hbe, hg]
  simp only [ExpArg.cast, npPow_zero]

theorem abs_zpow_anti {u : ℝ} (h0 : 0 ≤ u) (h1 : u ≤ 1) {k l : Int} (hk : 0 ≤ k) (hkl : k ≤ l) : u ^ l ≤ u ^ k := by
  obtain ⟨k, rfl⟩ := Int.eq_ofNat_of_zero_le hk
  obtain ⟨l, rfl⟩ := Int.eq_ofNat_of_zero_le (hk.trans hkl)
  rw [zpow_natCast, zpow_natCast]
  exact pow_le_pow_of_le_one h0 h1 (by exact_mod_cast hkl)

theorem npDiv_nonneg (big a b : ℝ) (hbig : 0 ≤ big) (ha : 0 ≤ a) (hb : 0 ≤ b) : 0 ≤ nanToNum big (npDiv a b) := by
  unfold npDiv
  split_ifs with h1 h2 h3
  · exact zero_le_one
  · exact hbig
  · exact absurd (lt_of_le_of_ne ha (Ne.symm h2)) h3
  · exact div_nonneg ha hb

theorem apply_nonneg (f : Filter) (hf : f.Proper) (x : NDArray ℝ) (hx : ∀ i, InShape x.shape i → 0 ≤ x.get i) (p : List Nat)
    (hl : p.length = x.shape.length) (hn : ∀ n ∈ x.shape, 0 < n) (hp : ReadsInside f x.shape p) : 0 ≤ f.apply x p := by
  unfold Filter.apply
  apply List.sum_nonneg
  intro v hv
  obtain ⟨o, ho, rfl⟩ := List.mem_map.1 hv
  obtain ⟨i, hi⟩ := hp o ho
  refine mul_nonneg (offsetWeight_pos f.weight _ _ hf.pos o ho).le ?_
  unfold sample
  rw [hi]
  refine hx i (extendIndices_inShape _ _ _ _ ?_ hn hi)
  unfold shiftIndex
  rw [List.length_zipWith, hl, ((mem_offsets _ _ _).1 ho).1]
  exact min_self _

/-- The images vary alike in every window. -/
def Spec.VaryAlike (a : SsimArgs) (x y : NDArray ℝ) : Prop :=
  ∀ m, ∀ p ∈ cropPositions ((a.window - 1) / 2) x.shape, (a.filter m).apply x p * (a.filter m).apply y p ≤ (a.filter m).apply (NDArray.zip (· * ·) x y) p

/-- **C180 (partial).** The greater the weights, the lower the score, for images without negative gray values that vary alike. -/
theorem C180_order_partial (big dr : ℝ) (hbig : 0 ≤ big) (a a' : SsimArgs) (α β γ α' β' γ' : Nat)
    (he : a.alpha = .int α ∧ a.beta = .int β ∧ a.gamma = .int γ)
    (ha' : a' = { a with alpha := .int α', beta := .int β', gamma := .int γ' }) (hα : α ≤ α') (hβ : β ≤ β') (hγ : γ ≤ γ')
    (hb : Spec.NoFill a) (x y : NDArray ℝ) (hs : x.shape = y.shape) (hx : ∀ i, InShape x.shape i → 0 ≤ x.get i)
    (hy : ∀ i, InShape y.shape i → 0 ≤ y.get i)
    (hxy : Spec.VaryAlike a x y) (v v' : ℝ) (hv : structuralSimilarity big a dr x y = .ok v)
    (hv' : structuralSimilarity big a' dr x y = .ok v') : v' ≤ v := by
  obtain ⟨hval, norm, m, l, hn, hm, hl, hmean⟩ := ssim_ok _ _ _ _ _ _ hv
  obtain ⟨-, norm', m', l', hn', hm', hl', hmean'⟩ := ssim_ok _ _ _ _ _ _ hv'
  subst ha'
  have e1 : covNorm a x.ndim = .ok norm' := hn'
  have e2 : (open Classical in if a.gaussian = true ∧ a.sigma = 0 then .ok .reflect else borderMode a.mode) = (.ok m' : Py BorderMode) := hm'
  rw [hn] at e1
  cases e1
  rw [hm] at e2
  cases e2
  have hpos := covNorm_pos a _ norm hval.odd hn
  refine mean_le l l' v v' (pointwise _ _ _ _ l l' hl hl' ?_) hmean hmean'
  intro p hp w w' hw hw'
  have hin := noFill_inside a x.shape hval hb m hm p hp
  have hw2 : ssimAt big (a.filter m) norm dr { a with alpha := .int α', beta := .int β', gamma := .int γ' } x y p = .ok w' := hw'
  rw [ssimAt_terms] at hw hw2
  rw [he.1, he.2.1, he.2.2] at hw
  simp only [ExpArg.cast] at hw hw2
  obtain ⟨-, -, h3⟩ := scaled_stats (a.filter m) (a.filter_proper m) x y hs p (Or.inr hin) norm hpos
  have b1 := luminance_bound big ((a.filter m).apply x p) ((a.filter m).apply y p) ((a.k1 * dr) ^ 2) (sq_nonneg _)
  have b2 := contrast_bound big (norm * ((a.filter m).apply (NDArray.zip (· * ·) x x) p - (a.filter m).apply x p * (a.filter m).apply x p))
    (norm * ((a.filter m).apply (NDArray.zip (· * ·) y y) p - (a.filter m).apply y p * (a.filter m).apply y p)) ((a.k2 * dr) ^ 2) (sq_nonneg _)
  have b3 := structure_bound big (norm * ((a.filter m).apply (NDArray.zip (· * ·) x x) p - (a.filter m).apply x p * (a.filter m).apply x p))
    (norm * ((a.filter m).apply (NDArray.zip (· * ·) y y) p - (a.filter m).apply y p * (a.filter m).apply y p))
    (norm * ((a.filter m).apply (NDArray.zip (· * ·) x y) p - (a.filter m).apply x p * (a.filter m).apply y p)) ((a.k2 * dr) ^ 2 / 2)
    (by positivity) h3
  have n1 : 0 ≤ nanToNum big (luminanceTerm ((a.filter m).apply x p) ((a.filter m).apply y p) ((a.k1 * dr) ^ 2)) := by
    have hlen := ((mem_cropPositions _ _ _).1 hp).1
    have hp0 : ∀ n ∈ x.shape, 0 < n := fun n hn => by have := hval.fits n hn; have := hval.odd; omega
    have hx1 := apply_nonneg _ (a.filter_proper m) x hx p hlen hp0 hin
    have hy1 := apply_nonneg _ (a.filter_proper m) y hy p (hs ▸ hlen) (hs ▸ hp0) (hs ▸ hin)
    exact npDiv_nonneg _ _ _ hbig (by positivity) (by positivity)
  have n2 : 0 ≤ nanToNum big (contrastTerm (norm * ((a.filter m).apply (NDArray.zip (· * ·) x x) p - (a.filter m).apply x p * (a.filter m).apply x p))
    (norm * ((a.filter m).apply (NDArray.zip (· * ·) y y) p - (a.filter m).apply y p * (a.filter m).apply y p)) ((a.k2 * dr) ^ 2)) := by
    unfold contrastTerm
    split
    · exact zero_le_one
    · rename_i h
      push Not at h
      exact npDiv_nonneg _ _ _ hbig (by positivity) (by linarith [h.1, h.2, sq_nonneg (a.k2 * dr)])
  have n3 : 0 ≤ nanToNum big (structureTerm (norm * ((a.filter m).apply (NDArray.zip (· * ·) x x) p - (a.filter m).apply x p * (a.filter m).apply x p))
    (norm * ((a.filter m).apply (NDArray.zip (· * ·) y y) p - (a.filter m).apply y p * (a.filter m).apply y p))
    (norm * ((a.filter m).apply (NDArray.zip (· * ·) x y) p - (a.filter m).apply x p * (a.filter m).apply y p)) ((a.k2 * dr) ^ 2 / 2)) := by
    unfold structureTerm
    split
    · exact zero_le_one
    · refine npDiv_nonneg _ _ _ hbig ?_ (by positivity)
      have := mul_nonneg hpos.le (sub_nonneg.2 (hxy m p hp))
      have h2 : 0 ≤ (a.k2 * dr) ^ 2 / 2 := by positivity
      linarith
  rw [abs_of_nonneg n1] at b1
  rw [abs_of_nonneg n2] at b2
  rw [abs_of_nonneg n3] at b3
  generalize nanToNum big (luminanceTerm ((a.filter m).apply x p) ((a.filter m).apply y p) ((a.k1 * dr) ^ 2)) = L at *
  generalize nanToNum big (contrastTerm (norm * ((a.filter m).apply (NDArray.zip (· * ·) x x) p - (a.filter m).apply x p * (a.filter m).apply x p))
    (norm * ((a.filter m).apply (NDArray.zip (· * ·) y y) p - (a.filter m).apply y p * (a.filter m).apply y p)) ((a.k2 * dr) ^ 2)) = K at *
  generalize nanToNum big (structureTerm (norm * ((a.filter m).apply (NDArray.zip (· * ·) x x) p - (a.filter m).apply x p * (a.filter m).apply x p))
    (norm * ((a.filter m).apply (NDArray.zip (· * ·) y y) p - (a.filter m).apply y p * (a.filter m).apply y p))
    (norm * ((a.filter m).apply (NDArray.zip (· * ·) x y) p - (a.filter m).apply x p * (a.filter m).apply y p)) ((a.k2 * dr) ^ 2 / 2)) = S at *
  unfold npPow at hw hw2
  rw [if_neg (by omega), if_neg (by omega), if_neg (by omega)] at hw hw2
  cases hw
  cases hw2
  have c1 := abs_zpow_anti n1 b1 (Int.natCast_nonneg α) (by exact_mod_cast hα : (α : Int) ≤ α')
  have c2 := abs_zpow_anti n2 b2 (Int.natCast_nonneg β) (by exact_mod_cast hβ : (β : Int) ≤ β')
  have c3 := abs_zpow_anti n3 b3 (Int.natCast_nonneg γ) (by exact_mod_cast hγ : (γ : Int) ≤ γ')
  refine mul_le_mul (mul_le_mul c1 c2 (zpow_nonneg n2 _) (zpow_nonneg n1 _)) c3 (zpow_nonneg n3 _)
    (mul_nonneg (zpow_nonneg n1 _) (zpow_nonneg n2 _))

/-- **C180 is false** for weights that are not whole numbers, although the documentation says `float`: they are rounded towards
zero, so that a weight below 1 is no weight. -/
theorem C180_refuted (big dr : ℝ) (a : SsimArgs) (r : ℝ) (h0 : 0 ≤ r) (h1 : r < 1) (x y : NDArray ℝ) :
    structuralSimilarity big { a with alpha := .float r } dr x y = structuralSimilarity big { a with alpha := .int 0 } dr x y ∧
    structuralSimilarity big { a with beta := .float r } dr x y = structuralSimilarity big { a with beta := .int 0 } dr x y ∧
    structuralSimilarity big { a with gamma := .float r } dr x y = structuralSimilarity big { a with gamma := .int 0 } dr x y := by
  have hc : (ExpArg.float r).cast = (ExpArg.int 0).cast := by
    simp only [ExpArg.cast, if_pos h0]
    exact Int.floor_eq_zero_iff.2 ⟨h0, h1⟩
  refine ⟨?_, ?_, ?_⟩ <;>
  · refine ssim_local big dr _ _ x y x y rfl rfl rfl rfl rfl rfl rfl rfl ?_
    intro norm m p _ _ _ _
    rw [ssimAt_terms, ssimAt_terms]
    simp only [hc]

/-- A slope. -/
noncomputable def slope9 : NDArray ℝ := ⟨[9, 9], fun i => i.sum⟩

/-- A slope and a brighter one are the same to SSIM without weight of the luminance. -/
example : structuralSimilarity 1e308 { gaussian := false, winSize := some 7, alpha := .int 0 } 255 (Spec.toned 1 10 slope9) (Spec.toned 1 20 slope9) =
    .ok 1 := by
  rw [C180_luminance_partial _ _ _ rfl (.inr (.inr rfl)) slope9 slope9 rfl]
  exact C30_self_defined _ _ _ _ (by constructor <;> norm_num [SsimArgs.window, slope9]) (by simp [slope9]) (by simp) .reflect (by simp [borderMode])

/-- A slope and its inverse have the same contrast. -/
example : structuralSimilarity 1e308 { gaussian := false, winSize := some 7, alpha := .int 0, gamma := .int 0 } 255 (Spec.toned (-1) 10 slope9) slope9 =
    .ok 1 := by
  rw [C180_contrast_partial _ _ _ rfl rfl (.inr (.inr rfl)) slope9 slope9 rfl]
  exact C30_self_defined _ _ _ _ (by constructor <;> norm_num [SsimArgs.window, slope9]) (by simp [slope9]) (by simp) .reflect (by simp [borderMode])

/-- A slope and a steeper one have the same structure. -/
example : structuralSimilarity 1e308 { gaussian := false, winSize := some 7, alpha := .int 0, beta := .int 0, k2 := 0 } 255 (Spec.toned 3 10 slope9)
    (Spec.toned 2 1 slope9) = .ok 1 := by
  rw [C180_structure_partial _ _ _ rfl rfl rfl (.inr (.inr rfl)) slope9 slope9 rfl _ _ _ _ (by norm_num) (by norm_num)]
  exact C30_self_defined _ _ _ _ (by constructor <;> norm_num [SsimArgs.window, slope9]) (by simp [slope9]) (by simp) .reflect (by simp [borderMode])

/-- With luminance alone, a slope of 3 × 3 pixels is not told from a gray image. -/
example (big : ℝ) : structuralSimilarity big { gaussian := false, winSize := some 3, beta := .int 0, gamma := .int 0 } 255 ⟨[3, 3], fun i => i.sum⟩
    ⟨[3, 3], fun _ => 2⟩ = .ok 1 := by
  rw [C180_mean_partial big 255 { gaussian := false, winSize := some 3, beta := .int 0, gamma := .int 0 } rfl rfl ⟨[3, 3], fun _ => 2⟩ ⟨[3, 3], fun _ => 2⟩
    ⟨[3, 3], fun i => i.sum⟩ ⟨[3, 3], fun _ => 2⟩ rfl (fun m p hp => ⟨by
    have : p = [1, 1] := by
      have : p ∈ cropPositions 1 [3, 3] := hp
      revert this
      rw [show cropPositions 1 [3, 3] = [[1, 1]] by decide]
      simp
    subst this
    have hr : (SsimArgs.filter { gaussian := false, winSize := some 3, beta := .int 0, gamma := .int 0 } m) = ⟨1, boxWeight 1, m, 0⟩ := rfl
    rw [hr]
    have ho : offsets 1 2 = [[-1, -1], [-1, 0], [-1, 1], [0, -1], [0, 0], [0, 1], [1, -1], [1, 0], [1, 1]] := by decide
    have hi : ∀ a b : Nat, a < 3 → b < 3 → extendIndices m [3, 3] [(a : Int), (b : Int)] = some [a, b] := by
      intro a b ha hb
      exact extendIndices_inside m [3, 3] [a, b] ⟨ha, hb, trivial⟩
    have h00 := hi 0 0; have h01 := hi 0 1; have h02 := hi 0 2
    have h10 := hi 1 0; have h11 := hi 1 1; have h12 := hi 1 2
    have h20 := hi 2 0; have h21 := hi 2 1; have h22 := hi 2 2
    norm_num at h00 h01 h02 h10 h11 h12 h20 h21 h22
    simp only [Filter.apply, NDArray.ndim, List.length_cons, List.length_nil, zero_add, Nat.reduceAdd, ho, List.map_cons, List.map_nil, sample, shiftIndex,
      List.zipWith_cons_cons, List.zipWith_nil_right]
    norm_num [h00, h01, h02, h10, h11, h12, h20, h21, h22, offsetWeight, boxWeight], rfl⟩)]
  exact C30_self_defined _ _ _ _ (by constructor <;> norm_num [SsimArgs.window]) (by simp) (by simp) .reflect (by simp [borderMode])

theorem toned_alike (a : SsimArgs) (hg : a.gaussian = false) (x : NDArray ℝ) (t c : ℝ) (ht : 0 ≤ t) :
    Spec.VaryAlike a (Spec.toned t c x) x := by
  intro m p hp
  have hp' : p ∈ cropPositions ((a.window - 1) / 2) x.shape := hp
  have hin : ReadsInside (a.filter m) x.shape p := by
    intro o ho
    rw [filter_radius a m (.inr hg)] at ho
    have hlen := (mem_cropPositions _ _ _).1 hp'
    obtain ⟨idx, h1, h2⟩ := shiftIndex_inside x.shape p o _ hlen.1 hlen.2 ho
    exact ⟨idx, by rw [h2, extendIndices_inside _ _ _ h1]⟩
  obtain ⟨-, -, h3⟩ := stats_toned (a.filter m) (a.filter_proper m) x x rfl t c p hin
  have h4 := (scaled_stats (a.filter m) (a.filter_proper m) x x rfl p (Or.inr hin) 1 one_pos).1
  have := mul_nonneg ht (by linarith : 0 ≤ (a.filter m).apply (NDArray.zip (· * ·) x x) p - (a.filter m).apply x p * (a.filter m).apply x p)
  linarith

/-- A slope and a steeper one: twice the weight of the contrast does not raise the score. -/
example (big : ℝ) (hbig : 0 ≤ big) : ∃ v v', structuralSimilarity big { gaussian := false, winSize := some 7 } 255 (Spec.toned 2 10 slope9) slope9 = .ok v ∧
    structuralSimilarity big { gaussian := false, winSize := some 7, beta := .int 2 } 255 (Spec.toned 2 10 slope9) slope9 = .ok v' ∧ v' ≤ v := by
  obtain ⟨v, hv⟩ := C32_score_exists big 255 { gaussian := false, winSize := some 7 } (Spec.toned 2 10 slope9) slope9 validSeven
    (by simp [Spec.toned, slope9]) (by simp) .reflect (by simp [borderMode]) (by simp [ExpArg.cast]) (by simp [ExpArg.cast]) (by simp [ExpArg.cast])
  obtain ⟨v', hv'⟩ := C32_score_exists big 255 { gaussian := false, winSize := some 7, beta := .int 2 } (Spec.toned 2 10 slope9) slope9
    (by constructor <;> norm_num [SsimArgs.window, slope9, Spec.toned])
    (by simp [Spec.toned, slope9]) (by simp) .reflect (by simp [borderMode]) (by simp [ExpArg.cast]) (by simp [ExpArg.cast]) (by simp [ExpArg.cast])
  refine ⟨v, v', hv, hv', C180_order_partial big 255 hbig { gaussian := false, winSize := some 7 } { gaussian := false, winSize := some 7, beta := .int 2 } 1 1 1 1 2 1 ⟨rfl, rfl, rfl⟩ rfl le_rfl one_le_two le_rfl (.inr (.inr rfl)) (Spec.toned 2 10 slope9) slope9 rfl
    (fun i _ => ?_) (fun i _ => ?_) (toned_alike _ rfl slope9 2 10 (by norm_num)) v v' hv hv'⟩
  · simp only [Spec.toned, slope9]; positivity
  · simp only [slope9]; positivity

/-- One half is no weight. -/
example (big : ℝ) : structuralSimilarity big { gaussian := false, winSize := some 7, alpha := .float (1 / 2) } 255 (Spec.toned 1 10 slope9) slope9 =
    .ok 1 := by
  refine (C180_refuted big 255 { gaussian := false, winSize := some 7 } (1 / 2) (by norm_num) (by norm_num) (Spec.toned 1 10 slope9) slope9).1.trans ?_
  have := C180_luminance_partial big 255 { gaussian := false, winSize := some 7, alpha := .int 0 } rfl (.inr (.inr rfl)) slope9 slope9 rfl 10 0
  have h0 : Spec.toned 1 0 slope9 = slope9 := by
    unfold Spec.toned
    simp
  rw [h0] at this
  refine this.trans ?_
  exact C30_self_defined _ _ _ _ (by constructor <;> norm_num [SsimArgs.window, slope9]) (by simp [slope9]) (by simp) .reflect (by simp [borderMode])

end Viqa
