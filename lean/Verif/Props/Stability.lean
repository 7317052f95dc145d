import Verif.Props.Ssim
import Verif.Props.Distance
import Verif.Props.Noise
import Mathlib.Topology.Algebra.Monoid
import Mathlib.Topology.Algebra.GroupWithZero
import Mathlib.Topology.Order.Real
import Mathlib.Analysis.SpecialFunctions.Log.Base
import Mathlib.Analysis.SpecialFunctions.Pow.Continuity

/-!
C154: small changes of the images change the scores little.
-/

namespace Viqa

/-- All pixels of `x'` are within `δ` of those of `x`. -/
def Near (δ : ℝ) (x x' : NDArray ℝ) : Prop := x'.shape = x.shape ∧ ∀ i, InShape x.shape i → |x'.get i - x.get i| < δ

/-- A neighbourhood of a family of values contains all families that are uniformly close. -/
theorem near_of_mem_nhds {ι : Type} (U : Set (ι → ℝ)) (z : ι → ℝ) (h : U ∈ nhds z) :
    ∃ δ > 0, ∀ z' : ι → ℝ, (∀ i, |z' i - z i| < δ) → z' ∈ U := by
  rw [nhds_pi, _root_.Filter.mem_pi] at h
  obtain ⟨I, hI, t, ht, hsub⟩ := h
  have h2 : ∀ i, ∃ δ > 0, Metric.ball (z i) δ ⊆ t i := fun i => Metric.mem_nhds_iff.1 (ht i)
  choose d hd hdt using h2
  obtain ⟨δ, hδ, hle⟩ : ∃ δ > 0, ∀ i ∈ I, δ ≤ d i := by
    clear hsub
    induction I, hI using Set.Finite.induction_on with
    | empty => exact ⟨1, one_pos, by simp⟩
    | @insert a s _ _ ih =>
      obtain ⟨δ, hδ, hle⟩ := ih
      refine ⟨min δ (d a), lt_min hδ (hd a), ?_⟩
      rintro i (rfl | hi)
      · exact min_le_right _ _
      · exact (min_le_left _ _).trans (hle i hi)
  refine ⟨δ, hδ, fun z' hz => hsub fun i hi => hdt i ?_⟩
  rw [Metric.mem_ball, Real.dist_eq]
  exact (hz i).trans_le (hle i hi)

/-- A continuous function of the values at the positions `ι` changes little when all values change little. -/
theorem near_of_continuousAt {ι : Type} (S : (ι → ℝ) → ℝ) (z : ι → ℝ) (h : ContinuousAt S z) (ε : ℝ) (hε : 0 < ε) :
    ∃ δ > 0, ∀ z' : ι → ℝ, (∀ i, |z' i - z i| < δ) → |S z' - S z| < ε := by
  obtain ⟨δ, hδ, hz⟩ := near_of_mem_nhds _ z (h (Metric.ball_mem_nhds (S z) hε))
  refine ⟨δ, hδ, fun z' h' => ?_⟩
  have := hz z' h'
  rwa [Set.mem_preimage, Metric.mem_ball, Real.dist_eq] at this

/-- One of two images with the shape `sh` whose pixels are the values of `z`. -/
def imageOf (sh : List Nat) (z : Bool × List Nat → ℝ) (b : Bool) : NDArray ℝ := ⟨sh, fun i => z (b, i)⟩

/-- Two images as one family of values. -/
def valuesOf (x y : NDArray ℝ) : Bool × List Nat → ℝ := fun q => if q.1 then x.get q.2 else y.get q.2

/-- The same for two images of the same shape, when only pixels inside of the images are compared: the score `f` must depend
only on those. -/
theorem near_images (f : NDArray ℝ → NDArray ℝ → Py ℝ) (sh : List Nat)
    (hsame : ∀ x x' y y' : NDArray ℝ, x.shape = sh → y.shape = sh → x.Same x' → y.Same y' → f x y = f x' y')
    (S : (Bool × List Nat → ℝ) → ℝ) (x y : NDArray ℝ) (hx : x.shape = sh) (hy : y.shape = sh)
    (hS : ∀ᶠ z in nhds (valuesOf x y), f (imageOf sh z true) (imageOf sh z false) = .ok (S z))
    (hc : ContinuousAt S (valuesOf x y)) (v : ℝ) (hv : f x y = .ok v) (ε : ℝ) (hε : 0 < ε) :
    ∃ δ > 0, ∀ x' y', Near δ x x' → Near δ y y' → ∃ v', f x' y' = .ok v' ∧ |v' - v| < ε := by
  classical
  have hv' : v = S (valuesOf x y) := by
    have h0 := hS.self_of_nhds
    have : f (imageOf sh (valuesOf x y) true) (imageOf sh (valuesOf x y) false) = f x y :=
      hsame _ _ _ _ rfl rfl ⟨hx.symm, fun i _ => by simp [imageOf, valuesOf]⟩ ⟨hy.symm, fun i _ => by simp [imageOf, valuesOf]⟩
    rw [this, hv] at h0
    exact Except.ok.inj h0
  -- where the closed form is valid
  obtain ⟨δ₁, hδ₁, h₁⟩ : ∃ δ > 0, ∀ z' : Bool × List Nat → ℝ, (∀ i, |z' i - valuesOf x y i| < δ) →
      f (imageOf sh z' true) (imageOf sh z' false) = .ok (S z') := near_of_mem_nhds _ _ hS
  obtain ⟨δ₂, hδ₂, h₂⟩ := near_of_continuousAt S _ hc ε hε
  refine ⟨min δ₁ δ₂, lt_min hδ₁ hδ₂, fun x' y' nx ny => ?_⟩
  let z' : Bool × List Nat → ℝ := fun q =>
    if InShape sh q.2 then (if q.1 then x'.get q.2 else y'.get q.2) else valuesOf x y q
  have hz : ∀ q, |z' q - valuesOf x y q| < min δ₁ δ₂ := by
    rintro ⟨b, i⟩
    by_cases hi : InShape sh i
    · cases b
      · simpa [z', hi, valuesOf] using ny.2 i (by rw [hy]; exact hi)
      · simpa [z', hi, valuesOf] using nx.2 i (by rw [hx]; exact hi)
    · simp only [z', hi, if_false, sub_self, abs_zero]
      exact lt_min hδ₁ hδ₂
  refine ⟨S z', ?_, ?_⟩
  · rw [← h₁ z' (fun q => (hz q).trans_le (min_le_left _ _))]
    apply hsame
    · rw [nx.1, hx]
    · rw [ny.1, hy]
    · exact ⟨by rw [nx.1, hx]; rfl, fun i hi => by
        rw [nx.1, hx] at hi; simp [imageOf, z', hi]⟩
    · exact ⟨by rw [ny.1, hy]; rfl, fun i hi => by
        rw [ny.1, hy] at hi; simp [imageOf, z', hi]⟩
  · rw [hv']
    exact h₂ z' (fun q => (hz q).trans_le (min_le_right _ _))

/-! ### SSIM -/

theorem sample_continuous (f : Filter) (sh : List Nat) (b : Bool) (p : List Int) :
    Continuous (fun z : Bool × List Nat → ℝ => sample f (imageOf sh z b) p) := by
  unfold sample
  show Continuous (fun z : Bool × List Nat → ℝ => match extendIndices f.mode sh p with
    | some i => z (b, i)
    | none => f.cval)
  cases extendIndices f.mode sh p with
  | none => exact continuous_const
  | some i => exact continuous_apply _

theorem apply_continuous (f : Filter) (sh : List Nat) (b : Bool) (p : List Nat) :
    Continuous (fun z : Bool × List Nat → ℝ => f.apply (imageOf sh z b) p) := by
  unfold Filter.apply
  show Continuous (fun z : Bool × List Nat → ℝ => ((offsets f.radius sh.length).map
    (fun o => offsetWeight f.weight o * sample f (imageOf sh z b) (shiftIndex p o))).sum)
  refine continuous_list_sum _ (fun o _ => ?_)
  exact (continuous_const (y := offsetWeight f.weight o)).mul (sample_continuous f sh b (shiftIndex p o))

theorem apply_product_continuous (f : Filter) (sh : List Nat) (b c : Bool) (p : List Nat) :
    Continuous (fun z : Bool × List Nat → ℝ => f.apply (NDArray.zip (· * ·) (imageOf sh z b) (imageOf sh z c)) p) := by
  unfold Filter.apply
  show Continuous (fun z : Bool × List Nat → ℝ => ((offsets f.radius sh.length).map
    (fun o => offsetWeight f.weight o * sample f (NDArray.zip (· * ·) (imageOf sh z b) (imageOf sh z c)) (shiftIndex p o))).sum)
  refine continuous_list_sum _ (fun o _ => ?_)
  refine (continuous_const (y := offsetWeight f.weight o)).mul ?_
  unfold sample
  show Continuous (fun z : Bool × List Nat → ℝ => match extendIndices f.mode sh (shiftIndex p o) with
    | some i => z (b, i) * z (c, i)
    | none => f.cval)
  cases extendIndices f.mode sh (shiftIndex p o) with
  | none => exact continuous_const
  | some i => exact (continuous_apply _).mul (continuous_apply _)

/-- The index at one position is a continuous function of the pixels. -/
theorem ssimAt_continuous (big : ℝ) (f : Filter) (hf : f.Proper) (norm dr : ℝ) (hn : 0 < norm) (a : SsimArgs) (sh : List Nat)
    (p : List Nat) (h : Faithful f sh p) (ha : 0 ≤ a.alpha.cast) (hb : 0 ≤ a.beta.cast) (hc : 0 ≤ a.gamma.cast)
    (hk1 : a.k1 * dr ≠ 0) (hk2 : a.k2 * dr ≠ 0) :
    ∃ S : (Bool × List Nat → ℝ) → ℝ, Continuous S ∧
      ∀ z, ssimAt big f norm dr a (imageOf sh z true) (imageOf sh z false) p = .ok (S z) := by
  have c1 : 0 < (a.k1 * dr) ^ 2 := by positivity
  have c2 : 0 < (a.k2 * dr) ^ 2 := by positivity
  have c3 : 0 < (a.k2 * dr) ^ 2 / 2 := by positivity
  let ux := fun z : Bool × List Nat → ℝ => f.apply (imageOf sh z true) p
  let uy := fun z : Bool × List Nat → ℝ => f.apply (imageOf sh z false) p
  let vx := fun z : Bool × List Nat → ℝ => norm * (f.apply (NDArray.zip (· * ·) (imageOf sh z true) (imageOf sh z true)) p - ux z * ux z)
  let vy := fun z : Bool × List Nat → ℝ => norm * (f.apply (NDArray.zip (· * ·) (imageOf sh z false) (imageOf sh z false)) p - uy z * uy z)
  let vxy := fun z : Bool × List Nat → ℝ => norm * (f.apply (NDArray.zip (· * ·) (imageOf sh z true) (imageOf sh z false)) p - ux z * uy z)
  have hux : Continuous ux := apply_continuous f sh true p
  have huy : Continuous uy := apply_continuous f sh false p
  have hvx : Continuous vx := continuous_const.mul ((apply_product_continuous f sh true true p).sub (hux.mul hux))
  have hvy : Continuous vy := continuous_const.mul ((apply_product_continuous f sh false false p).sub (huy.mul huy))
  have hvxy : Continuous vxy := continuous_const.mul ((apply_product_continuous f sh true false p).sub (hux.mul huy))
  have st : ∀ z, 0 ≤ vx z ∧ 0 ≤ vy z := fun z =>
    ⟨(scaled_stats f hf (imageOf sh z true) (imageOf sh z false) rfl p h norm hn).1,
      (scaled_stats f hf (imageOf sh z true) (imageOf sh z false) rfl p h norm hn).2.1⟩
  have d3 : ∀ z, 0 < Real.sqrt (vx z) * Real.sqrt (vy z) + (a.k2 * dr) ^ 2 / 2 := fun z => by positivity
  have d2 : ∀ z, 0 < vx z + vy z + (a.k2 * dr) ^ 2 := fun z => by have := (st z).1; have := (st z).2; positivity
  have d1 : ∀ z, 0 < ux z ^ 2 + uy z ^ 2 + (a.k1 * dr) ^ 2 := fun z => by positivity
  let stru := fun z => (vxy z + (a.k2 * dr) ^ 2 / 2) / (Real.sqrt (vx z) * Real.sqrt (vy z) + (a.k2 * dr) ^ 2 / 2)
  let con := fun z => (2 * Real.sqrt (vx z) * Real.sqrt (vy z) + (a.k2 * dr) ^ 2) / (vx z + vy z + (a.k2 * dr) ^ 2)
  let lum := fun z => (2 * ux z * uy z + (a.k1 * dr) ^ 2) / (ux z ^ 2 + uy z ^ 2 + (a.k1 * dr) ^ 2)
  have hstru : Continuous stru :=
    (hvxy.add continuous_const).div₀ ((hvx.sqrt.mul hvy.sqrt).add continuous_const) (fun z => (d3 z).ne')
  have hcon : Continuous con :=
    (((continuous_const.mul hvx.sqrt).mul hvy.sqrt).add continuous_const).div₀ ((hvx.add hvy).add continuous_const)
      (fun z => (d2 z).ne')
  have hlum : Continuous lum :=
    (((continuous_const.mul hux).mul huy).add continuous_const).div₀ (((hux.pow 2).add (huy.pow 2)).add continuous_const)
      (fun z => (d1 z).ne')
  refine ⟨fun z => lum z ^ a.alpha.cast * con z ^ a.beta.cast * stru z ^ a.gamma.cast, ?_, ?_⟩
  · obtain ⟨n1, e1⟩ := Int.eq_ofNat_of_zero_le ha
    obtain ⟨n2, e2⟩ := Int.eq_ofNat_of_zero_le hb
    obtain ⟨n3, e3⟩ := Int.eq_ofNat_of_zero_le hc
    rw [e1, e2, e3]
    simp only [zpow_natCast]
    exact ((hlum.pow _).mul (hcon.pow _)).mul (hstru.pow _)
  · intro z
    have s1 : structureTerm (vx z) (vy z) (vxy z) ((a.k2 * dr) ^ 2 / 2) = .fin (stru z) := by
      unfold structureTerm npDiv
      rw [if_neg (by rintro (h | h); exacts [absurd (st z).1 (not_le.2 h), absurd (st z).2 (not_le.2 h)]), if_neg (d3 z).ne']
    have s2 : contrastTerm (vx z) (vy z) ((a.k2 * dr) ^ 2) = .fin (con z) := by
      unfold contrastTerm npDiv
      rw [if_neg (by rintro (h | h); exacts [absurd (st z).1 (not_le.2 h), absurd (st z).2 (not_le.2 h)]), if_neg (d2 z).ne']
    have s3 : luminanceTerm (ux z) (uy z) ((a.k1 * dr) ^ 2) = .fin (lum z) := by
      unfold luminanceTerm npDiv
      rw [if_neg (d1 z).ne']
    unfold ssimAt
    simp only
    change ((match npPow (nanToNum big (luminanceTerm (ux z) (uy z) _)) _, npPow (nanToNum big (contrastTerm (vx z) (vy z) _)) _,
      npPow (nanToNum big (structureTerm (vx z) (vy z) (vxy z) _)) _ with
      | .ok l, .ok c, .ok s => .ok (l * c * s)
      | _, _, _ => .error .notANumber) : Py ℝ) = _
    rw [s1, s2, s3]
    simp only [nanToNum, npPow, not_lt.2 ha, not_lt.2 hb, not_lt.2 hc, and_false, if_false]

/-- **C154.** With positive constants and exponents that are not negative, SSIM changes little when all pixels change little:
for every tolerance of the score there is a tolerance of the pixels. -/
theorem C154_ssim (big dr : ℝ) (a : SsimArgs) (x y : NDArray ℝ) (hs : x.shape = y.shape) (hb : BorderHarmless a)
    (hα : 0 ≤ a.alpha.cast) (hβ : 0 ≤ a.beta.cast) (hγ : 0 ≤ a.gamma.cast) (hk1 : a.k1 * dr ≠ 0) (hk2 : a.k2 * dr ≠ 0)
    (v : ℝ) (h : structuralSimilarity big a dr x y = .ok v) (ε : ℝ) (hε : 0 < ε) :
    ∃ δ > 0, ∀ x' y', Near δ x x' → Near δ y y' →
      ∃ v', structuralSimilarity big a dr x' y' = .ok v' ∧ |v' - v| < ε := by
  obtain ⟨hv, norm, m, l, hn, hm, hl, hmean⟩ := ssim_ok _ _ _ _ _ _ h
  have hpos := covNorm_pos a _ norm hv.odd hn
  have hex : ∀ p, ∃ S : (Bool × List Nat → ℝ) → ℝ, p ∈ cropPositions ((a.window - 1) / 2) x.shape → Continuous S ∧
      ∀ z, ssimAt big (a.filter m) norm dr a (imageOf x.shape z true) (imageOf x.shape z false) p = .ok (S z) := by
    intro p
    by_cases hp : p ∈ cropPositions ((a.window - 1) / 2) x.shape
    · obtain ⟨S, h1, h2⟩ := ssimAt_continuous big _ (a.filter_proper m) norm dr hpos a x.shape p
        (harmless_faithful a x.shape hv hb m hm p hp) hα hβ hγ hk1 hk2
      exact ⟨S, fun _ => ⟨h1, h2⟩⟩
    · exact ⟨fun _ => 0, fun h => absurd h hp⟩
  choose S hS using hex
  let T : (Bool × List Nat → ℝ) → ℝ := fun z =>
    ((cropPositions ((a.window - 1) / 2) x.shape).map (fun p => S p z)).sum / (cropPositions ((a.window - 1) / 2) x.shape).length
  have hlen : (cropPositions ((a.window - 1) / 2) x.shape).length ≠ 0 := by
    have e : (cropPositions ((a.window - 1) / 2) x.shape).length = l.length := by
      have := congrArg List.length hl
      simpa using this
    rw [e]
    unfold meanList at hmean
    intro h0
    rw [if_pos h0] at hmean
    cases hmean
  refine near_images (structuralSimilarity big a dr) x.shape ?_ T x y rfl hs.symm ?_ ?_ v h ε hε
  · intro x₁ x₂ y₁ y₂ e1 e2 s1 s2
    rw [ssim_same big dr a x₁ y₁ y₂ (e1.trans e2.symm) s2, C30_symm big dr a x₁ y₂ (by rw [e1, ← s2.1, e2]),
      ssim_same big dr a y₂ x₁ x₂ (by rw [e1, ← s2.1, e2]) s1, C30_symm big dr a y₂ x₂ (by rw [← s1.1, ← s2.1, e1, e2])]
  · refine _root_.Filter.Eventually.of_forall (fun z => ?_)
    rw [ssim_valid big dr a (imageOf x.shape z true) _ hv]
    unfold ssimBody
    rw [show covNorm a (imageOf x.shape z true).ndim = .ok norm from hn]
    simp only [hm]
    have : allOk ((cropPositions ((a.window - 1) / 2) (imageOf x.shape z true).shape).map
        (ssimAt big (a.filter m) norm dr a (imageOf x.shape z true) (imageOf x.shape z false))) =
        .ok ((cropPositions ((a.window - 1) / 2) x.shape).map (fun p => S p z)) := by
      rw [allOk_iff, List.map_map]
      exact List.map_congr_left (fun p hp => (hS p hp).2 z)
    rw [this]
    simp only [meanList, List.length_map]
    rw [if_neg hlen]
  · refine Continuous.continuousAt ?_
    exact (continuous_list_sum _ (fun p hp => (hS p hp).1)).div_const _

/-- Non-trivial instance: two different images of 11 × 11 pixels and the default parameters. -/
example : ∃ v δ : ℝ, 0 < δ ∧ ∀ x' y', Near δ ⟨[11, 11], fun i => i.sum⟩ x' → Near δ ⟨[11, 11], fun i => i.length⟩ y' →
    ∃ v', structuralSimilarity 1e38 {} 255 x' y' = .ok v' ∧ |v' - v| < 1 / 1000 := by
  obtain ⟨v, hv⟩ := C32_score_exists 1e38 255 {} ⟨[11, 11], fun i => i.sum⟩ ⟨[11, 11], fun i => i.length⟩
    (by
      have h5 : ⌊(23 / 4 : ℝ)⌋₊ = 5 := by rw [Nat.floor_eq_iff (by norm_num)]; norm_num
      constructor <;> norm_num [SsimArgs.window, gaussRadius, h5]) (by simp) (by simp) .reflect (by simp [borderMode])
    (by simp [ExpArg.cast]) (by simp [ExpArg.cast]) (by simp [ExpArg.cast])
  obtain ⟨δ, hδ, h⟩ := C154_ssim 1e38 255 {} ⟨[11, 11], fun i => i.sum⟩ ⟨[11, 11], fun i => i.length⟩ rfl (.inr (.inl rfl)) (by simp [ExpArg.cast]) (by simp [ExpArg.cast])
    (by simp [ExpArg.cast]) (by norm_num) (by norm_num) v hv (1 / 1000) (by norm_num)
  exact ⟨v, δ, hδ, h⟩

/-! ### RMSE -/

theorem near_rmse (x x' : NDArray ℝ) (δ : ℝ) (hs : x.size ≠ 0) (h : Near δ x x') (v : ℝ) (hv : rmse x x' = .ok v) : v ≤ δ := by
  have hc : Comparable x x' := ⟨h.1.symm, hs⟩
  rw [rmse_eq hc] at hv
  cases hv
  have hn : (0 : ℝ) < x.size := by exact_mod_cast Nat.pos_of_ne_zero hs
  have hδ : 0 ≤ δ := by
    have hne : indices x.shape ≠ [] := by
      intro h0; apply hs; unfold NDArray.size; rw [← length_indices, h0]; rfl
    obtain ⟨i, hi⟩ := List.exists_mem_of_ne_nil _ hne
    exact (abs_nonneg _).trans (h.2 i ((mem_indices _ _).1 hi)).le
  apply Real.sqrt_le_iff.2 ⟨hδ, ?_⟩
  rw [div_le_iff₀ hn]
  have : ((indices x.shape).map (fun i => (x.get i - x'.get i) ^ 2)).sum ≤ (indices x.shape).length • δ ^ 2 := by
    have := List.sum_le_card_nsmul ((indices x.shape).map (fun i => (x.get i - x'.get i) ^ 2)) (δ ^ 2) (by
      intro e he
      obtain ⟨i, hi, rfl⟩ := List.mem_map.1 he
      rw [sq_le_sq, abs_of_nonneg hδ, abs_sub_comm]
      exact (h.2 i ((mem_indices _ _).1 hi)).le)
    rwa [List.length_map] at this
  refine this.trans (le_of_eq ?_)
  rw [length_indices, nsmul_eq_mul, mul_comm]
  rfl

/-- **C154.** Changing the pixels by less than `δ` changes the RMSE by at most the sum of the changes of both images. -/
theorem C154_rmse (x y x' y' : NDArray ℝ) (δ δ' : ℝ) (hc : Comparable x y) (hx : Near δ x x') (hy : Near δ' y y') (v : ℝ)
    (hv : rmse x y = .ok v) : ∃ v', rmse x' y' = .ok v' ∧ |v' - v| ≤ δ + δ' := by
  have hxx : Comparable x x' := ⟨hx.1.symm, hc.2⟩
  have hyy : Comparable y y' := ⟨hy.1.symm, hc.symm.2⟩
  have hxy : Comparable x' y' := hxx.symm.trans (hc.trans hyy)
  obtain ⟨v', hv', -⟩ := C28_nonneg x' y' hxy
  obtain ⟨a, ha, -⟩ := C28_nonneg x x' hxx
  obtain ⟨b, hb, -⟩ := C28_nonneg y y' hyy
  obtain ⟨u, hu, -⟩ := C28_nonneg x y' (hc.trans hyy)
  have ha' := near_rmse x x' δ hc.2 hx a ha
  have hb' := near_rmse y y' δ' hc.symm.2 hy b hb
  have t1 := C28_triangle x y y' hc hyy u v b hu hv hb
  have t2 := C28_triangle x' x y' hxx.symm (hc.trans hyy) v' a u hv' (by rw [← C28_symm _ _ hxx]; exact ha) hu
  have t3 := C28_triangle x' y' y hxy hyy.symm _ v' b (rmse_eq (hxx.symm.trans hc)) hv' (by rw [← C28_symm _ _ hyy]; exact hb)
  have t4 := C28_triangle x x' y hxx (hxx.symm.trans hc) v a _ hv ha (rmse_eq (hxx.symm.trans hc))
  refine ⟨v', hv', ?_⟩
  rw [abs_le]
  constructor <;> linarith

/-- One pixel of two changes from 3 to 3.25. -/
example : ∃ v', rmse ⟨[1, 2], fun i => if i = [0, 0] then 3.25 else 3⟩ (pairOf 0) = .ok v' ∧ |v' - 3| ≤ 0.5 + 0.5 := by
  refine C154_rmse (pairOf 3) (pairOf 0) ⟨[1, 2], fun i => if i = [0, 0] then 3.25 else 3⟩ (pairOf 0) 0.5 0.5 ⟨rfl, by decide⟩ ⟨rfl, fun i _ => ?_⟩ ⟨rfl, fun i _ => ?_⟩ 3 ?_
  · simp only; split <;> norm_num [abs_lt]
  · norm_num
  · rw [rmse_eq (a := pairOf 3) (b := pairOf 0) ⟨rfl, by decide⟩]
    have e : indices [1, 2] = [[0, 0], [0, 1]] := by decide
    norm_num [e, NDArray.size]
    rw [show (9 : ℝ) = 3 ^ 2 by norm_num, Real.sqrt_sq (by norm_num)]

/-! ### PSNR -/

/-- The mean squared error as a function of the values of both images. -/
noncomputable def meanSquare (sh : List Nat) (z : Bool × List Nat → ℝ) : ℝ :=
  ((indices sh).map (fun i => (z (true, i) - z (false, i)) ^ 2)).sum / (sh.prod : ℕ)

theorem meanSquare_continuous (sh : List Nat) : Continuous (meanSquare sh) :=
  (continuous_list_sum (f := fun i (z : Bool × List Nat → ℝ) => (z (true, i) - z (false, i)) ^ 2) _
    (fun i _ => ((continuous_apply ((true, i) : Bool × List Nat)).sub (continuous_apply ((false, i) : Bool × List Nat))).pow 2)).div_const _

theorem meanSquare_zero_iff (sh : List Nat) (hs : sh.prod ≠ 0) (z : Bool × List Nat → ℝ) :
    meanSquare sh z = 0 ↔ ∀ i ∈ indices sh, z (true, i) = z (false, i) := by
  unfold meanSquare
  rw [div_eq_zero_iff, sum_eq_zero_iff _ _ (fun _ _ => sq_nonneg _)]
  have : ¬ ((sh.prod : ℕ) : ℝ) = 0 := by exact_mod_cast hs
  simp only [this, or_false, pow_eq_zero_iff two_ne_zero, sub_eq_zero]

/-- The number, if PSNR is one. -/
noncomputable def psnrNumber (dr : ℝ) (x y : NDArray ℝ) : Py ℝ :=
  match psnr dr x y with
  | .ok (.finite v) => .ok v
  | _ => .error .notANumber

theorem psnr_same (dr : ℝ) (x x' y y' : NDArray ℝ) (hxy : x.shape = y.shape) (hx : x.Same x') (hy : y.Same y') :
    psnr dr x y = psnr dr x' y' := by
  have e1 : arrayEqual x y ↔ arrayEqual x' y' := by
    unfold arrayEqual
    rw [← hx.1, ← hy.1]
    refine and_congr Iff.rfl (forall₂_congr fun i hi => ?_)
    rw [hx.2 i ((mem_indices _ _).1 hi), hy.2 i (by rw [← hxy]; exact (mem_indices _ _).1 hi)]
  have e2 : meanSquaredError x y = meanSquaredError x' y' := by
    unfold meanSquaredError NDArray.size
    rw [← hx.1, ← hy.1]
    have : (indices x.shape).map (fun i => (x.get i - y.get i) ^ 2) = (indices x.shape).map (fun i => (x'.get i - y'.get i) ^ 2) := by
      apply List.map_congr_left
      intro i hi
      rw [hx.2 i ((mem_indices _ _).1 hi), hy.2 i (by rw [← hxy]; exact (mem_indices _ _).1 hi)]
    rw [this]
  unfold psnr
  rw [e2]
  by_cases h : arrayEqual x y
  · rw [if_pos h, if_pos (e1.1 h)]
  · rw [if_neg h, if_neg (fun h' => h (e1.2 h'))]

/-- **C154.** A finite PSNR changes little when all pixels change little. -/
theorem C154_psnr (dr : ℝ) (x y : NDArray ℝ) (v : ℝ) (h : psnr dr x y = .ok (.finite v)) (ε : ℝ) (hε : 0 < ε) :
    ∃ δ > 0, ∀ x' y', Near δ x x' → Near δ y y' → ∃ v', psnr dr x' y' = .ok (.finite v') ∧ |v' - v| < ε := by
  have hf : psnrNumber dr x y = .ok v := by unfold psnrNumber; rw [h]
  have hne : ¬ arrayEqual x y := by
    intro he; unfold psnr at h; rw [if_pos he] at h; cases h
  have hcomp : Comparable x y := by
    unfold psnr at h
    rw [if_neg hne] at h
    unfold meanSquaredError at h
    by_cases h1 : x.shape = y.shape
    · refine ⟨h1, fun h2 => ?_⟩
      rw [if_neg (not_not.2 h1), if_pos h2] at h
      cases h
    · rw [if_pos h1] at h; cases h
  have hdr : dr ≠ 0 := by
    rintro rfl
    unfold psnr at h
    rw [if_neg hne] at h
    unfold meanSquaredError at h
    rw [if_neg (not_not.2 hcomp.1), if_neg hcomp.2] at h
    simp at h
  have hsize : x.shape.prod ≠ 0 := hcomp.2
  have hM : meanSquare x.shape (valuesOf x y) ≠ 0 := by
    rw [Ne, meanSquare_zero_iff _ hsize]
    intro he
    exact hne ⟨hcomp.1, fun i hi => by simpa [valuesOf] using he i hi⟩
  have key := near_images (psnrNumber dr) x.shape
    (by
      intro x₁ x₂ y₁ y₂ e1 e2 s1 s2
      unfold psnrNumber
      rw [psnr_same dr x₁ x₂ y₁ y₂ (e1.trans e2.symm) s1 s2])
    (fun z => 10 * Real.logb 10 (dr ^ 2 / meanSquare x.shape z)) x y rfl hcomp.1.symm
    (by
      refine ((meanSquare_continuous x.shape).continuousAt.eventually_ne hM).mono (fun z hz => ?_)
      unfold psnrNumber psnr
      have n1 : ¬ arrayEqual (imageOf x.shape z true) (imageOf x.shape z false) := by
        rintro ⟨-, he⟩
        exact hz ((meanSquare_zero_iff _ hsize z).2 he)
      rw [if_neg n1]
      have n2 : meanSquaredError (imageOf x.shape z true) (imageOf x.shape z false) = .ok (meanSquare x.shape z) := by
        unfold meanSquaredError
        rw [if_neg (show ¬ (imageOf x.shape z true).shape ≠ (imageOf x.shape z false).shape from not_not.2 rfl), if_neg (show ¬ (imageOf x.shape z true).size = 0 from hsize)]
        rfl
      rw [n2]
      simp only
      rw [if_neg (div_ne_zero (pow_ne_zero 2 hdr) hz)])
    (by
      refine continuousAt_const.mul ?_
      unfold Real.logb
      exact ((continuousAt_const.div₀ (meanSquare_continuous x.shape).continuousAt hM).log
        (div_ne_zero (pow_ne_zero 2 hdr) hM)).div_const _) v hf ε hε
  obtain ⟨δ, hδ, hn⟩ := key
  refine ⟨δ, hδ, fun x' y' nx ny => ?_⟩
  obtain ⟨v', e, hv'⟩ := hn x' y' nx ny
  refine ⟨v', ?_, hv'⟩
  unfold psnrNumber at e
  split at e
  · rename_i w hw
    cases e
    exact hw
  · cases e

example : ∃ v δ : ℝ, 0 < δ ∧ ∀ x' y', Near δ (pairOf 3) x' → Near δ (pairOf 5) y' →
    ∃ v', psnr 255 x' y' = .ok (.finite v') ∧ |v' - v| < 1 / 10 := by
  obtain ⟨v, hv⟩ : ∃ v, psnr 255 (pairOf 3) (pairOf 5) = .ok (.finite v) := by
    unfold psnr meanSquaredError
    rw [if_neg (by rintro ⟨-, h⟩; have := h [0, 0] (by decide); norm_num at this), if_neg (by simp), if_neg (by decide)]
    have e : indices [1, 2] = [[0, 0], [0, 1]] := by decide
    norm_num [e, NDArray.size]
  obtain ⟨δ, hδ, h⟩ := C154_psnr 255 _ _ v hv (1 / 10) (by norm_num)
  exact ⟨v, δ, hδ, h⟩

/-- **C154.** Next to identical images PSNR is infinite or as large as desired. -/
theorem C154_psnr_identical (dr : ℝ) (hdr : dr ≠ 0) (x y : NDArray ℝ) (hs : x.size ≠ 0) (h : psnr dr x y = .ok .infinite) (B : ℝ) :
    ∃ δ > 0, ∀ x' y', Near δ x x' → Near δ y y' →
      psnr dr x' y' = .ok .infinite ∨ ∃ v', psnr dr x' y' = .ok (.finite v') ∧ B < v' := by
  have he : arrayEqual x y := by
    by_contra hn
    unfold psnr at h
    rw [if_neg hn] at h
    split at h
    · cases h
    · split at h <;> cases h
  have hcomp : Comparable x y := ⟨he.1, hs⟩
  have h0 : rmse x y = .ok 0 := (C28_zero_iff x y hcomp).2 ⟨he.1, fun i hi => he.2 i ((mem_indices _ _).2 hi)⟩
  have hT : (0 : ℝ) < 10 ^ (B / 10) := by positivity
  refine ⟨|dr| / (4 * Real.sqrt (10 ^ (B / 10))), by positivity, fun x' y' nx ny => ?_⟩
  set δ := |dr| / (4 * Real.sqrt ((10 : ℝ) ^ (B / 10))) with hδ
  obtain ⟨r, hr, hle⟩ := C154_rmse x y x' y' δ δ hcomp nx ny 0 h0
  have hc' : Comparable x' y' :=
    ⟨by rw [nx.1, ny.1, he.1], by unfold NDArray.size; rw [nx.1]; exact hs⟩
  by_cases heq : arrayEqual x' y'
  · left; unfold psnr; rw [if_pos heq]
  right
  rw [rmse_eq hc'] at hr
  cases hr
  set m := ((indices x'.shape).map (fun i => (x'.get i - y'.get i) ^ 2)).sum / x'.size with hm
  have hm0 : 0 ≤ m := mse_nonneg x' y'
  have hmp : 0 < m := by
    refine lt_of_le_of_ne hm0 (fun e => heq ⟨hc'.1, ?_⟩)
    have hsz : ¬ ((x'.size : ℝ) = 0) := by exact_mod_cast hc'.2
    have := e.symm
    rw [hm, div_eq_zero_iff, sum_eq_zero_iff _ _ (fun _ _ => sq_nonneg _)] at this
    simp only [hsz, or_false, pow_eq_zero_iff two_ne_zero, sub_eq_zero] at this
    exact this
  have hq : dr ^ 2 / m ≠ 0 := div_ne_zero (pow_ne_zero 2 hdr) hmp.ne'
  refine ⟨10 * Real.logb 10 (dr ^ 2 / m), ?_, ?_⟩
  · unfold psnr meanSquaredError
    rw [if_neg heq, if_neg (not_not.2 hc'.1), if_neg hc'.2]
    simp only
    rw [if_neg hq]
  · have hsq : Real.sqrt m ≤ 2 * δ := by
      rw [sub_zero] at hle
      exact (le_abs_self _).trans (hle.trans_eq (by ring))
    have hms : m ≤ (2 * δ) ^ 2 := by
      rw [← Real.sq_sqrt hm0]
      exact pow_le_pow_left₀ (Real.sqrt_nonneg _) hsq 2
    have hδ2 : (2 * δ) ^ 2 = dr ^ 2 / (4 * 10 ^ (B / 10)) := by
      rw [hδ, mul_pow, div_pow, mul_pow, sq_abs, Real.sq_sqrt hT.le]
      field_simp
      norm_num
    have hlt : (10 : ℝ) ^ (B / 10) < dr ^ 2 / m := by
      rw [lt_div_iff₀ hmp]
      calc (10 : ℝ) ^ (B / 10) * m ≤ 10 ^ (B / 10) * (dr ^ 2 / (4 * 10 ^ (B / 10))) :=
            mul_le_mul_of_nonneg_left (hms.trans_eq hδ2) hT.le
        _ = dr ^ 2 / 4 := by field_simp
        _ < dr ^ 2 := by have : 0 < dr ^ 2 := by positivity
                         linarith
    have := Real.logb_lt_logb (b := 10) (by norm_num) hT hlt
    rw [Real.logb_rpow (by norm_num) (by norm_num)] at this
    linarith

example : ∃ δ > 0, ∀ x' y', Near δ (pairOf 3) x' → Near δ (pairOf 3) y' →
    psnr 255 x' y' = .ok .infinite ∨ ∃ v', psnr 255 x' y' = .ok (.finite v') ∧ 100 < v' :=
  C154_psnr_identical 255 (by norm_num) _ _ (by decide) (by unfold psnr; rw [if_pos ⟨rfl, fun _ _ => rfl⟩]) 100

/-! ### SNR and CNR -/

/-- All pixels of `b` are within `δ` of those of `a`. -/
def NearQ (δ : ℝ) (a b : NDArray Rat) : Prop :=
  b.shape = a.shape ∧ ∀ i, InShape a.shape i → |((b.get i : Rat) : ℝ) - ((a.get i : Rat) : ℝ)| < δ

/-- Mean and variance at the positions `L` as functions of the pixels. -/
noncomputable def meanAt (L : List (List Nat)) (z : List Nat → ℝ) : ℝ := (L.map z).sum / L.length

noncomputable def varAt (L : List (List Nat)) (z : List Nat → ℝ) : ℝ :=
  (L.map (fun i => (z i - meanAt L z) ^ 2)).sum / L.length

theorem meanAt_continuous (L : List (List Nat)) : Continuous (meanAt L) :=
  (continuous_list_sum (f := fun i (z : List Nat → ℝ) => z i) _ (fun _ _ => continuous_apply _)).div_const _

theorem varAt_continuous (L : List (List Nat)) : Continuous (varAt L) :=
  (continuous_list_sum (f := fun i (z : List Nat → ℝ) => (z i - meanAt L z) ^ 2) _
    (fun _ _ => ((continuous_apply _).sub (meanAt_continuous L)).pow 2)).div_const _

theorem meanAt_cast (L : List (List Nat)) (g : List Nat → Rat) :
    meanAt L (fun i => (g i : ℝ)) = ((meanQ (L.map g) : Rat) : ℝ) := by
  unfold meanAt meanQ
  push_cast
  rw [List.length_map, List.map_map]
  rfl

theorem varAt_cast (L : List (List Nat)) (g : List Nat → Rat) :
    varAt L (fun i => (g i : ℝ)) = ((varQ (L.map g) : Rat) : ℝ) := by
  unfold varAt varQ
  rw [meanAt_cast]
  push_cast
  rw [List.length_map, List.map_map, List.map_map]
  congr 2
  apply List.map_congr_left
  intro i _
  simp

theorem near_values (L : List (List Nat)) (S : (List Nat → ℝ) → ℝ) (a : NDArray Rat) (hL : ∀ i ∈ L, InShape a.shape i)
    (hloc : ∀ z z' : List Nat → ℝ, (∀ i ∈ L, z i = z' i) → S z = S z')
    (hc : ContinuousAt S (fun i => (a.get i : ℝ))) (ε : ℝ) (hε : 0 < ε) :
    ∃ δ > 0, ∀ b, NearQ δ a b → |S (fun i => (b.get i : ℝ)) - S (fun i => (a.get i : ℝ))| < ε := by
  classical
  obtain ⟨δ, hδ, h⟩ := near_of_continuousAt S _ hc ε hε
  refine ⟨δ, hδ, fun b hb => ?_⟩
  have := h (fun i => if i ∈ L then (b.get i : ℝ) else (a.get i : ℝ)) (by
    intro i
    by_cases hi : i ∈ L
    · simp only [hi, if_true]
      exact hb.2 i (hL i hi)
    · simpa only [hi, if_false, sub_self, abs_zero] using hδ)
  rwa [hloc _ (fun i => (b.get i : ℝ)) (by intro i hi; simp [hi])] at this

theorem meanAt_congr (L : List (List Nat)) (z z' : List Nat → ℝ) (h : ∀ i ∈ L, z i = z' i) : meanAt L z = meanAt L z' := by
  unfold meanAt; rw [List.map_congr_left h]

theorem varAt_congr (L : List (List Nat)) (z z' : List Nat → ℝ) (h : ∀ i ∈ L, z i = z' i) : varAt L z = varAt L z' := by
  unfold varAt
  rw [meanAt_congr L z z' h, List.map_congr_left (fun i hi => by rw [h i hi])]

theorem selected_inShape (r : Region Rat) (i : List Nat) (h : i ∈ r.selected) : InShape r.arr.shape i :=
  (inShape_iff_mem _ _).1 (List.mem_filter.1 h).1

theorem ratio_continuousAt (L M : List (List Nat)) (z : List Nat → ℝ) (hv : varAt M z ≠ 0) :
    ContinuousAt (fun z => (meanAt L z - meanAt M z) / Real.sqrt (varAt M z)) z := by
  have h0 : 0 ≤ varAt M z := div_nonneg (sum_nonneg _ _ (fun _ _ => sq_nonneg _)) (Nat.cast_nonneg _)
  refine ContinuousAt.div₀ ((meanAt_continuous L).sub (meanAt_continuous M)).continuousAt (varAt_continuous M).sqrt.continuousAt ?_
  exact Real.sqrt_ne_zero'.2 (lt_of_le_of_ne h0 (Ne.symm hv))

theorem snr_continuousAt (M : List (List Nat)) (z : List Nat → ℝ) (hv : varAt M z ≠ 0) :
    ContinuousAt (fun z => meanAt M z / Real.sqrt (varAt M z)) z := by
  have h0 : 0 ≤ varAt M z := div_nonneg (sum_nonneg _ _ (fun _ _ => sq_nonneg _)) (Nat.cast_nonneg _)
  refine ContinuousAt.div₀ (meanAt_continuous M).continuousAt (varAt_continuous M).sqrt.continuousAt ?_
  exact Real.sqrt_ne_zero'.2 (lt_of_le_of_ne h0 (Ne.symm hv))

/-- A region that is not flat does not become flat by small changes. -/
theorem near_not_flat (M : List (List Nat)) (a : NDArray Rat) (hM : ∀ i ∈ M, InShape a.shape i) (hv : varQ (M.map a.get) ≠ 0) :
    ∃ δ > 0, ∀ b, NearQ δ a b → varQ (M.map b.get) ≠ 0 := by
  have hv' : varAt M (fun i => (a.get i : ℝ)) ≠ 0 := by rw [varAt_cast]; exact_mod_cast hv
  obtain ⟨δ, hδ, h⟩ := near_values M (varAt M) a hM (varAt_congr M) (varAt_continuous M).continuousAt _ (abs_pos.2 hv')
  refine ⟨δ, hδ, fun b hb h0 => ?_⟩
  have := h b hb
  rw [varAt_cast M b.get, h0, Rat.cast_zero, zero_sub, abs_neg] at this
  exact lt_irrefl _ this

/-- **C154** (partial: the region must not be flat). The SNR of a grayscale image for a given centre changes little when all
pixels change little. -/
theorem C154_snr_partial (a : NDArray Rat) (args : SnrArgs) (hauto : args.auto = false)
    (hc : isColour a = false) (c : List Int) (r : Int) (reg : Region Rat)
    (h1 : snrChecks a args.center args.radius = .ok (c, r))
    (h2 : selectRegion a (regionKind args.regionType) c r none = .ok reg) (hflat : ¬ ∃ u, ∀ x ∈ reg.values, x = u)
    (v : ℝ) (h : snr a args = .ok (.gray v)) (ε : ℝ) (hε : 0 < ε) :
    ∃ δ > 0, ∀ b, NearQ δ a b → ∃ v', snr b args = .ok (.gray v') ∧ |v' - v| < ε := by
  have hne : reg.values ≠ [] := by intro h0; exact hflat ⟨0, by rw [h0]; simp⟩
  obtain ⟨-, ha⟩ := selectRegion_sel a a rfl _ _ _ _ h2
  obtain ⟨ra, rs⟩ := reg
  simp only at ha
  subst ha
  set L := (⟨ra, rs⟩ : Region Rat).selected with hL
  have hin : ∀ i ∈ L, InShape ra.shape i := fun i hi => selected_inShape ⟨ra, rs⟩ i hi
  have hvals : (⟨ra, rs⟩ : Region Rat).values = L.map ra.get := rfl
  have hvar : varQ (L.map ra.get) ≠ 0 := by
    rw [← hvals]; exact fun h0 => hflat ((varQ_eq_zero_iff _ hne).1 h0)
  have value : ∀ b : NDArray Rat, b.shape = ra.shape → varQ (L.map b.get) ≠ 0 →
      snr b args = .ok (.gray (meanAt L (fun i => (b.get i : ℝ)) / Real.sqrt (varAt L (fun i => (b.get i : ℝ))))) := by
    intro b hs hb
    have hcb : isColour b = false := by
      unfold isColour NDArray.ndim NDArray.lastDim at *; rw [hs]; exact hc
    have hchk : snrChecks b args.center args.radius = .ok (c, r) := by
      rw [← h1]; unfold snrChecks NDArray.ndim NDArray.lastDim; rw [hs]
    obtain ⟨e1, -⟩ := selectRegion_sel ra b hs.symm _ _ _ _ h2
    rw [snr_gray_eq b args hauto hcb, hchk]
    simp only [e1]
    have e3 : (⟨b, rs⟩ : Region Rat).values = L.map b.get := by
      unfold Region.values; rw [hL]; unfold Region.selected; simp only; rw [hs]
    rw [e3]
    unfold snrOf
    have hnil : L.map b.get ≠ [] := by
      intro h0
      apply hne
      rw [hvals]
      rw [List.map_eq_nil_iff] at h0 ⊢
      exact h0
    rw [if_neg hnil, if_neg hb, meanAt_cast, varAt_cast]
    rfl
  obtain ⟨δ₁, hδ₁, n₁⟩ := near_not_flat L ra hin hvar
  have hvar' : varAt L (fun i => (ra.get i : ℝ)) ≠ 0 := by rw [varAt_cast]; exact_mod_cast hvar
  obtain ⟨δ₂, hδ₂, n₂⟩ := near_values L (fun z => meanAt L z / Real.sqrt (varAt L z)) ra hin
    (fun z z' hz => by simp only [meanAt_congr L z z' hz, varAt_congr L z z' hz]) (snr_continuousAt L _ hvar') ε hε
  refine ⟨min δ₁ δ₂, lt_min hδ₁ hδ₂, fun b hb => ?_⟩
  have hb1 : NearQ δ₁ ra b := ⟨hb.1, fun i hi => (hb.2 i hi).trans_le (min_le_left _ _)⟩
  have hb2 : NearQ δ₂ ra b := ⟨hb.1, fun i hi => (hb.2 i hi).trans_le (min_le_right _ _)⟩
  refine ⟨_, value b hb.1 (n₁ b hb1), ?_⟩
  have hv := value ra rfl hvar
  rw [h] at hv
  have hv' := SnrResult.gray.inj (Except.ok.inj hv)
  rw [hv']
  exact n₂ b hb2

/-- **C154** (partial: the background must not be flat). CNR for given centres changes little when all pixels change little. -/
theorem C154_cnr_partial (a : NDArray Rat) (args : CnrArgs) (hauto : args.auto = false) (s g : Region Rat)
    (hsel : cnrSelect a args = .ok (s, g)) (hflat : ¬ ∃ u, ∀ x ∈ g.values, x = u)
    (v : ℝ) (h : cnr a args = .ok v) (ε : ℝ) (hε : 0 < ε) :
    ∃ δ > 0, ∀ b, NearQ δ a b → ∃ v', cnr b args = .ok v' ∧ |v' - v| < ε := by
  have hne : g.values ≠ [] := by intro h0; exact hflat ⟨0, by rw [h0]; simp⟩
  have hsne : s.values ≠ [] := by
    intro h0
    unfold cnr cnrOf at h
    rw [hsel] at h
    simp only at h
    rw [if_neg hne, if_neg (fun h' => hflat ((varQ_eq_zero_iff _ hne).1 h')), if_pos h0] at h
    cases h
  obtain ⟨-, ha, ha'⟩ := cnrSelect_sel a a args hauto rfl s g hsel
  obtain ⟨sa, ss⟩ := s
  obtain ⟨ga, gs⟩ := g
  simp only at ha ha'
  subst ha
  subst ha'
  set L := (⟨ga, ss⟩ : Region Rat).selected with hL
  set M := (⟨ga, gs⟩ : Region Rat).selected with hM
  have hinL : ∀ i ∈ L, InShape ga.shape i := fun i hi => selected_inShape ⟨ga, ss⟩ i hi
  have hinM : ∀ i ∈ M, InShape ga.shape i := fun i hi => selected_inShape ⟨ga, gs⟩ i hi
  have hvar : varQ (M.map ga.get) ≠ 0 := fun h0 => hflat ((varQ_eq_zero_iff _ hne).1 h0)
  have value : ∀ b : NDArray Rat, b.shape = ga.shape → varQ (M.map b.get) ≠ 0 →
      cnr b args = .ok ((meanAt L (fun i => (b.get i : ℝ)) - meanAt M (fun i => (b.get i : ℝ))) /
        Real.sqrt (varAt M (fun i => (b.get i : ℝ)))) := by
    intro b hs hb
    obtain ⟨e1, -, -⟩ := cnrSelect_sel ga b args hauto hs.symm _ _ hsel
    unfold cnr
    rw [e1]
    simp only
    have e2 : (⟨b, ss⟩ : Region Rat).values = L.map b.get := by
      unfold Region.values; rw [hL]; unfold Region.selected; simp only; rw [hs]
    have e3 : (⟨b, gs⟩ : Region Rat).values = M.map b.get := by
      unfold Region.values; rw [hM]; unfold Region.selected; simp only; rw [hs]
    rw [e2, e3]
    unfold cnrOf
    have hnilM : M.map b.get ≠ [] := by
      intro h0
      apply hne
      show M.map ga.get = []
      rw [List.map_eq_nil_iff] at h0 ⊢
      exact h0
    have hnilL : L.map b.get ≠ [] := by
      intro h0
      apply hsne
      show L.map ga.get = []
      rw [List.map_eq_nil_iff] at h0 ⊢
      exact h0
    rw [if_neg hnilM, if_neg hb, if_neg hnilL, meanAt_cast, meanAt_cast, varAt_cast, Rat.cast_sub]
    rfl
  obtain ⟨δ₁, hδ₁, n₁⟩ := near_not_flat M ga hinM hvar
  have hvar' : varAt M (fun i => (ga.get i : ℝ)) ≠ 0 := by rw [varAt_cast]; exact_mod_cast hvar
  obtain ⟨δ₂, hδ₂, n₂⟩ := near_values (L ++ M) (fun z => (meanAt L z - meanAt M z) / Real.sqrt (varAt M z)) ga
    (fun i hi => (List.mem_append.1 hi).elim (hinL i) (hinM i))
    (fun z z' hz => by
      have hl := fun i hi => hz i (List.mem_append_left M hi)
      have hm := fun i hi => hz i (List.mem_append_right L hi)
      simp only [meanAt_congr L z z' hl, meanAt_congr M z z' hm, varAt_congr M z z' hm]) (ratio_continuousAt L M _ hvar') ε hε
  refine ⟨min δ₁ δ₂, lt_min hδ₁ hδ₂, fun b hb => ?_⟩
  have hb1 : NearQ δ₁ ga b := ⟨hb.1, fun i hi => (hb.2 i hi).trans_le (min_le_left _ _)⟩
  have hb2 : NearQ δ₂ ga b := ⟨hb.1, fun i hi => (hb.2 i hi).trans_le (min_le_right _ _)⟩
  refine ⟨_, value b hb.1 (n₁ b hb1), ?_⟩
  have hv := value ga rfl hvar
  rw [h] at hv
  rw [Except.ok.inj hv]
  exact n₂ b hb2

theorem sampleRows_not_flat : ¬ ∃ u, ∀ x ∈ (⟨sampleRows, boxMask [6, 6] [1, 1] 1⟩ : Region Rat).values, x = u := by
  rw [sampleRows_background]
  rintro ⟨v, h⟩
  have h0 := h 0 (by simp)
  have h1 := h 1 (by simp)
  rw [← h0] at h1
  norm_num at h1

example (v : ℝ) (h : snr sampleRows { center := some [.int 1, .int 1], radius := .int 1 } = .ok (.gray v)) :
    ∃ δ > 0, ∀ b, NearQ δ sampleRows b →
      ∃ v', snr b { center := some [.int 1, .int 1], radius := .int 1 } = .ok (.gray v') ∧ |v' - v| < 1 / 10 :=
  C154_snr_partial sampleRows _ rfl rfl [1, 1] 1 ⟨sampleRows, boxMask [6, 6] [1, 1] 1⟩ rfl rfl sampleRows_not_flat v h _ (by norm_num)

example (v : ℝ) (h : cnr sampleRows sampleRowsArgs = .ok v) :
    ∃ δ > 0, ∀ b, NearQ δ sampleRows b → ∃ v', cnr b sampleRowsArgs = .ok v' ∧ |v' - v| < 1 / 10 :=
  C154_cnr_partial sampleRows sampleRowsArgs rfl _ _ sampleRows_select sampleRows_not_flat v h _ (by norm_num)

/-- Value 1, but 2 in the lower right corner and `1 + t` at the origin. -/
def nearlyFlat (t : Rat) : NDArray Rat :=
  ⟨[6, 6], fun i => if i = [0, 0] then 1 + t else if 2 < i.getD 0 0 then 2 else 1⟩

theorem nearlyFlat_background (t : Rat) : (⟨nearlyFlat t, boxMask [6, 6] [1, 1] 1⟩ : Region Rat).values = [1 + t, 1, 1, 1] := by
  have : (⟨nearlyFlat t, boxMask [6, 6] [1, 1] 1⟩ : Region Rat).selected = [[0, 0], [0, 1], [1, 0], [1, 1]] := by
    show (indices [6, 6]).filter (boxMask [6, 6] [1, 1] 1) = _
    decide +kernel
  unfold Region.values
  rw [this]
  simp [nearlyFlat]

theorem nearlyFlat_signal (t : Rat) : (⟨nearlyFlat t, boxMask [6, 6] [4, 4] 1⟩ : Region Rat).values = [2, 2, 2, 2] := by
  have : (⟨nearlyFlat t, boxMask [6, 6] [4, 4] 1⟩ : Region Rat).selected = [[3, 3], [3, 4], [4, 3], [4, 4]] := by
    show (indices [6, 6]).filter (boxMask [6, 6] [4, 4] 1) = _
    decide +kernel
  unfold Region.values
  rw [this]
  simp [nearlyFlat]

theorem nearlyFlat_near (t : Rat) (δ : ℝ) (h0 : 0 < t) (h : (t : ℝ) < δ) : NearQ δ (nearlyFlat 0) (nearlyFlat t) := by
  have ht : (0 : ℝ) < t := by exact_mod_cast h0
  refine ⟨rfl, fun i _ => ?_⟩
  by_cases hi : i = [0, 0]
  · simp only [nearlyFlat, hi, if_true]
    push_cast
    rw [add_zero, add_sub_cancel_left, abs_of_pos ht]
    exact h
  · simp only [nearlyFlat, hi, if_false, sub_self, abs_zero]
    linarith

theorem nearlyFlat_var (t : Rat) : varQ [1 + t, 1, 1, 1] = 3 * t ^ 2 / 16 := by
  simp [varQ, meanQ]; ring

theorem nearlyFlat_std (t : Rat) (h0 : 0 < t) : stdQ [1 + t, 1, 1, 1] ≤ t / 2 ∧ 0 < stdQ [1 + t, 1, 1, 1] := by
  have ht : (0 : ℝ) < t := by exact_mod_cast h0
  unfold stdQ
  rw [nearlyFlat_var]
  push_cast
  constructor
  · apply Real.sqrt_le_iff.2 ⟨by positivity, ?_⟩
    nlinarith [sq_nonneg (t : ℝ)]
  · apply Real.sqrt_pos.2; positivity

/-- **C154** does not hold for SNR and CNR without that condition: the SNR of a flat region, and the CNR for a flat background,
are 0, although the values of nearly flat regions exceed every bound. -/
theorem C154_refuted :
    (¬ ∀ (a : NDArray Rat) (args : SnrArgs) (v : ℝ), snr a args = .ok (.gray v) → ∀ ε > 0, ∃ δ > 0, ∀ b, NearQ δ a b →
      ∃ v', snr b args = .ok (.gray v') ∧ |v' - v| < ε) ∧
    (¬ ∀ (a : NDArray Rat) (args : CnrArgs) (v : ℝ), cnr a args = .ok v → ∀ ε > 0, ∃ δ > 0, ∀ b, NearQ δ a b →
      ∃ v', cnr b args = .ok v' ∧ |v' - v| < ε) := by
  have hs : ∀ t, snr (nearlyFlat t) { center := some [.int 1, .int 1], radius := .int 1 } =
      (snrOf [1 + t, 1, 1, 1]).map .gray := by
    intro t
    rw [snr_gray_eq _ _ rfl rfl, ← nearlyFlat_background t]
    rfl
  have hc : ∀ t, cnr (nearlyFlat t) sampleRowsArgs = cnrOf [2, 2, 2, 2] [1 + t, 1, 1, 1] := by
    intro t
    rw [← nearlyFlat_background t, ← nearlyFlat_signal t]
    rfl
  have hz : varQ [1 + 0, 1, 1, 1] = 0 := by rw [nearlyFlat_var]; norm_num
  constructor
  · intro H
    obtain ⟨δ, hδ, h⟩ := H (nearlyFlat 0) { center := some [.int 1, .int 1], radius := .int 1 } 0
      (by rw [hs]; unfold snrOf; rw [if_neg (by simp), if_pos hz]; rfl) 1 one_pos
    obtain ⟨t, ht0, ht⟩ := exists_rat_btwn (lt_min hδ one_pos)
    have ht0' : (0 : Rat) < t := by exact_mod_cast ht0
    obtain ⟨v', e, hv'⟩ := h _ (nearlyFlat_near t δ ht0' (ht.trans_le (min_le_left _ _)))
    have ht1 : (t : ℝ) < 1 := ht.trans_le (min_le_right _ _)
    obtain ⟨q1, q2⟩ := nearlyFlat_std t ht0'
    rw [hs] at e
    unfold snrOf at e
    rw [if_neg (by simp), if_neg (by rw [nearlyFlat_var]; positivity)] at e
    have e' := SnrResult.gray.inj (Except.ok.inj e)
    have hm : meanQ [1 + t, 1, 1, 1] = 1 + t / 4 := by simp [meanQ]; ring
    rw [hm] at e'
    push_cast at e'
    have : 1 < v' := by
      rw [← e', lt_div_iff₀ q2]
      linarith
    rw [sub_zero, abs_lt] at hv'
    linarith [hv'.2]
  · intro H
    obtain ⟨δ, hδ, h⟩ := H (nearlyFlat 0) sampleRowsArgs 0
      (by rw [hc]; unfold cnrOf; rw [if_neg (by simp), if_pos hz]) 1 one_pos
    obtain ⟨t, ht0, ht⟩ := exists_rat_btwn (lt_min hδ one_pos)
    have ht0' : (0 : Rat) < t := by exact_mod_cast ht0
    obtain ⟨v', e, hv'⟩ := h _ (nearlyFlat_near t δ ht0' (ht.trans_le (min_le_left _ _)))
    have ht1 : (t : ℝ) < 1 := ht.trans_le (min_le_right _ _)
    obtain ⟨q1, q2⟩ := nearlyFlat_std t ht0'
    rw [hc] at e
    unfold cnrOf at e
    rw [if_neg (by simp), if_neg (by rw [nearlyFlat_var]; positivity), if_neg (by simp)] at e
    have e' := Except.ok.inj e
    have hm : meanQ [2, 2, 2, 2] - meanQ [1 + t, 1, 1, 1] = 1 - t / 4 := by simp [meanQ]; ring
    rw [hm] at e'
    push_cast at e'
    have : 1 < v' := by
      rw [← e', lt_div_iff₀ q2]
      linarith
    rw [sub_zero, abs_lt] at hv'
    linarith [hv'.2]

end Viqa
