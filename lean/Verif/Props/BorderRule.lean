import Verif.Props.SsimWeights
import Verif.Props.Uqi

/-! C208: the border rule has no influence on SSIM. -/

namespace Viqa

/-- Positions of a window that lie inside the image are read whatever the border rule is. -/
theorem apply_border (f g : Filter) (hr : g.radius = f.radius) (hw : g.weight = f.weight) (x : NDArray ℝ) (p : List Nat) (pad : Nat)
    (hpad : f.radius ≤ pad) (hp : p ∈ cropPositions pad x.shape) : g.apply x p = f.apply x p := by
  unfold Filter.apply
  rw [hr, hw]
  refine congrArg List.sum (List.map_congr_left (fun o ho => ?_))
  rw [mem_cropPositions] at hp
  obtain ⟨idx, h1, h2⟩ := shiftIndex_inside x.shape p o f.radius hp.1 (fun i hi hq => by
    have := hp.2 i hi hq; omega) ho
  unfold sample
  rw [h2, extendIndices_inside f.mode x.shape idx h1, extendIndices_inside g.mode x.shape idx h1]

theorem ssimAt_border (big : ℝ) (f g : Filter) (norm dr : ℝ) (a a' : SsimArgs) (h1 : a'.k1 = a.k1) (h2 : a'.k2 = a.k2)
    (hα : a'.alpha = a.alpha) (hβ : a'.beta = a.beta) (hγ : a'.gamma = a.gamma) (hr : g.radius = f.radius) (hw : g.weight = f.weight) (x y : NDArray ℝ)
    (hs : x.shape = y.shape) (p : List Nat) (pad : Nat) (hpad : f.radius ≤ pad) (hp : p ∈ cropPositions pad x.shape) :
    ssimAt big g norm dr a' x y p = ssimAt big f norm dr a x y p := by
  have hp' : p ∈ cropPositions pad y.shape := hs ▸ hp
  unfold ssimAt
  rw [apply_border f g hr hw x p pad hpad hp, apply_border f g hr hw y p pad hpad hp',
    apply_border f g hr hw (NDArray.zip (· * ·) x x) p pad hpad hp, apply_border f g hr hw (NDArray.zip (· * ·) y y) p pad hpad hp',
    apply_border f g hr hw (NDArray.zip (· * ·) x y) p pad hpad hp, h1, h2, hα, hβ, hγ]

/-- The part that is cropped from the border is as wide as the window: the window size is the
default one, or the weights are uniform, or the Gaussian window is not wider than `win_size`. -/
def Spec.WholeWindow (a : SsimArgs) : Prop :=
  a.winSize = none ∨ a.gaussian = false ∨ 7 * a.sigma < a.window

theorem whole_radius (a : SsimArgs) (m : BorderMode) (h : Spec.WholeWindow a) (h0 : 0 ≤ a.sigma) (ho : a.window % 2 = 1) :
    (a.filter m).radius ≤ (a.window - 1) / 2 := by
  rcases h with h | h | h
  · exact (filter_radius a m (.inl h)).le
  · exact (filter_radius a m (.inr h)).le
  · unfold SsimArgs.filter
    split
    · show gaussRadius a.sigma ≤ _
      obtain ⟨k, hk⟩ : ∃ k, a.window = 2 * k + 1 := ⟨a.window / 2, by omega⟩
      rw [hk] at h ⊢
      rw [show (2 * k + 1 - 1) / 2 = k by omega]
      unfold gaussRadius
      rw [← Nat.lt_add_one_iff, Nat.floor_lt (by positivity)]
      push_cast at h ⊢
      linarith
    · exact le_refl _

theorem structural_border (big dr : ℝ) (a : SsimArgs) (hw : Spec.WholeWindow a) (mode : String) (cval : ℝ) (h : ∃ m, borderMode a.mode = .ok m)
    (h' : ∃ m, borderMode mode = .ok m) (x y : NDArray ℝ) (hs : x.shape = y.shape) :
    structuralSimilarity big { a with mode := mode, cval := cval } dr x y = structuralSimilarity big a dr x y := by
  by_cases hv : a.Valid x.shape
  · have hv' : ({ a with mode := mode, cval := cval } : SsimArgs).Valid x.shape := ⟨hv.k1, hv.k2, hv.sigma, hv.fits, hv.odd⟩
    rw [ssim_valid _ _ _ _ _ hv, ssim_valid _ _ _ _ _ hv']
    obtain ⟨m, hm⟩ := h
    obtain ⟨m', hm'⟩ := h'
    unfold ssimBody
    show (match covNorm a x.ndim with | .error e => _ | .ok norm => _) = _
    cases covNorm a x.ndim with
    | error e => rfl
    | ok norm =>
      simp only [hm, hm']
      have e : ∀ b b', (cropPositions (((({ a with mode := mode, cval := cval } : SsimArgs).window) - 1) / 2) x.shape).map
          (ssimAt big (({ a with mode := mode, cval := cval } : SsimArgs).filter b') norm dr { a with mode := mode, cval := cval } x y) =
          (cropPositions ((a.window - 1) / 2) x.shape).map (ssimAt big (a.filter b) norm dr a x y) := by
        intro b b'
        refine List.map_congr_left fun p hp => ?_
        refine ssimAt_border big _ _ norm dr a _ rfl rfl rfl rfl rfl ?_ ?_ x y hs p _ (whole_radius a b hw hv.sigma hv.odd) hp
        · unfold SsimArgs.filter; split <;> rfl
        · unfold SsimArgs.filter; split <;> rfl
      split_ifs <;> simp only [e .reflect .reflect, e m m']
  · unfold structuralSimilarity
    show (if a.k1 < 0 then _ else if a.k2 < 0 then _ else if a.sigma < 0 then _ else if x.shape.any (fun n => decide (n < a.window)) = true then _
      else if a.window % 2 ≠ 1 then _ else _) = _
    split
    · rfl
    split
    · rfl
    split
    · rfl
    split
    · rfl
    split
    · rfl
    rename_i h1 h2 h3 h4 h5
    exfalso
    refine hv ⟨not_lt.1 h1, not_lt.1 h2, not_lt.1 h3, ?_, by simpa using h5⟩
    simpa only [List.any_eq_true, decide_eq_true_eq, not_exists, not_and, not_lt] using h4

/-- **C208.** SSIM of gray and colour images does not depend on the border rule (`mode`) and on the fill
value (`cval`), for all rules that SciPy knows, if the cropped border is as wide as the window. -/
theorem C208_border_partial (big dr : ℝ) (a : SsimArgs) (hw : Spec.WholeWindow a) (mode : String) (cval : ℝ) (h : ∃ m, borderMode a.mode = .ok m)
    (h' : ∃ m, borderMode mode = .ok m) (chromatic : Bool) (weights : Option (List ℝ)) (x y : NDArray ℝ) (hs : x.shape = y.shape) :
    ssimScore big { a with mode := mode, cval := cval } dr chromatic weights x y = ssimScore big a dr chromatic weights x y := by
  unfold ssimScore
  have e : ∀ c, structuralSimilarity big { a with mode := mode, cval := cval } dr (channel x c) (channel y c) =
      structuralSimilarity big a dr (channel x c) (channel y c) := fun c =>
    structural_border big dr a hw mode cval h h' _ _ (by show x.shape.dropLast = y.shape.dropLast; rw [hs])
  simp only [e, structural_border big dr a hw mode cval h h' x y hs]

/-- The default arguments, and every call with `gaussian_weights=False`. -/
example : Spec.WholeWindow {} := .inl rfl

example (w : Nat) : Spec.WholeWindow { winSize := some w, gaussian := false } := .inr (.inl rfl)

example (big : ℝ) (x y : NDArray ℝ) (hs : x.shape = y.shape) :
    ssimScore big { mode := "constant", cval := 1000 } 255 false none x y = ssimScore big {} 255 false none x y :=
  C208_border_partial big 255 {} (.inl rfl) "constant" 1000 ⟨.reflect, rfl⟩ ⟨.constant, rfl⟩ false none x y hs

/-! ### A window size that is smaller than the Gaussian window -/

/-- Filter of a uniform image whose outside counts as zero. -/
theorem apply_uniform (f : Filter) (hc : f.cval = 0) (sh : List Nat) (c : ℝ) (p : List Nat) :
    f.apply ⟨sh, fun _ => c⟩ p = c * f.apply ⟨sh, fun _ => 1⟩ p := by
  unfold Filter.apply
  rw [← List.sum_map_mul_left]
  refine congrArg List.sum (List.map_congr_left fun o _ => ?_)
  unfold sample
  show _ * (match extendIndices f.mode sh (shiftIndex p o) with | some _ => c | none => f.cval) =
    c * (_ * (match extendIndices f.mode sh (shiftIndex p o) with | some _ => 1 | none => f.cval))
  cases extendIndices f.mode sh (shiftIndex p o) with
  | none => simp only [hc]; ring
  | some i => simp only; ring

/-- Some of the weights of the window fall outside. -/
theorem apply_share (f : Filter) (hf : f.Proper) (hc : f.cval = 0) (sh p : List Nat) (o o' : List Int) (ho : o ∈ offsets f.radius sh.length)
    (ho' : o' ∈ offsets f.radius sh.length) (hi : ∃ i, extendIndices f.mode sh (shiftIndex p o) = some i) (hn : extendIndices f.mode sh (shiftIndex p o') = none) :
    0 < f.apply ⟨sh, fun _ => 1⟩ p ∧ f.apply ⟨sh, fun _ => 1⟩ p < 1 := by
  have hw := offsetWeight_pos f.weight f.radius sh.length hf.pos
  have val : ∀ q, sample f ⟨sh, fun _ => 1⟩ q = if extendIndices f.mode sh q = none then 0 else 1 := by
    intro q
    unfold sample
    show (match extendIndices f.mode sh q with | some _ => (1 : ℝ) | none => f.cval) = _
    cases extendIndices f.mode sh q with
    | none => simp [hc]
    | some i => simp
  unfold Filter.apply
  show 0 < ((offsets f.radius sh.length).map _).sum ∧ ((offsets f.radius sh.length).map _).sum < 1
  constructor
  · have := List.sum_lt_sum (l := offsets f.radius sh.length) (fun _ => (0 : ℝ))
      (fun o => offsetWeight f.weight o * sample f ⟨sh, fun _ => 1⟩ (shiftIndex p o))
      (fun q hq => mul_nonneg (hw q hq).le (by rw [val]; split_ifs <;> norm_num))
      ⟨o, ho, by obtain ⟨i, hi⟩ := hi; rw [val, hi]; simpa using hw o ho⟩
    simpa using this
  · have := List.sum_lt_sum (l := offsets f.radius sh.length)
      (fun o => offsetWeight f.weight o * sample f ⟨sh, fun _ => 1⟩ (shiftIndex p o)) (offsetWeight f.weight)
      (fun q hq => mul_le_of_le_one_right (hw q hq).le (by rw [val]; split_ifs <;> norm_num))
      ⟨o', ho', by rw [val, hn]; simpa using hw o' ho'⟩
    rwa [offsetWeight_sum _ _ _ hf.sum] at this

/-- Uniform images of gray values 1 and 2, of whose windows the share `s` lies inside. -/
theorem ssimAt_share (big : ℝ) (f : Filter) (n dr : ℝ) (a : SsimArgs) (h1 : a.k1 = 0) (hα : a.alpha = .int 1) (hβ : a.beta = .int 1) (hγ : a.gamma = .int 1)
    (sh p : List Nat) (s : ℝ) (hc : (a.k2 * dr) ≠ 0) (hn : 0 < n) (h0 : 0 < s) (hs : s ≤ 1) (hx : ∀ c, f.apply ⟨sh, fun _ => c⟩ p = c * s) :
    ssimAt big f n dr a ⟨sh, fun _ => 1⟩ ⟨sh, fun _ => 2⟩ p =
      .ok (4 / 5 * ((4 * (n * (s - s * s)) + (a.k2 * dr) ^ 2) / (5 * (n * (s - s * s)) + (a.k2 * dr) ^ 2))) := by
  have e1 : NDArray.zip (· * ·) (⟨sh, fun _ => 1⟩ : NDArray ℝ) ⟨sh, fun _ => 1⟩ = ⟨sh, fun _ => 1⟩ := by simp [NDArray.zip]
  have e2 : NDArray.zip (· * ·) (⟨sh, fun _ => 2⟩ : NDArray ℝ) ⟨sh, fun _ => 2⟩ = ⟨sh, fun _ => 4⟩ := by
    simp only [NDArray.zip]; norm_num
  have e3 : NDArray.zip (· * ·) (⟨sh, fun _ => 1⟩ : NDArray ℝ) ⟨sh, fun _ => 2⟩ = ⟨sh, fun _ => 2⟩ := by simp [NDArray.zip]
  unfold ssimAt
  rw [e1, e2, e3, hx 1, hx 2, hx 4]
  simp only
  rw [h1, hα, hβ, hγ]
  set c := (a.k2 * dr) ^ 2 with hcdef
  have hcp : 0 < c := by positivity
  have hv : 0 ≤ n * (s - s * s) := mul_nonneg hn.le (by nlinarith)
  set v := n * (s - s * s) with hvdef
  rw [show n * (1 * s - 1 * s * (1 * s)) = v by rw [hvdef]; ring, show n * (4 * s - 2 * s * (2 * s)) = 2 ^ 2 * v by rw [hvdef]; ring,
    show n * (2 * s - 1 * s * (2 * s)) = 2 * v by rw [hvdef]; ring]
  have hq : Real.sqrt (2 ^ 2 * v) = 2 * Real.sqrt v := by
    rw [Real.sqrt_mul (by norm_num), Real.sqrt_sq (by norm_num)]
  have hqq : Real.sqrt v * Real.sqrt v = v := Real.mul_self_sqrt hv
  have hneg : ¬ (v < 0 ∨ 2 ^ 2 * v < 0) := by push Not; exact ⟨hv, by positivity⟩
  have s1 : structureTerm v (2 ^ 2 * v) (2 * v) (c / 2) = .fin 1 := by
    unfold structureTerm npDiv
    rw [if_neg hneg, hq, show Real.sqrt v * (2 * Real.sqrt v) + c / 2 = 2 * v + c / 2 by linear_combination 2 * hqq, if_neg (by positivity), div_self (by positivity)]
  have s2 : contrastTerm v (2 ^ 2 * v) c = .fin ((4 * v + c) / (5 * v + c)) := by
    unfold contrastTerm npDiv
    rw [if_neg hneg, hq, show 2 * Real.sqrt v * (2 * Real.sqrt v) + c = 4 * v + c by linear_combination 4 * hqq, if_neg (by positivity)]
    congr 2; ring
  have s3 : luminanceTerm (1 * s) (2 * s) ((0 * dr) ^ 2) = .fin (4 / 5) := by
    unfold luminanceTerm npDiv
    rw [if_neg (by positivity)]
    congr 1; field_simp; ring
  rw [s1, s2, s3]
  simp [nanToNum, npPow, ExpArg.cast]

/-- The claim that the border rule has no influence, for all arguments. -/
def Spec.BorderIrrelevant : Prop := ∀ (big dr : ℝ) (a : SsimArgs) (mode : String) (x y : NDArray ℝ), 0 < dr → (∃ m, borderMode a.mode = .ok m) →
  (∃ m, borderMode mode = .ok m) → x.shape = y.shape → structuralSimilarity big { a with mode := mode } dr x y = structuralSimilarity big a dr x y

/-- With `win_size=7` and the default Gaussian weights. -/
theorem small_window (big dr : ℝ) (hdr : 0 < dr) (mode : String) (m : BorderMode) (hm : borderMode mode = .ok m) (s : ℝ) (h0 : 0 < s) (hs : s ≤ 1)
    (hx : ∀ c, (({ winSize := some 7, k1 := 0, mode := mode } : SsimArgs).filter m).apply ⟨[7, 7], fun _ => c⟩ [3, 3] = c * s) :
    structuralSimilarity big { winSize := some 7, k1 := 0, mode := mode } dr ⟨[7, 7], fun _ => 1⟩ ⟨[7, 7], fun _ => 2⟩ =
      .ok (4 / 5 * ((4 * (49 / 48 * (s - s * s)) + (3 / 100 * dr) ^ 2) / (5 * (49 / 48 * (s - s * s)) + (3 / 100 * dr) ^ 2))) := by
  have hv : ({ winSize := some 7, k1 := 0, mode := mode } : SsimArgs).Valid [7, 7] :=
    ⟨by norm_num, by norm_num, by norm_num, by intro n hn; simp [SsimArgs.window] at hn ⊢; omega, by simp [SsimArgs.window]⟩
  rw [ssim_valid _ _ _ _ _ hv]
  unfold ssimBody
  have hcov : covNorm { winSize := some 7, k1 := 0, mode := mode } (⟨[7, 7], fun _ => (1 : ℝ)⟩ : NDArray ℝ).ndim = .ok (49 / 48) := by
    simp only [covNorm, SsimArgs.window, NDArray.ndim]
    norm_num
    simp
  have hpos : cropPositions ((({ winSize := some 7, k1 := 0, mode := mode } : SsimArgs).window - 1) / 2) [7, 7] = [[3, 3]] := by
    simp only [SsimArgs.window]; decide
  rw [hcov]
  simp only [hm]
  rw [if_neg (by norm_num)]
  simp only
  rw [hpos, List.map_singleton, ssimAt_share big _ (49 / 48) dr _ rfl rfl rfl rfl [7, 7] [3, 3] s (by positivity) (by norm_num) h0 hs hx]
  simp [allOk, meanList]

/-- **C208** is false for a window size that is smaller than the Gaussian window (11 for the default `sigma`):
two uniform images of 7 × 7 pixels score 0.8 with the default rule and less with `mode='constant'`. -/
theorem C208_refuted : ¬ Spec.BorderIrrelevant ∧ ∀ big dr : ℝ, 0 < dr → ∃ v < 4 / 5,
    structuralSimilarity big { winSize := some 7, k1 := 0 } dr ⟨[7, 7], fun _ => 1⟩ ⟨[7, 7], fun _ => 2⟩ = .ok (4 / 5) ∧
    structuralSimilarity big { winSize := some 7, k1 := 0, mode := "constant" } dr ⟨[7, 7], fun _ => 1⟩ ⟨[7, 7], fun _ => 2⟩ = .ok v := by
  have hr : gaussRadius (3 / 2) = 5 := by
    unfold gaussRadius
    rw [Nat.floor_eq_iff (by norm_num)]
    norm_num
  have key : ∀ big dr : ℝ, 0 < dr → ∃ v < 4 / 5,
    structuralSimilarity big { winSize := some 7, k1 := 0 } dr ⟨[7, 7], fun _ => 1⟩ ⟨[7, 7], fun _ => 2⟩ = .ok (4 / 5) ∧
    structuralSimilarity big { winSize := some 7, k1 := 0, mode := "constant" } dr ⟨[7, 7], fun _ => 1⟩ ⟨[7, 7], fun _ => 2⟩ = .ok v := by
    intro big dr hdr
    have hrad : (({ winSize := some 7, k1 := 0, mode := "constant" } : SsimArgs).filter .constant).radius = 5 := by
      simp [SsimArgs.filter, hr]
    have hmode := (filter_mode { winSize := some 7, k1 := 0, mode := "constant" } .constant).1
    obtain ⟨h0, h1⟩ := apply_share (({ winSize := some 7, k1 := 0, mode := "constant" } : SsimArgs).filter .constant)
      (SsimArgs.filter_proper _ _) (filter_mode _ _).2 [7, 7] [3, 3] [0, 0] [5, 5]
      (by rw [hrad, mem_offsets]; simp) (by rw [hrad, mem_offsets]; simp) ⟨[3, 3], by rw [hmode]; decide⟩ (by rw [hmode]; decide)
    set s := (({ winSize := some 7, k1 := 0, mode := "constant" } : SsimArgs).filter .constant).apply ⟨[7, 7], fun _ => 1⟩ [3, 3] with hsdef
    refine ⟨_, ?_, ?_, small_window big dr hdr "constant" .constant (by decide) s h0 h1.le
      (fun c => apply_uniform _ (filter_mode _ _).2 [7, 7] c [3, 3])⟩
    · have hv : 0 < 49 / 48 * (s - s * s) := by nlinarith
      have hd : 0 < (3 / 100 * dr) ^ 2 := by positivity
      rw [mul_lt_iff_lt_one_right (by norm_num), div_lt_one (by positivity)]
      linarith
    · rw [show ({ winSize := some 7, k1 := 0 } : SsimArgs) = { winSize := some 7, k1 := 0, mode := "reflect" } from rfl,
        small_window big dr hdr "reflect" .reflect (by decide) 1 (by norm_num) le_rfl (fun c => by
          rw [mul_one]
          refine apply_const _ (SsimArgs.filter_proper _ _) [7, 7] c [3, 3] fun o ho => ?_
          have hl := ((mem_offsets _ _ _).1 ho).1
          obtain ⟨i, hi, -⟩ := extendIndices_spec .reflect [7, 7] (shiftIndex [3, 3] o)
            (by unfold shiftIndex; rw [List.length_zipWith]; simp [hl]) (by simp) (by decide)
          rw [(filter_mode _ _).1]
          exact ⟨i, hi⟩)]
      have : (3 / 100 * dr) ^ 2 ≠ 0 := by positivity
      congr 1
      rw [show (4 * (49 / 48 * ((1 : ℝ) - 1 * 1)) + (3 / 100 * dr) ^ 2) = 5 * (49 / 48 * (1 - 1 * 1)) + (3 / 100 * dr) ^ 2 by ring, div_self (by simpa using this), mul_one]
  refine ⟨fun h => ?_, key⟩
  obtain ⟨v, hv, h1, h2⟩ := key 1 1 one_pos
  have := h 1 1 { winSize := some 7, k1 := 0 } "constant" ⟨[7, 7], fun _ => 1⟩ ⟨[7, 7], fun _ => 2⟩ one_pos ⟨.reflect, by decide⟩ ⟨.constant, by decide⟩ rfl
  rw [h1] at this
  have := h2.symm.trans this
  cases this
  exact lt_irrefl _ hv

end Viqa
