import Verif.Props.Ssim

set_option linter.unusedSimpArgs false

/-! Properties C33, C76, C77 and C78: UQI, documented arguments of the structural similarity and
colour images. -/

namespace Viqa

/-! ### Flat images -/

/-- The image with the same value everywhere. -/
def flat (sh : List Nat) (c : ℝ) : NDArray ℝ := ⟨sh, fun _ => c⟩

theorem ssimAt_flat (big : ℝ) (f : Filter) (hf : f.Proper) (norm dr : ℝ) (a : SsimArgs) (sh p : List Nat)
    (c d : ℝ) (ha : a.alpha.cast = 1) (hb : a.beta.cast = 1) (hc : a.gamma.cast = 1)
    (h : ∀ o ∈ offsets f.radius sh.length, ∃ i, extendIndices f.mode sh (shiftIndex p o) = some i) :
    ssimAt big f norm dr a (flat sh c) (flat sh d) p =
      .ok (nanToNum big (luminanceTerm c d ((a.k1 * dr) ^ 2))) := by
  have e : ∀ u v : ℝ, NDArray.zip (· * ·) (flat sh u) (flat sh v) = flat sh (u * v) := fun u v => rfl
  have hap : ∀ u, f.apply (flat sh u) p = u := fun u => apply_const f hf sh u p h
  unfold ssimAt
  simp only [e, hap, sub_self, mul_zero, ha, hb, hc]
  have h1 : ∀ k, nanToNum big (structureTerm 0 0 0 k) = 1 := by
    intro k
    unfold structureTerm
    rw [if_neg (by simp)]
    simp only [Real.sqrt_zero, mul_zero, zero_add]
    exact nanToNum_self big k
  have h2 : ∀ k, nanToNum big (contrastTerm 0 0 k) = 1 := by
    intro k
    unfold contrastTerm
    rw [if_neg (by simp)]
    simp only [Real.sqrt_zero, mul_zero, zero_add]
    exact nanToNum_self big k
  rw [h1, h2, npPow_one]
  unfold npPow
  simp

/-- On flat images the score is the luminance comparison of the two gray values. -/
theorem ssim_flat (big dr : ℝ) (a : SsimArgs) (sh : List Nat) (c d : ℝ) (hsh : sh ≠ [])
    (hv : a.Valid sh) (hw : a.winSize = none ∨ a.gaussian = false) (hw1 : a.winSize = some 1 → False)
    (m : BorderMode) (hm : borderMode a.mode = .ok m)
    (hα : a.alpha.cast = 1) (hβ : a.beta.cast = 1) (hγ : a.gamma.cast = 1) :
    structuralSimilarity big a dr (flat sh c) (flat sh d) =
      .ok (nanToNum big (luminanceTerm c d ((a.k1 * dr) ^ 2))) := by
  obtain ⟨v, h⟩ := C32_score_exists big dr a (flat sh c) (flat sh d) hv hsh hw1 m hm (by omega) (by omega) (by omega)
  rw [h]
  obtain ⟨-, norm, m', l, hn, hm', hl, hmean⟩ := ssim_ok _ _ _ _ _ _ h
  have hall : ∀ b ∈ l, b = nanToNum big (luminanceTerm c d ((a.k1 * dr) ^ 2)) := by
    intro b hbl
    have : (Except.ok b : Py ℝ) ∈ l.map .ok := List.mem_map_of_mem hbl
    rw [← hl] at this
    obtain ⟨p, hp, hpv⟩ := List.mem_map.1 this
    rw [ssimAt_flat big (a.filter m') (a.filter_proper m') norm dr a sh p c d hα hβ hγ] at hpv
    · cases hpv; rfl
    · intro o ho
      rw [filter_radius a m' hw] at ho
      have hp' := (mem_cropPositions _ _ _).1 hp
      obtain ⟨idx, h1, h2⟩ := shiftIndex_inside sh p o _ hp'.1 hp'.2 ho
      exact ⟨idx, by rw [h2, extendIndices_inside _ sh idx h1]⟩
  by_cases hl0 : l = []
  · subst hl0; cases hmean
  · rw [meanList_const l _ hl0 hall] at hmean
    cases hmean; rfl

/-! ### C33 -/

/-- The documented index: structural similarity with a uniform window and both stabilizing
constants zero. -/
noncomputable def documentedUqi (big dr : ℝ) (winSize : Option Nat) (x y : NDArray ℝ) : Py ℝ :=
  structuralSimilarity big { gaussian := false, winSize := winSize, k1 := 0, k2 := 0 } dr x y

/-- What UQI computes: the structural similarity with the default constants 0.01 and 0.03. The
arguments `k_1` and `k_2` are ignored. -/
theorem C33_actual (big dr : ℝ) (winSize : Option Nat) (x y : NDArray ℝ) :
    uqi big dr winSize x y =
      structuralSimilarity big { gaussian := false, winSize := winSize, k1 := 1 / 100, k2 := 3 / 100 } dr x y := by
  unfold uqi withKwargs
  simp

/-- **C33** for identical images: both are 1. Missing: all other images (see `C33_refuted`). -/
theorem C33_identical_partial (big dr : ℝ) (winSize : Option Nat) (x : NDArray ℝ) (u v : ℝ)
    (hu : uqi big dr winSize x x = .ok u) (hv : documentedUqi big dr winSize x x = .ok v) : u = v := by
  rw [C30_self big dr _ x u hu, C30_self big dr _ x v hv]

example (u v : ℝ) (hu : uqi 1e308 255 (some 7) ⟨[9, 9], fun i => i.sum⟩ ⟨[9, 9], fun i => i.sum⟩ = .ok u)
    (hv : documentedUqi 1e308 255 (some 7) ⟨[9, 9], fun i => i.sum⟩ ⟨[9, 9], fun i => i.sum⟩ = .ok v) : u = v :=
  C33_identical_partial _ _ _ _ _ _ hu hv

/-- **C33** is false for every data range but zero: a black and a white image of 7×7 pixels. -/
theorem C33_refuted (big dr : ℝ) (hdr : dr ≠ 0) :
    documentedUqi big dr none (flat [7, 7] 0) (flat [7, 7] 1) = .ok 0 ∧
    ∃ v, 0 < v ∧ uqi big dr none (flat [7, 7] 0) (flat [7, 7] 1) = .ok v := by
  have hval : ∀ k1 k2 : ℝ, 0 ≤ k1 → 0 ≤ k2 →
      SsimArgs.Valid { gaussian := false, winSize := none, k1 := k1, k2 := k2 } [7, 7] := by
    intro k1 k2 h1 h2
    refine ⟨h1, h2, by norm_num, ?_, ?_⟩
    · intro n hn
      simp only [List.mem_cons, List.not_mem_nil, or_false, or_self] at hn
      subst hn
      simp [SsimArgs.window]
    · simp [SsimArgs.window]
  constructor
  · unfold documentedUqi
    rw [ssim_flat big dr _ [7, 7] 0 1 (by simp) (hval 0 0 le_rfl le_rfl) (Or.inr rfl) (by simp) .reflect
      (by simp [borderMode]) rfl rfl rfl]
    simp [luminanceTerm, npDiv, nanToNum]
  · rw [C33_actual, ssim_flat big dr _ [7, 7] 0 1 (by simp)
      (hval _ _ (by norm_num) (by norm_num)) (Or.inr rfl) (by simp) .reflect (by simp [borderMode]) rfl rfl rfl]
    refine ⟨_, ?_, rfl⟩
    have hpos : 0 < (1 / 100 * dr) ^ 2 := by positivity
    have hb : (0 : ℝ) ^ 2 + 1 ^ 2 + (1 / 100 * dr) ^ 2 ≠ 0 := by positivity
    simp only [luminanceTerm, npDiv, if_neg hb, nanToNum]
    positivity

/-! ### C76 border modes -/

/-- The border modes named in the documentation of `structural_similarity`. -/
def documentedModes : List String := ["constant", "edge", "symmetric", "reflect", "wrap"]

/-- **C76** for three of the five documented modes. Missing: `edge` and `symmetric`. -/
theorem C76_modes_partial (mode : String) (h : mode = "constant" ∨ mode = "reflect" ∨ mode = "wrap") :
    ∃ m, borderMode mode = .ok m := by
  rcases h with rfl | rfl | rfl
  · exact ⟨.constant, by decide⟩
  · exact ⟨.reflect, by decide⟩
  · exact ⟨.wrap, by decide⟩

example : ∃ m, borderMode "wrap" = .ok m := C76_modes_partial _ (.inr (.inr rfl))

/-- **C76** is false: for all valid arguments the documented modes `edge` and `symmetric` raise
RuntimeError. -/
theorem C76_refuted (big dr : ℝ) (a : SsimArgs) (x y : NDArray ℝ) (hv : a.Valid x.shape)
    (hm : a.mode = "edge" ∨ a.mode = "symmetric") (hw : a.winSize = none) (hσ : a.sigma ≠ 0) (hd : x.shape ≠ []) :
    a.mode ∈ documentedModes ∧ ∃ t, structuralSimilarity big a dr x y = .error (.runtimeError t) := by
  constructor
  · rcases hm with h | h <;> simp [h, documentedModes]
  · rw [ssim_valid _ _ _ _ _ hv]
    have hb : borderMode a.mode = .error (.runtimeError "boundary mode not supported") := by
      rcases hm with h | h <;> rw [h] <;> decide
    have hcov : ∃ n, covNorm a x.ndim = .ok n := by
      unfold covNorm
      split
      · exact ⟨_, rfl⟩
      · rename_i hg
        simp only [hw, and_true, Bool.not_eq_true] at hg
        simp only [SsimArgs.window, hw, hg]
        rw [if_neg]
        · exact ⟨_, rfl⟩
        · intro h1
          rcases Nat.pow_eq_one.1 h1 with h | h
          · simp at h
          · unfold NDArray.ndim at h; simp at h; exact hd h
    obtain ⟨n, hn⟩ := hcov
    unfold ssimBody
    rw [hn]
    simp only [hσ, and_false, if_false, hb]
    exact ⟨_, rfl⟩

/-- Exactly the SciPy names are accepted. -/
theorem C76_accepted_iff (mode : String) : (∃ m, borderMode mode = .ok m) ↔
    mode ∈ ["reflect", "grid-mirror", "constant", "grid-constant", "nearest", "mirror", "wrap", "grid-wrap"] := by
  unfold borderMode
  simp only [List.mem_cons, List.not_mem_nil, or_false]
  constructor
  · rintro ⟨m, h⟩
    by_contra hc
    simp only [not_or] at hc
    simp [hc] at h
  · rintro (h | h | h | h | h | h | h | h) <;> subst h <;> exact ⟨_, rfl⟩

example : ¬ ∃ m, borderMode "symmetric" = .ok m := fun h => absurd ((C76_accepted_iff _).1 h) (by decide)

/-! ### C77 window size with Gaussian weights -/

/-- **C77**, the part that holds: with Gaussian weights the filter does not depend on `win_size`.
Missing: the scaling of the variances and the cropped border do. -/
theorem C77_filter_partial (a : SsimArgs) (hg : a.gaussian = true) (w : Option Nat) (m : BorderMode) :
    ({ a with winSize := w } : SsimArgs).filter m = a.filter m := by
  unfold SsimArgs.filter
  simp [hg]

example : ({ winSize := some 7 } : SsimArgs).filter .reflect = ({} : SsimArgs).filter .reflect := C77_filter_partial {} rfl (some 7) .reflect

/-- **C77** is false: `win_size=1` raises although the default window is accepted, and passing even the
default size explicitly scales all variances by a factor that is not 1. -/
theorem C77_refuted (big dr : ℝ) (x y : NDArray ℝ) (hx : x.shape = [11, 11]) :
    (∃ v, structuralSimilarity big {} dr x y = .ok v) ∧
    structuralSimilarity big { winSize := some 1 } dr x y = .error .zeroDivisionError ∧
    covNorm {} 2 = .ok 1 ∧ covNorm { winSize := some 11 } 2 = .ok (121 / 120) := by
  have hr : gaussRadius (3 / 2) = 5 := by
    unfold gaussRadius
    rw [Nat.floor_eq_iff (by norm_num)]
    norm_num
  have hw : SsimArgs.window {} = 11 := by simp [SsimArgs.window, hr]
  refine ⟨?_, ?_, ?_, ?_⟩
  · apply C32_score_exists big dr {} x y _ (by simp [hx]) (by simp) .reflect (by simp [borderMode])
    · simp [ExpArg.cast]
    · simp [ExpArg.cast]
    · simp [ExpArg.cast]
    · refine ⟨by norm_num, by norm_num, by norm_num, ?_, by rw [hw]⟩
      intro n hn
      rw [hx] at hn
      rw [hw]; simp at hn; omega
  · apply C32_window_one big dr _ x y _ rfl
    refine ⟨by norm_num, by norm_num, by norm_num, ?_, by simp [SsimArgs.window]⟩
    intro n hn
    rw [hx] at hn
    simp only [SsimArgs.window]
    simp at hn; omega
  · simp [covNorm]
  · simp only [covNorm, SsimArgs.window]
    norm_num
    simp

/-! ### C78 colour images -/

/-- **C78.** Without weights a colour image raises a ValueError. -/
theorem C78_weights_required (big dr : ℝ) (a : SsimArgs) (x y : NDArray ℝ) :
    ∃ m, ssimScore big a dr true none x y = .error (.valueError m) := ⟨_, rfl⟩

example : ∃ m, ssimScore 1e308 {} 255 true none ⟨[11, 11, 3], fun _ => 1⟩ ⟨[11, 11, 3], fun _ => 2⟩ = .error (.valueError m) :=
  C78_weights_required _ _ _ _ _

/-- **C78.** With one weight per channel the score is the mean of the weighted channel scores. -/
theorem C78_weighted_mean (big dr : ℝ) (a : SsimArgs) (x y : NDArray ℝ) (w s : List ℝ)
    (hw : w.length = x.lastDim) (h0 : 0 < x.lastDim) (hs : s.length = x.lastDim)
    (h : ∀ c (hc : c < s.length), structuralSimilarity big a dr (channel x c) (channel y c) = .ok s[c]) :
    ssimScore big a dr true (some w) x y = .ok ((List.zipWith (· * ·) w s).sum / x.lastDim) := by
  have hall : allOk ((List.range x.lastDim).map
      (fun c => structuralSimilarity big a dr (channel x c) (channel y c))) = .ok s := by
    rw [allOk_iff]
    apply List.ext_getElem
    · simp [hs]
    · intro i h1 h2
      simp only [List.length_map] at h2
      simp [h i h2]
  have hl : (List.zipWith (· * ·) w s).length = x.lastDim := by rw [List.length_zipWith]; omega
  unfold ssimScore
  simp only [if_true, hall]
  rw [if_neg (by omega), if_pos (by omega)]
  unfold meanList
  rw [if_neg (by omega), hl]

example (x y : NDArray ℝ) (hx : x.lastDim = 3)
    (h0 : structuralSimilarity 1e308 {} 255 (channel x 0) (channel y 0) = .ok 0.5)
    (h1 : structuralSimilarity 1e308 {} 255 (channel x 1) (channel y 1) = .ok 0.25)
    (h2 : structuralSimilarity 1e308 {} 255 (channel x 2) (channel y 2) = .ok 1) :
    ssimScore 1e308 {} 255 true (some [1, 2, 3]) x y = .ok (4 / 3) := by
  rw [C78_weighted_mean 1e308 255 {} x y [1, 2, 3] [0.5, 0.25, 1] (by simp [hx]) (by omega) (by simp [hx]) (by
    intro c hc
    simp only [List.length_cons, List.length_nil] at hc
    obtain rfl | rfl | rfl : c = 0 ∨ c = 1 ∨ c = 2 := by omega
    · exact h0
    · exact h1
    · exact h2), hx]
  norm_num

/-- **C78.** Identical colour images score the mean of the weights: 1 only if they sum to the
number of channels. -/
theorem C78_identical (big dr : ℝ) (a : SsimArgs) (x : NDArray ℝ) (w : List ℝ)
    (hw : w.length = x.lastDim) (h0 : 0 < x.lastDim) (hv : a.Valid x.shape.dropLast) (hd : x.shape.dropLast ≠ [])
    (hw1 : a.winSize = some 1 → False) (m : BorderMode) (hm : borderMode a.mode = .ok m) :
    ssimScore big a dr true (some w) x x = .ok (w.sum / x.lastDim) := by
  have hc : ∀ c, structuralSimilarity big a dr (channel x c) (channel x c) = .ok 1 := by
    intro c
    exact C30_self_defined big dr a (channel x c) hv hd hw1 m hm
  rw [C78_weighted_mean big dr a x x w (List.replicate x.lastDim 1) hw h0 (by simp)
    (by intro c h; rw [hc c]; simp)]
  congr 3
  apply List.ext_getElem
  · simp; omega
  · intro i h1 h2; simp

/-- **C78.** A number of weights that is neither one nor the number of channels raises a
ValueError (three channels). -/
theorem C78_wrong_number (big dr : ℝ) (a : SsimArgs) (x y : NDArray ℝ) (w s : List ℝ)
    (h3 : x.lastDim = 3) (hw : w.length ≠ 3) (hw1 : w.length ≠ 1) (hs : s.length = 3)
    (h : ∀ c (hc : c < s.length), structuralSimilarity big a dr (channel x c) (channel y c) = .ok s[c]) :
    ∃ m, ssimScore big a dr true (some w) x y = .error (.valueError m) := by
  have hall : allOk ((List.range x.lastDim).map
      (fun c => structuralSimilarity big a dr (channel x c) (channel y c))) = .ok s := by
    rw [allOk_iff]
    apply List.ext_getElem
    · simp [hs, h3]
    · intro i h1 h2
      simp only [List.length_map] at h2
      simp [h i h2]
  unfold ssimScore
  simp only [if_true, hall]
  rw [if_pos (by omega)]
  exact ⟨_, rfl⟩

/-- Weights (0.3, 0.6, 0.1) of an 11×11 colour image: identical images score 1/3. -/
example (big : ℝ) : ssimScore big {} 255 true (some [3 / 10, 6 / 10, 1 / 10])
    ⟨[11, 11, 3], fun i => i.length⟩ ⟨[11, 11, 3], fun i => i.length⟩ = .ok (1 / 3) := by
  have hr : gaussRadius (3 / 2) = 5 := by
    unfold gaussRadius
    rw [Nat.floor_eq_iff (by norm_num)]
    norm_num
  have hw : SsimArgs.window {} = 11 := by simp [SsimArgs.window, hr]
  rw [C78_identical big 255 {} ⟨[11, 11, 3], fun i => i.length⟩ _ rfl (by decide) ?_ (by simp) (by simp) .reflect
    (by simp [borderMode])]
  · norm_num [NDArray.lastDim]
  · refine ⟨by norm_num, by norm_num, by norm_num, ?_, by rw [hw]⟩
    intro n hn
    rw [hw]; simp at hn; omega

end Viqa
