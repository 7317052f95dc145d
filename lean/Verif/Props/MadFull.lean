import Verif.Model.MadFull
import Verif.Props.Gabor

/-!
C84 and C39 for `most_apparent_distortion` as a whole, C133 (parameters left out of a dictionary argument) and
C134 (the data range of MAD).
-/

namespace Viqa

/-! ### Identical images -/

theorem localMse_self (bs : Nat) (w : Nat → Nat → List (Nat × Nat)) (x : NDArray ℝ) (u v : Nat) :
    localMse bs w x x u v = 0 := by
  unfold localMse
  apply List.sum_eq_zero
  intro y hy
  obtain ⟨q, _, rfl⟩ := List.mem_map.1 hy
  simp

theorem detectIndex_zero {M N bs : Nat} {msk lum : Nat → Nat → ℝ} (h : ∀ u v, lum u v = 0) (hM : 2 * bs < M)
    (hN : 2 * bs < N) : detectIndex M N bs msk lum = .ok 0 := by
  unfold detectIndex
  rw [innerRms_zero (fun u v => by rw [h, mul_zero]) hM hN]
  norm_num

/-- Blocks of four strides (overlap 0.75, the default), sides that are multiples of the stride and longer than
two blocks: MAD of an image with itself is zero, for all parameters and all results of the C extension. The
full claim has no assumptions on the sides and the blocks. -/
theorem C84_whole_partial (L : MadLibs) {M N s : Nat} (c : MadCall) (r : MadPixels) (cpd lam fpeak b k gamma : ℝ)
    (lum : Nat → Nat → ℝ) (ha : madArgs M N c.blockSize c.overlap = .ok (4 * s, s)) (hs : 0 < s)
    (dM : s ∣ M) (dN : s ∣ N) (hM : 8 * s < M) (hN : 8 * s < N)
    (h1 : cyclesPerDegree c.kw = .ok cpd) (h2 : csfParams c.kw = .ok (lam, fpeak))
    (h3 : luminanceParams c.kw = .ok (b, k, gamma)) (h4 : lightnessMap M N b k gamma c.dataRange r = .ok (some lum))
    (h5 : (c.kw.weights.getD [0.5, 0.75, 1, 5, 6]).length = c.kw.scales.getD 5)
    (h6 : (c.kw.weights.getD [0.5, 0.75, 1, 5, 6]).sum ≠ 0) (h7 : 0 < c.beta1 ∨ (c.beta1 = 0 ∧ 0 ≤ c.beta2))
    (h8 : c.kw.orientations ≠ some 0) (h9 : 0 ≤ lam) (h10 : c.kw.msScale ≠ some 0) :
    mostApparentDistortion L M N c r r = .ok 0 := by
  have hd : detection L M N (4 * s) s c.dataRange c.kw r r = .ok 0 := by
    unfold detection
    rw [h1]
    simp only
    rw [h2]
    simp only
    rw [h3]
    simp only
    rw [h4]
    have hn : ¬ nanWeights M N cpd lam fpeak (c.kw.msScale.getD 1) := by
      rintro (⟨h, -⟩ | h)
      · linarith
      · cases hm : c.kw.msScale with
        | none => rw [hm] at h; simp at h
        | some x => rw [hm] at h h10; exact h10 (congrArg some h)
    simp only [Option.isNone_some, Bool.false_eq_true, false_or, hn, if_false, Option.getD_some]
    unfold highQuality
    obtain ⟨m1, e1, _⟩ := C40_partial (0 : ℝ) (array2 M N (csfFiltered M N (contrastSensitivity M N cpd lam fpeak) lum))
      blockMean hs rfl (by omega) (by omega) dM dN
    obtain ⟨m2, e2, _⟩ := C40_partial (NF.fin 0) (array2 M N (fun p q =>
      csfFiltered M N (contrastSensitivity M N cpd lam fpeak) lum p q -
        csfFiltered M N (contrastSensitivity M N cpd lam fpeak) lum p q))
      blockStd hs rfl (by omega) (by omega) dM dN
    rw [e1, e2]
    exact detectIndex_zero (localMse_self _ _ _) (by simp only [array2, List.getD_cons_zero]; omega)
      (by simp only [array2, List.getD_cons_zero, List.getD_cons_succ]; omega)
  have hap : appearance L M N (4 * s) s c.kw r r = .ok 0 := by
    unfold appearance
    have := C130_brightened M N (4 * s) (c.kw.scales.getD 5) (c.kw.orientations.getD 4)
      (c.kw.weights.getD [0.5, 0.75, 1, 5, 6]) (L.getstatistics M N (4 * s) s) r.value 0 (by omega) (by omega) h5 h6 (by
        cases ho : c.kw.orientations with
        | none => simp
        | some x => intro h; exact h8 (by rw [ho]; exact congrArg some h))
    simpa using this
  unfold mostApparentDistortion
  rw [ha]
  simp only
  rw [hd]
  simp only
  rw [hap]
  simp only
  have hb : 0 < (madBetas c.beta1 c.beta2 c.thresh1 c.thresh2).2.1 ∨
      ((madBetas c.beta1 c.beta2 c.thresh1 c.thresh2).2.1 = 0 ∧ 0 ≤ (madBetas c.beta1 c.beta2 c.thresh1 c.thresh2).2.2) := by
    unfold madBetas
    simp only
    split
    · exact .inl (Real.exp_pos _)
    · split <;> exact h7
  rw [if_neg (by rintro ⟨-, ha, hc⟩; rcases hb with h | h <;> linarith), Except.ok.injEq]
  exact C39_agree (by rcases hb with h | h <;> linarith) (le_refl _)

/-! ### The components -/

theorem innerRms_nonneg {M N bs : Nat} {a : Nat → Nat → ℝ} {v : ℝ} (h : innerRms M N bs a = .ok v) : 0 ≤ v := by
  unfold innerRms at h
  simp only at h
  split at h
  · simp at h
  · simp only [Except.ok.injEq] at h
    rw [← h]
    positivity

theorem detectIndex_nonneg {M N bs : Nat} {msk lum : Nat → Nat → ℝ} {v : ℝ} (h : detectIndex M N bs msk lum = .ok v) :
    0 ≤ v := by
  unfold detectIndex at h
  split at h
  · simp at h
  · rename_i w hw
    simp only [Except.ok.injEq] at h
    have := innerRms_nonneg hw
    rw [← h]
    positivity

theorem detection_nonneg {L : MadLibs} {M N bs s dr : Nat} {kw : MadKwargs} {r m : MadPixels} {v : ℝ}
    (h : detection L M N bs s dr kw r m = .ok v) : 0 ≤ v := by
  unfold detection at h
  split at h
  · simp at h
  split at h
  · simp at h
  split at h
  · simp at h
  split at h
  · simp at h
  · simp at h
  · simp only at h
    split at h
    · unfold thenNaN at h
      split at h <;> simp at h
    unfold highQuality at h
    split at h
    · exact detectIndex_nonneg h
    · simp at h
    · simp at h

theorem appearance_nonneg {L : MadLibs} {M N bs s : Nat} {kw : MadKwargs} {r m : MadPixels} {v : ℝ}
    (h : appearance L M N bs s kw r m = .ok v) : 0 ≤ v := by
  unfold appearance lowQuality at h
  split at h
  · simp at h
  split at h
  · simp at h
  · exact innerRms_nonneg h

/-- Every score of MAD is not negative and lies between its two components; with thresholds for every
`beta_1`. -/
theorem C39_whole (L : MadLibs) {M N : Nat} (c : MadCall) (r m : MadPixels) {v : ℝ} (hb : 0 ≤ c.beta1)
    (h : mostApparentDistortion L M N c r m = .ok v) :
    ∃ bs s d a, madArgs M N c.blockSize c.overlap = .ok (bs, s) ∧
      detection L M N bs s c.dataRange c.kw r m = .ok d ∧ appearance L M N bs s c.kw r m = .ok a ∧
      0 ≤ v ∧ min d a ≤ v ∧ v ≤ max d a := by
  unfold mostApparentDistortion at h
  split at h
  · simp at h
  rename_i bs s ha
  split at h
  · split at h
    · unfold thenNaN at h
      split at h <;> simp at h
    · simp at h
  rename_i d hd
  split at h
  · simp at h
  rename_i a hap
  simp only at h
  split at h
  · simp at h
  simp only [Except.ok.injEq] at h
  have hb' : 0 ≤ (madBetas c.beta1 c.beta2 c.thresh1 c.thresh2).2.1 := by
    unfold madBetas
    simp only
    split
    · exact (Real.exp_pos _).le
    · split <;> exact hb
  have hd0 := detection_nonneg hd
  have ha0 := appearance_nonneg hap
  obtain ⟨h1, h2⟩ := C39_between (b2 := (madBetas c.beta1 c.beta2 c.thresh1 c.thresh2).2.2) hb' hd0 ha0
  rw [h] at h1 h2
  exact ⟨bs, s, d, a, ha, hd, hap, le_trans (le_min hd0 ha0) h1, h1, h2⟩

/-- A call with the defaults. -/
noncomputable def defaultCall : MadCall := ⟨255, 16, 3 / 4, 0.467, 0.130, none, none, noKwargs⟩

example (L : MadLibs) (r m : MadPixels) (v : ℝ) (h : mostApparentDistortion L 256 256 defaultCall r m = .ok v) : 0 ≤ v := by
  obtain ⟨-, -, -, -, -, -, -, h, -⟩ := C39_whole L defaultCall r m (by norm_num [defaultCall]) h
  exact h

/-! ### C133: dictionary arguments -/

/-- The same call with other parts of the keyword arguments. -/
def MadCall.withKw (c : MadCall) (kw : MadKwargs) : MadCall := { c with kw := kw }

theorem mad_congr (L : MadLibs) (M N : Nat) (c : MadCall) (kw kw' : MadKwargs) (r m : MadPixels)
    (h1 : cyclesPerDegree kw = cyclesPerDegree kw') (h2 : csfParams kw = csfParams kw')
    (h3 : luminanceParams kw = luminanceParams kw') (h4 : kw.msScale.getD 1 = kw'.msScale.getD 1)
    (h5 : kw.scales.getD 5 = kw'.scales.getD 5) (h6 : kw.orientations.getD 4 = kw'.orientations.getD 4)
    (h7 : kw.weights.getD [0.5, 0.75, 1, 5, 6] = kw'.weights.getD [0.5, 0.75, 1, 5, 6]) :
    mostApparentDistortion L M N (c.withKw kw) r m = mostApparentDistortion L M N (c.withKw kw') r m := by
  have hd : ∀ bs s, detection L M N bs s c.dataRange kw r m = detection L M N bs s c.dataRange kw' r m := by
    intro bs s
    unfold detection
    rw [h1, h2, h3, h4]
  unfold mostApparentDistortion MadCall.withKw appearance
  simp only [hd, h5, h6, h7]

/-- Parameters of the luminance function that are left out get their documented defaults. -/
theorem C133_luminance_partial (L : MadLibs) (M N : Nat) (c : MadCall) (r m : MadPixels) (d : Dict ℝ)
    (hd : ∀ key, d key ≠ none → key = "b" ∨ key = "k" ∨ key = "gamma") :
    mostApparentDistortion L M N (c.withKw { c.kw with luminance := some d }) r m =
      mostApparentDistortion L M N (c.withKw { c.kw with luminance := some (dictOf
        [("b", (d "b").getD 0), ("k", (d "k").getD 0.02874), ("gamma", (d "gamma").getD 2.2)]) }) r m := by
  refine mad_congr L M N c _ _ r m rfl rfl ?_ rfl rfl rfl rfl
  unfold luminanceParams
  simp only [Option.getD_some]
  rw [if_neg, if_neg]
  · simp [dictOf]
  · rintro ⟨key, k1, k2, k3, k4⟩
    simp [dictOf, k1, k2, k3] at k4
  · rintro ⟨key, k1, k2, k3, k4⟩
    rcases hd key k4 with h | h | h
    · exact k1 h
    · exact k2 h
    · exact k3 h

example (L : MadLibs) (r m : MadPixels) :
    mostApparentDistortion L 256 256 (defaultCall.withKw { noKwargs with luminance := some (dictOf [("k", 0.5)]) }) r m =
      mostApparentDistortion L 256 256 (defaultCall.withKw { noKwargs with luminance := some (dictOf [("b", 0), ("k", 0.5), ("gamma", 2.2)]) }) r m := by
  have h := C133_luminance_partial L 256 256 defaultCall r m (dictOf [("k", 0.5)]) (by
    intro key h
    by_cases hk : key = "k"
    · exact .inr (.inl hk)
    · simp [dictOf, hk] at h)
  simpa [dictOf, defaultCall] using h

/-- All dictionaries left out: the documented defaults. -/
theorem C133_defaults (L : MadLibs) (M N : Nat) (c : MadCall) (r m : MadPixels) (hl : c.kw.luminance = none)
    (hc : c.kw.csf = none) (hm : c.kw.accountMonitor = none) :
    mostApparentDistortion L M N c r m =
      mostApparentDistortion L M N (c.withKw { c.kw with
        luminance := some (dictOf [("b", 0), ("k", 0.02874), ("gamma", 2.2)])
        csf := some (dictOf [("lambda_csf", 0.114), ("f_peak", 7.8909)])
        accountMonitor := some false }) r m := by
  refine mad_congr L M N c c.kw _ r m ?_ ?_ ?_ rfl rfl rfl rfl
  · unfold cyclesPerDegree; simp [hm]
  · unfold csfParams; simp [hc]
  · unfold luminanceParams
    simp only [Option.getD_some]
    rw [if_neg, if_neg]
    · simp [dictOf, hl]
    · rintro ⟨key, k1, k2, k3, k4⟩
      simp [dictOf, k1, k2, k3] at k4
    · rintro ⟨key, k1, k2, k3, k4⟩
      simp [hl, dictOf, k2, k3] at k4

example (L : MadLibs) (r m : MadPixels) :
    mostApparentDistortion L 256 256 defaultCall r m = mostApparentDistortion L 256 256 (defaultCall.withKw { noKwargs with
      luminance := some (dictOf [("b", 0), ("k", 0.02874), ("gamma", 2.2)])
      csf := some (dictOf [("lambda_csf", 0.114), ("f_peak", 7.8909)])
      accountMonitor := some false }) r m := C133_defaults L 256 256 defaultCall r m rfl rfl rfl

/-- A parameter left out of `csf_function`: no score for any images. -/
theorem C133_csf (L : MadLibs) {M N : Nat} (c : MadCall) (r m : MadPixels) (d : Dict ℝ) (hd : c.kw.csf = some d)
    (hmiss : d "lambda_csf" = none ∨ d "f_peak" = none) {p : Nat × Nat} {cpd : ℝ}
    (ha : madArgs M N c.blockSize c.overlap = .ok p) (hm : cyclesPerDegree c.kw = .ok cpd) :
    ∃ key, mostApparentDistortion L M N c r m = .error (.keyError key) ∧ (key = "lambda_csf" ∨ key = "f_peak") := by
  have : ∃ key, csfParams c.kw = .error (.keyError key) ∧ (key = "lambda_csf" ∨ key = "f_peak") := by
    unfold csfParams paramGet
    simp only [hd, Option.getD_some]
    cases h1 : d "lambda_csf" with
    | none => exact ⟨_, rfl, Or.inl rfl⟩
    | some x =>
      rw [h1] at hmiss
      simp only [reduceCtorEq, false_or] at hmiss
      rw [hmiss]
      exact ⟨_, rfl, Or.inr rfl⟩
  obtain ⟨key, e, hk⟩ := this
  refine ⟨key, ?_, hk⟩
  unfold mostApparentDistortion
  rw [ha]
  simp only
  unfold detection
  rw [hm]
  simp only
  rw [e]
  simp

/-- The claim that a dictionary is completed by the documented defaults fails for `csf_function`. -/
theorem C133_refuted : ¬ ∀ (L : MadLibs) (M N : Nat) (c : MadCall) (r m : MadPixels) (d : Dict ℝ),
    (∀ key, d key ≠ none → key = "lambda_csf" ∨ key = "f_peak") →
    mostApparentDistortion L M N (c.withKw { c.kw with csf := some d }) r m =
      mostApparentDistortion L M N (c.withKw { c.kw with csf := some (dictOf
        [("lambda_csf", (d "lambda_csf").getD 0.114), ("f_peak", (d "f_peak").getD 7.8909)]) }) r m := by
  intro h
  let L : MadLibs := ⟨fun _ _ _ _ _ _ _ => .fin 1, fun _ _ _ _ _ _ _ => (0, 0, 0), fun _ _ _ _ _ => []⟩
  let c : MadCall := ⟨255, 16, 3 / 4, 0.467, 0.130, none, none, noKwargs⟩
  let r : MadPixels := .floats (fun _ _ => 1)
  have e := h L 64 64 c r r (dictOf [("f_peak", 5)]) (by
    intro key hk
    simp only [dictOf] at hk
    split at hk
    · right; assumption
    · exact absurd rfl hk)
  have ha : madArgs 64 64 16 (3 / 4) = .ok (4 * 4, 4) := by decide +kernel
  obtain ⟨key, e1, _⟩ := C133_csf L (c.withKw { c.kw with csf := some (dictOf [("f_peak", 5)]) }) r r _ rfl
    (Or.inl (by simp [dictOf])) (M := 64) (N := 64) ha (cpd := 32) (by simp [cyclesPerDegree, MadCall.withKw, c, noKwargs])
  have h4 : ∃ lum, lightnessMap 64 64 0 0.02874 2.2 255 r = .ok (some lum) := by
    unfold lightnessMap
    rw [if_neg, if_neg]
    · exact ⟨_, rfl⟩
    · rintro ⟨p, q, _, _, h⟩
      simp [pixelLightness, powFails, r, not_lt.2 (zero_le_one (α := ℝ))] at h
    · rintro ⟨p, q, _, _, h⟩
      simp [pixelLightness, powFails, r, not_lt.2 (zero_le_one (α := ℝ))] at h
  obtain ⟨lum, h4⟩ := h4
  have e2 := C84_whole_partial L (M := 64) (N := 64) (s := 4) (c.withKw { c.kw with csf := some (dictOf
    [("lambda_csf", ((dictOf [("f_peak", (5 : ℝ))]) "lambda_csf").getD 0.114),
      ("f_peak", ((dictOf [("f_peak", (5 : ℝ))]) "f_peak").getD 7.8909)]) }) r 32 0.114 5 0 0.02874 2.2 lum ha
    (by norm_num) (by norm_num) (by norm_num) (by norm_num) (by norm_num)
    (by simp [cyclesPerDegree, MadCall.withKw, c, noKwargs])
    (by simp [csfParams, MadCall.withKw, c, dictOf, paramGet])
    (by
      unfold luminanceParams
      rw [if_neg]
      · simp [MadCall.withKw, c, noKwargs, dictOf]
      · rintro ⟨key, k1, k2, k3, k4⟩
        simp [MadCall.withKw, c, noKwargs, dictOf, k2, k3] at k4)
    h4 (by simp [MadCall.withKw, c, noKwargs]) (by norm_num [MadCall.withKw, c, noKwargs])
    (.inl (by norm_num [MadCall.withKw, c])) (by simp [MadCall.withKw, c, noKwargs]) (by norm_num)
    (by simp [MadCall.withKw, c, noKwargs])
  rw [e1, e2] at e
  simp at e

/-- `account_monitor` without `display_function` is refused with the documented message. -/
theorem C133_monitor (L : MadLibs) {M N : Nat} (c : MadCall) (r m : MadPixels) {p : Nat × Nat}
    (ha : madArgs M N c.blockSize c.overlap = .ok p) (h1 : c.kw.accountMonitor = some true) (h2 : c.kw.display = none) :
    mostApparentDistortion L M N c r m =
      .error (.valueError "If account_monitor is True, display_function must be given.") := by
  unfold mostApparentDistortion
  rw [ha]
  simp only
  unfold detection cyclesPerDegree
  simp [h1, h2]

example (L : MadLibs) (r m : MadPixels) :
    mostApparentDistortion L 256 256 (defaultCall.withKw { noKwargs with accountMonitor := some true }) r m =
      .error (.valueError "If account_monitor is True, display_function must be given.") :=
  C133_monitor L _ r m (p := (16, 4)) (by
    show madArgs 256 256 16 (3 / 4) = _
    decide +kernel) rfl rfl

/-- Without `account_monitor` the display has no influence. -/
theorem C133_display (L : MadLibs) (M N : Nat) (c : MadCall) (r m : MadPixels) (d : Option (Dict ℝ))
    (h : c.kw.accountMonitor ≠ some true) :
    mostApparentDistortion L M N (c.withKw { c.kw with display := d }) r m = mostApparentDistortion L M N c r m := by
  have h' : c.kw.accountMonitor.getD false = false := by
    cases e : c.kw.accountMonitor with
    | none => rfl
    | some b => cases b with
      | false => rfl
      | true => exact absurd e h
  refine mad_congr L M N c _ c.kw r m ?_ rfl rfl rfl rfl rfl rfl
  unfold cyclesPerDegree
  simp [h']

example (L : MadLibs) (r m : MadPixels) :
    mostApparentDistortion L 256 256 (defaultCall.withKw { noKwargs with display := some (dictOf [("disp_res", 38)]) }) r m =
      mostApparentDistortion L 256 256 defaultCall r m := C133_display L 256 256 defaultCall r m _ (by simp [defaultCall, noKwargs])

/-! ### C134: the data range -/

theorem lightnessMap_floats (M N : Nat) (b k gamma : ℝ) (dr dr' : Nat) (f : Nat → Nat → ℝ) :
    lightnessMap M N b k gamma dr (.floats f) = lightnessMap M N b k gamma dr' (.floats f) := rfl

/-- Floating point images: `data_range` has no influence. -/
theorem C134_floats (L : MadLibs) (M N : Nat) (c : MadCall) (dr : Nat) (f g : Nat → Nat → ℝ) :
    mostApparentDistortion L M N { c with dataRange := dr } (.floats f) (.floats g) =
      mostApparentDistortion L M N c (.floats f) (.floats g) := by
  unfold mostApparentDistortion detection
  simp only [lightnessMap_floats M N _ _ _ dr c.dataRange]

example (L : MadLibs) (f g : Nat → Nat → ℝ) :
    mostApparentDistortion L 256 256 { defaultCall with dataRange := 1 } (.floats f) (.floats g) =
      mostApparentDistortion L 256 256 defaultCall (.floats f) (.floats g) := C134_floats L 256 256 defaultCall 1 f g

/-- Pixels of an integer image of `M` rows and `N` columns lie in the data range. -/
def Spec.InRange (M N dr : Nat) (g : Nat → Nat → Int) : Prop := ∀ p q, p < M → q < N → 0 ≤ g p q ∧ g p q ≤ dr

/-- The map depends on the lightness of the pixels of the image. -/
theorem lightnessMap_congr {M N dr dr' : Nat} {b k gamma : ℝ} {x y : MadPixels}
    (h : ∀ p q, p < M → q < N → pixelLightness b k gamma dr x p q = pixelLightness b k gamma dr' y p q) :
    lightnessMap M N b k gamma dr x = lightnessMap M N b k gamma dr' y := by
  have h1 : ∀ e : Exc, (∃ p q, p < M ∧ q < N ∧ pixelLightness b k gamma dr x p q = .error e) ↔
      ∃ p q, p < M ∧ q < N ∧ pixelLightness b k gamma dr' y p q = .error e := fun e =>
    ⟨fun ⟨p, q, hp, hq, he⟩ => ⟨p, q, hp, hq, by rw [← h p q hp hq, he]⟩,
      fun ⟨p, q, hp, hq, he⟩ => ⟨p, q, hp, hq, by rw [h p q hp hq, he]⟩⟩
  unfold lightnessMap
  by_cases ha : ∃ p q, p < M ∧ q < N ∧ pixelLightness b k gamma dr x p q = .error .indexError
  · rw [if_pos ha, if_pos ((h1 _).1 ha)]
  · rw [if_neg ha, if_neg (fun h' => ha ((h1 _).2 h'))]
    by_cases hb : ∃ p q, p < M ∧ q < N ∧ pixelLightness b k gamma dr x p q = .error .notANumber
    · rw [if_pos hb, if_pos ((h1 _).1 hb)]
    · rw [if_neg hb, if_neg (fun h' => hb ((h1 _).2 h'))]
      refine congrArg (fun f => Except.ok (some f)) ?_
      funext p q
      by_cases hpq : p < M ∧ q < N
      · rw [if_pos hpq, if_pos hpq, h p q hpq.1 hpq.2]
      · rw [if_neg hpq, if_neg hpq]

/-- An integer in the data range has the lightness of the number. -/
theorem pixelLightness_ints {dr : Nat} {g : Nat → Nat → Int} {p q : Nat} (h : 0 ≤ g p q ∧ g p q ≤ dr) (b k gamma : ℝ)
    (dr' : Nat) : pixelLightness b k gamma dr (.ints g) p q = pixelLightness b k gamma dr' (.floats (fun p q => g p q)) p q := by
  have hp : pyIndex (dr + 1) (g p q) = .ok (g p q).toNat := by
    unfold pyIndex; rw [if_pos ⟨h.1, by push_cast; omega⟩]
  have hc : (((g p q).toNat : Nat) : ℝ) = (g p q : ℝ) := by exact_mod_cast Int.toNat_of_nonneg h.1
  unfold pixelLightness
  simp only [hp, C48_table h.1 h.2]
  rw [hc]

theorem lightnessMap_nonneg {M N dr : Nat} {g : Nat → Nat → ℝ} (h : ∀ p q, p < M → q < N → 0 ≤ g p q) (b k : ℝ)
    {gamma : ℝ} (hg : 0 ≤ gamma) :
    ∃ lum, lightnessMap M N b k gamma dr (.floats g) = .ok (some lum) ∧
      ∀ p q, p < M → q < N → lum p q = lightness b k gamma (g p q) := by
  have e : ∀ p q, p < M → q < N → pixelLightness b k gamma dr (.floats g) p q = .ok (lightness b k gamma (g p q)) :=
    fun p q hp hq => by
      have := h p q hp hq
      unfold pixelLightness
      simp only
      rw [if_neg]
      rintro (⟨h1, -⟩ | ⟨-, h1⟩) <;> linarith
  unfold lightnessMap
  rw [if_neg, if_neg]
  · refine ⟨_, rfl, fun p q hp hq => ?_⟩
    simp only [e p q hp hq, hp, hq, and_self, if_true]
  · rintro ⟨p, q, hp, hq, h⟩
    rw [e p q hp hq] at h
    simp at h
  · rintro ⟨p, q, hp, hq, h⟩
    rw [e p q hp hq] at h
    simp at h

/-- The detection index depends on the two images through their lightness and their values. -/
theorem detection_congr (L : MadLibs) {M N bs s dr dr' : Nat} (kw : MadKwargs) {r m r' m' : MadPixels}
    (hr : r.value = r'.value) (hm : m.value = m'.value)
    (h : ∀ b k gamma, lightnessMap M N b k gamma dr r = lightnessMap M N b k gamma dr' r' ∧
      lightnessMap M N b k gamma dr m = lightnessMap M N b k gamma dr' m') :
    detection L M N bs s dr kw r m = detection L M N bs s dr' kw r' m' := by
  unfold detection
  simp only [h, hr, hm]

/-- Integer images with values up to both data ranges: the same score. -/
theorem C134_ints (L : MadLibs) {M N : Nat} (c : MadCall) (dr : Nat) (f g : Nat → Nat → Int)
    (hf : Spec.InRange M N c.dataRange f) (hg : Spec.InRange M N c.dataRange g)
    (hf' : Spec.InRange M N dr f) (hg' : Spec.InRange M N dr g) :
    mostApparentDistortion L M N { c with dataRange := dr } (.ints f) (.ints g) =
      mostApparentDistortion L M N c (.ints f) (.ints g) := by
  have key : ∀ bs s, detection L M N bs s dr c.kw (.ints f) (.ints g) =
      detection L M N bs s c.dataRange c.kw (.ints f) (.ints g) := fun bs s => by
    refine detection_congr L c.kw rfl rfl ?_
    intro b k gamma
    constructor <;> refine lightnessMap_congr (fun p q hp hq => ?_)
    · rw [pixelLightness_ints (hf' p q hp hq) _ _ _ 0, pixelLightness_ints (hf p q hp hq) _ _ _ 0]
    · rw [pixelLightness_ints (hg' p q hp hq) _ _ _ 0, pixelLightness_ints (hg p q hp hq) _ _ _ 0]
  unfold mostApparentDistortion
  simp only [key]

/-- Integer images in the data range get the score of the floating point images with the same values. -/
theorem C134_same_values (L : MadLibs) {M N : Nat} (c : MadCall) (f g : Nat → Nat → Int)
    (hf : Spec.InRange M N c.dataRange f) (hg : Spec.InRange M N c.dataRange g) :
    mostApparentDistortion L M N c (.ints f) (.ints g) =
      mostApparentDistortion L M N c (.floats (fun p q => f p q)) (.floats (fun p q => g p q)) := by
  have key : ∀ bs s, detection L M N bs s c.dataRange c.kw (.ints f) (.ints g) =
      detection L M N bs s c.dataRange c.kw (.floats (fun p q => f p q)) (.floats (fun p q => g p q)) := fun bs s => by
    refine detection_congr L c.kw rfl rfl ?_
    intro b k gamma
    exact ⟨lightnessMap_congr (fun p q hp hq => pixelLightness_ints (hf p q hp hq) _ _ _ _),
      lightnessMap_congr (fun p q hp hq => pixelLightness_ints (hg p q hp hq) _ _ _ _)⟩
  unfold mostApparentDistortion
  simp only [key]
  rfl

example (L : MadLibs) : mostApparentDistortion L 100 100 defaultCall (.ints (fun p q => (p + q : Nat))) (.ints (fun p _ => (p : Nat))) =
    mostApparentDistortion L 100 100 defaultCall (.floats (fun p q => ((p + q : Nat) : Int))) (.floats (fun p _ => ((p : Nat) : Int))) := by
  apply C134_same_values
  all_goals
    intro p q hp hq
    simp only [defaultCall]
    push_cast
    omega

/-- An integer image with a pixel above the data range. -/
def Spec.TooBright (M N dr : Nat) (x : MadPixels) : Prop :=
  ∃ f p q, x = .ints f ∧ p < M ∧ q < N ∧ (dr : Int) < f p q

theorem lightnessMap_tooBright {M N dr : Nat} {x : MadPixels} (h : Spec.TooBright M N dr x) (b k gamma : ℝ) :
    lightnessMap M N b k gamma dr x = .error .indexError := by
  obtain ⟨f, p, q, rfl, hp, hq, h⟩ := h
  have hi : pyIndex (dr + 1) (f p q) = .error .indexError := by
    unfold pyIndex
    rw [if_neg (by push_cast; omega), if_neg (by omega)]
  unfold lightnessMap
  rw [if_pos ⟨p, q, hp, hq, by simp only [pixelLightness, hi]⟩]

theorem lightnessMap_error {M N dr : Nat} {x : MadPixels} {b k gamma : ℝ} {e : Exc}
    (h : lightnessMap M N b k gamma dr x = .error e) : e = .indexError := by
  unfold lightnessMap at h
  split at h
  · simpa using h.symm
  split at h <;> simp at h

/-- Images one of which has a value above the data range are refused. -/
theorem C134_too_large (L : MadLibs) {M N : Nat} (c : MadCall) (r m : MadPixels)
    {a : Nat × Nat} {cpd : ℝ} {l : ℝ × ℝ} {u : ℝ × ℝ × ℝ}
    (h : Spec.TooBright M N c.dataRange r ∨ Spec.TooBright M N c.dataRange m)
    (ha : madArgs M N c.blockSize c.overlap = .ok a) (h1 : cyclesPerDegree c.kw = .ok cpd)
    (h2 : csfParams c.kw = .ok l) (h3 : luminanceParams c.kw = .ok u) :
    mostApparentDistortion L M N c r m = .error .indexError := by
  have e : detection L M N a.1 a.2 c.dataRange c.kw r m = .error .indexError := by
    unfold detection
    rw [h1]
    simp only
    rw [h2]
    simp only
    rw [h3]
    simp only
    rcases h with h | h
    · rw [lightnessMap_tooBright h]
    · rw [lightnessMap_tooBright h]
      cases hr : lightnessMap M N u.1 u.2.1 u.2.2 c.dataRange r with
      | error e => rw [lightnessMap_error hr]
      | ok v => rfl
  unfold mostApparentDistortion
  rw [ha]
  simp only
  rw [e]
  simp

/-- A photograph of 12 bits with the data range of 8 bits as the test image. -/
example (L : MadLibs) (r : MadPixels) :
    mostApparentDistortion L 64 64 ⟨255, 16, 3 / 4, 0.467, 0.130, none, none, noKwargs⟩ r (.ints (fun p q => (40 * (p + q) : Nat))) =
      .error .indexError := by
  refine C134_too_large L _ r _ (a := (16, 4)) (cpd := 32) (l := (0.114, 7.8909)) (u := (0, 0.02874, 2.2))
    (.inr ⟨_, 63, 63, rfl, by norm_num, by norm_num, by norm_num⟩) (by decide +kernel) (by simp [cyclesPerDegree, noKwargs])
    (by simp [csfParams, noKwargs, dictOf, paramGet]) ?_
  unfold luminanceParams
  rw [if_neg]
  · simp [noKwargs, dictOf]
  · rintro ⟨key, k1, k2, k3, k4⟩
    simp [noKwargs, dictOf, k2, k3] at k4

/-- Images of 8 bits scored with the data range of 16 bits. -/
example (L : MadLibs) (c : MadCall) (hc : c.dataRange = 255) :
    mostApparentDistortion L 64 64 { c with dataRange := 65535 } (.ints (fun p q => (p + q : Nat))) (.ints (fun p _ => (p : Nat))) =
      mostApparentDistortion L 64 64 c (.ints (fun p q => (p + q : Nat))) (.ints (fun p _ => (p : Nat))) := by
  apply C134_ints
  all_goals (intro p q hp hq; try rw [hc]); push_cast; omega

/-- A photograph with a missing parameter of the contrast sensitivity. -/
example (L : MadLibs) (r m : MadPixels) :
    mostApparentDistortion L 64 64 ⟨255, 16, 3 / 4, 0.467, 0.130, none, none,
      { noKwargs with csf := some (dictOf [("lambda_csf", 0.2)]) }⟩ r m = .error (.keyError "f_peak") := by
  obtain ⟨key, h, hk⟩ := C133_csf L ⟨255, 16, 3 / 4, 0.467, 0.130, none, none,
    { noKwargs with csf := some (dictOf [("lambda_csf", 0.2)]) }⟩ r m (dictOf [("lambda_csf", 0.2)]) rfl
    (Or.inr (by simp [dictOf])) (M := 64) (N := 64) (p := (16, 4)) (by decide +kernel) (cpd := 32)
    (by simp [cyclesPerDegree, noKwargs])
  unfold mostApparentDistortion
  rw [show madArgs 64 64 16 (3 / 4) = .ok (16, 4) by decide +kernel]
  simp [detection, cyclesPerDegree, csfParams, noKwargs, dictOf, paramGet]

/-- C84: a photograph of 256 by 256 pixels compared with itself, with the defaults. -/
example (L : MadLibs) : mostApparentDistortion L 256 256 defaultCall (.floats (fun p q => p + q)) (.floats (fun p q => p + q)) = .ok 0 := by
  obtain ⟨lum, h4, -⟩ := lightnessMap_nonneg (M := 256) (N := 256) (dr := 255) (g := fun p q => (p : ℝ) + q) (fun p q _ _ => by positivity)
    0 0.02874 (gamma := 2.2) (by norm_num)
  exact C84_whole_partial L defaultCall _ 32 0.114 7.8909 0 0.02874 2.2 lum (s := 4) (by
      show madArgs 256 256 16 (3 / 4) = _
      decide +kernel)
    (by decide) (by decide) (by decide) (by decide) (by decide) (by simp [cyclesPerDegree, defaultCall, noKwargs])
    (by simp [csfParams, defaultCall, noKwargs, dictOf, paramGet])
    (by
      unfold luminanceParams
      rw [if_neg]
      · simp [defaultCall, noKwargs, dictOf]
      · rintro ⟨key, k1, k2, k3, k4⟩
        simp [defaultCall, noKwargs, dictOf, k2, k3] at k4)
    h4 (by simp [defaultCall, noKwargs]) (by norm_num [defaultCall, noKwargs]) (.inl (by norm_num [defaultCall]))
    (by simp [defaultCall, noKwargs]) (by norm_num) (by simp [defaultCall, noKwargs])

end Viqa
