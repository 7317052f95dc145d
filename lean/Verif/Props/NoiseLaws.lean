import Verif.Props.AverageNoise

/-! C190: SNR and CNR follow contrast and noise. -/

namespace Viqa

/-- The image with the noise in a set of pixels multiplied by `t`: deviations from the gray value `m`. -/
def Spec.noisier (t m : Rat) (sel : List Nat → Bool) (a : NDArray Rat) : NDArray Rat :=
  ⟨a.shape, fun i => if sel i then m + t * (a.get i - m) else a.get i⟩

/-- The image with a set of pixels brightened. -/
def Spec.raised (d : Rat) (sel : List Nat → Bool) (a : NDArray Rat) : NDArray Rat :=
  ⟨a.shape, fun i => if sel i then a.get i + d else a.get i⟩

theorem selected_sel (r : Region Rat) (i : List Nat) (h : i ∈ r.selected) : r.sel i = true := by
  unfold Region.selected at h
  exact (List.mem_filter.1 h).2

theorem noisier_values (t m : Rat) (r : Region Rat) (a : NDArray Rat) :
    r.selected.map (Spec.noisier t m r.sel a).get = (r.selected.map a.get).map (fun v => t * v + (m - t * m)) := by
  rw [List.map_map]
  apply List.map_congr_left
  intro i hi
  simp only [Spec.noisier, selected_sel r i hi, if_true, Function.comp_apply]
  ring

theorem raised_values (d : Rat) (r : Region Rat) (a : NDArray Rat) :
    r.selected.map (Spec.raised d r.sel a).get = (r.selected.map a.get).map (fun v => 1 * v + d) := by
  rw [List.map_map]
  apply List.map_congr_left
  intro i hi
  simp only [Spec.raised, selected_sel r i hi, if_true, Function.comp_apply, one_mul]

theorem stdQ_scaled (l : List Rat) (t β : Rat) (ht : 0 < t) (h : l ≠ []) : stdQ (l.map (fun v => t * v + β)) = t * stdQ l := by
  rw [stdQ_affine l t β h, abs_of_pos (by exact_mod_cast ht)]

/-- **C190.** `t` times the noise in the region, at the same mean: SNR is divided by `t`. -/
theorem C190_snr_noise (a : NDArray Rat) (args : SnrArgs) (hauto : args.auto = false) (hc : isColour a = false) (c : List Int) (r : Int) (reg : Region Rat)
    (h1 : snrChecks a args.center args.radius = .ok (c, r)) (h2 : selectRegion a (regionKind args.regionType) c r none = .ok reg)
    (t : Rat) (ht : 0 < t) (v : ℝ) (hv : snr a args = .ok (.gray v)) :
    snr (Spec.noisier t (meanQ reg.values) reg.sel a) args = .ok (.gray (v / t)) := by
  have hpos := snr_positions a.shape args hauto a rfl hc c r reg h1 h2
  have harr := (selectRegion_sel _ _ rfl _ _ _ _ h2).2
  have hval : reg.values = reg.selected.map a.get := by unfold Region.values; rw [harr]
  have ht' : (t : ℝ) ≠ 0 := by exact_mod_cast ht.ne'
  rw [hpos a rfl, ← hval] at hv
  rw [hpos (Spec.noisier t (meanQ reg.values) reg.sel a) rfl, noisier_values, ← hval]
  generalize reg.values = l at *
  unfold snrOf at hv ⊢
  by_cases hne : l = []
  · rw [if_pos hne] at hv
    cases hv
  · have hne' : l.map (fun v => t * v + (meanQ l - t * meanQ l)) ≠ [] := by simpa using hne
    rw [if_neg hne] at hv
    rw [if_neg hne', varQ_affine _ _ _ hne, meanQ_affine _ _ _ hne, stdQ_scaled _ _ _ ht hne]
    by_cases h0 : varQ l = 0
    · rw [if_pos h0] at hv
      rw [if_pos (by rw [h0, mul_zero])]
      simp only [Except.map, Except.ok.injEq, SnrResult.gray.injEq] at hv ⊢
      rw [← hv, zero_div]
    · rw [if_neg h0] at hv
      rw [if_neg (mul_ne_zero (by positivity) h0)]
      simp only [Except.map, Except.ok.injEq, SnrResult.gray.injEq] at hv ⊢
      rw [← hv]
      push_cast
      have := stdQ_ne_zero l h0
      field_simp
      ring

/-- **C190.** A brighter region at the same noise: SNR grows by the increase divided by the noise. -/
theorem C190_snr_brightness (a : NDArray Rat) (args : SnrArgs) (hauto : args.auto = false) (hc : isColour a = false) (c : List Int) (r : Int) (reg : Region Rat)
    (h1 : snrChecks a args.center args.radius = .ok (c, r)) (h2 : selectRegion a (regionKind args.regionType) c r none = .ok reg)
    (hflat : ¬ ∃ v, ∀ x ∈ reg.values, x = v) (d : Rat) (v : ℝ) (hv : snr a args = .ok (.gray v)) :
    snr (Spec.raised d reg.sel a) args = .ok (.gray (v + d / stdQ reg.values)) := by
  have hpos := snr_positions a.shape args hauto a rfl hc c r reg h1 h2
  have harr := (selectRegion_sel _ _ rfl _ _ _ _ h2).2
  have hval : reg.values = reg.selected.map a.get := by unfold Region.values; rw [harr]
  rw [hpos a rfl, ← hval] at hv
  rw [hpos (Spec.raised d reg.sel a) rfl, raised_values, ← hval]
  have hne : reg.values ≠ [] := by
    intro h
    exact hflat ⟨0, by rw [h]; simp⟩
  have h0 : varQ reg.values ≠ 0 := fun h => hflat ((varQ_eq_zero_iff _ hne).1 h)
  generalize reg.values = l at *
  unfold snrOf at hv ⊢
  rw [if_neg hne, if_neg h0] at hv
  rw [if_neg (by simpa using hne), varQ_affine _ _ _ hne, meanQ_affine _ _ _ hne, stdQ_scaled _ _ _ one_pos hne, if_neg (by simpa using h0)]
  simp only [Except.map, Except.ok.injEq, SnrResult.gray.injEq] at hv ⊢
  rw [← hv]
  push_cast
  ring

/-- Pixels of a region are not changed if they do not belong to the other one. -/
theorem other_values (f : NDArray Rat → NDArray Rat) (a : NDArray Rat) (r : Region Rat) (sel : List Nat → Bool) (hd : ∀ i ∈ r.selected, sel i = false)
    (hf : ∀ i, sel i = false → (f a).get i = a.get i) : r.selected.map (f a).get = r.selected.map a.get :=
  List.map_congr_left (fun i hi => hf i (hd i hi))

/-- **C190.** `t` times the noise in the background, at the same mean: CNR is divided by `t`. -/
theorem C190_cnr_noise (a : NDArray Rat) (args : CnrArgs) (hauto : args.auto = false) (sg bg : Region Rat) (h : cnrSelect a args = .ok (sg, bg))
    (hdis : ∀ i ∈ sg.selected, bg.sel i = false) (t : Rat) (ht : 0 < t) (v : ℝ) (hv : cnr a args = .ok v) :
    cnr (Spec.noisier t (meanQ bg.values) bg.sel a) args = .ok (v / t) := by
  have hpos := cnr_positions a.shape args hauto a rfl sg bg h
  obtain ⟨-, hsa, hba⟩ := cnrSelect_sel _ _ args hauto rfl sg bg h
  have hb : bg.values = bg.selected.map a.get := by unfold Region.values; rw [hba]
  have ht' : (t : ℝ) ≠ 0 := by exact_mod_cast ht.ne'
  rw [hpos a rfl, ← hb] at hv
  rw [hpos (Spec.noisier t (meanQ bg.values) bg.sel a) rfl, noisier_values, ← hb,
    other_values (Spec.noisier t (meanQ bg.values) bg.sel) a sg bg.sel hdis (fun i hi => by simp [Spec.noisier, hi])]
  generalize bg.values = l at *
  unfold cnrOf at hv ⊢
  by_cases hne : l = []
  · rw [if_pos hne] at hv
    cases hv
  · rw [if_neg hne] at hv
    rw [if_neg (by simpa using hne), varQ_affine _ _ _ hne, meanQ_affine _ _ _ hne, stdQ_scaled _ _ _ ht hne]
    by_cases h0 : varQ l = 0
    · rw [if_pos h0] at hv
      rw [if_pos (by rw [h0, mul_zero])]
      simp only [Except.ok.injEq] at hv ⊢
      rw [← hv, zero_div]
    · rw [if_neg h0] at hv
      rw [if_neg (mul_ne_zero (by positivity) h0)]
      by_cases hs : sg.selected.map a.get = []
      · rw [if_pos hs] at hv
        cases hv
      · rw [if_neg hs] at hv
        rw [if_neg hs]
        simp only [Except.ok.injEq] at hv ⊢
        rw [← hv]
        push_cast
        have := stdQ_ne_zero l h0
        field_simp
        ring

/-- **C190.** A brighter signal: CNR grows by the increase divided by the noise of the background. -/
theorem C190_cnr_contrast (a : NDArray Rat) (args : CnrArgs) (hauto : args.auto = false) (sg bg : Region Rat) (h : cnrSelect a args = .ok (sg, bg))
    (hdis : ∀ i ∈ bg.selected, sg.sel i = false) (hflat : ¬ ∃ v, ∀ x ∈ bg.values, x = v) (d : Rat) (v : ℝ) (hv : cnr a args = .ok v) :
    cnr (Spec.raised d sg.sel a) args = .ok (v + d / stdQ bg.values) := by
  have hpos := cnr_positions a.shape args hauto a rfl sg bg h
  obtain ⟨-, hsa, hba⟩ := cnrSelect_sel _ _ args hauto rfl sg bg h
  have hb : bg.values = bg.selected.map a.get := by unfold Region.values; rw [hba]
  have hne : bg.values ≠ [] := by
    intro h
    exact hflat ⟨0, by rw [h]; simp⟩
  have h0 : varQ bg.values ≠ 0 := fun h => hflat ((varQ_eq_zero_iff _ hne).1 h)
  rw [hpos a rfl, ← hb] at hv
  rw [hpos (Spec.raised d sg.sel a) rfl, raised_values,
    other_values (Spec.raised d sg.sel) a bg sg.sel hdis (fun i hi => by simp [Spec.raised, hi]), ← hb]
  generalize bg.values = l at *
  generalize sg.selected.map a.get = u at *
  unfold cnrOf at hv ⊢
  rw [if_neg hne, if_neg h0] at hv ⊢
  by_cases hs : u = []
  · rw [if_pos hs] at hv
    cases hv
  · rw [if_neg hs] at hv
    rw [if_neg (by simpa using hs), meanQ_affine _ _ _ hs]
    simp only [Except.ok.injEq] at hv ⊢
    rw [← hv]
    push_cast
    ring

/-- Pixelwise sum of two images. -/
def Spec.plusQ (a e : NDArray Rat) : NDArray Rat := ⟨a.shape, fun i => a.get i + e.get i⟩

theorem varQ_plus {ι : Type} (l : List ι) (f g : ι → Rat) (h : Spec.covariationQ (l.map f) (l.map g) = 0) :
    varQ (l.map (fun i => f i + g i)) = varQ (l.map f) + varQ (l.map g) := by
  have hm : meanQ (l.map (fun i => f i + g i)) = meanQ (l.map f) + meanQ (l.map g) := by
    unfold meanQ
    rw [List.sum_map_add]
    simp only [List.length_map]
    ring
  rw [covariationQ_map] at h
  unfold varQ
  rw [hm]
  simp only [List.map_map, List.length_map]
  generalize meanQ (l.map f) = p at *
  generalize meanQ (l.map g) = q at *
  rw [← add_div, ← List.sum_map_add]
  congr 1
  have e : ∀ i, ((fun v => (v - (p + q)) ^ 2) ∘ fun i => f i + g i) i =
      (((fun v => (v - p) ^ 2) ∘ f) i + ((fun v => (v - q) ^ 2) ∘ g) i) + 2 * ((f i - p) * (g i - q)) := by
    intro i
    simp only [Function.comp_apply]
    ring
  rw [List.map_congr_left (fun i _ => e i), List.sum_map_add, List.sum_map_mul_left, h]
  ring

/-- **C190.** Noise that is not correlated with the image and has mean zero in the region adds to the variance: SNR is the mean divided by the root of
the sum. -/
theorem C190_snr_added (a e : NDArray Rat) (args : SnrArgs) (hauto : args.auto = false) (hc : isColour a = false) (c : List Int) (r : Int)
    (reg : Region Rat) (h1 : snrChecks a args.center args.radius = .ok (c, r)) (h2 : selectRegion a (regionKind args.regionType) c r none = .ok reg)
    (hu : Spec.covariationQ (reg.selected.map a.get) (reg.selected.map e.get) = 0) (he : meanQ (reg.selected.map e.get) = 0)
    (hflat : ¬ ∃ v, ∀ x ∈ reg.values, x = v) :
    ∃ v, snr a args = .ok (.gray v) ∧ snr (Spec.plusQ a e) args =
      .ok (.gray (v * (stdQ reg.values / Real.sqrt (stdQ reg.values ^ 2 + stdQ (reg.selected.map e.get) ^ 2)))) := by
  have hpos := snr_positions a.shape args hauto a rfl hc c r reg h1 h2
  have harr := (selectRegion_sel _ _ rfl _ _ _ _ h2).2
  have hval : reg.values = reg.selected.map a.get := by unfold Region.values; rw [harr]
  have hne : reg.values ≠ [] := by
    intro h
    exact hflat ⟨0, by rw [h]; simp⟩
  have h0 : varQ reg.values ≠ 0 := fun h => hflat ((varQ_eq_zero_iff _ hne).1 h)
  have hv0 : 0 < varQ reg.values := lt_of_le_of_ne (varQ_nonneg _) h0.symm
  have hw0 := varQ_nonneg (reg.selected.map e.get)
  have hvar : varQ (reg.selected.map (Spec.plusQ a e).get) = varQ reg.values + varQ (reg.selected.map e.get) := by
    rw [hval]
    exact varQ_plus _ _ _ hu
  have hmean : meanQ (reg.selected.map (Spec.plusQ a e).get) = meanQ reg.values := by
    have : meanQ (reg.selected.map (Spec.plusQ a e).get) = meanQ (reg.selected.map a.get) + meanQ (reg.selected.map e.get) := by
      unfold meanQ Spec.plusQ
      simp only [List.length_map, List.sum_map_add]
      ring
    rw [this, he, add_zero, hval]
  have hne2 : reg.selected.map (Spec.plusQ a e).get ≠ [] := by
    rw [hval] at hne
    simpa using hne
  have hs0 := stdQ_ne_zero _ h0
  refine ⟨meanQ reg.values / stdQ reg.values, ?_, ?_⟩
  · rw [hpos a rfl, ← hval]
    unfold snrOf
    rw [if_neg hne, if_neg h0]
    rfl
  · rw [hpos (Spec.plusQ a e) rfl]
    unfold snrOf
    rw [if_neg hne2, hvar, if_neg (by positivity), hmean]
    simp only [Except.map, Except.ok.injEq, SnrResult.gray.injEq]
    have e1 : stdQ (reg.selected.map (Spec.plusQ a e).get) = Real.sqrt (stdQ reg.values ^ 2 + stdQ (reg.selected.map e.get) ^ 2) := by
      unfold stdQ
      rw [Real.sq_sqrt (by exact_mod_cast hv0.le), Real.sq_sqrt (by exact_mod_cast hw0), hvar]
      push_cast
      rfl
    rw [e1]
    field_simp

/-! ### Examples -/

/-- Twice the noise, half the SNR. -/
example : snr (Spec.noisier 2 (1 / 2) (boxMask [6, 6] [1, 1] 1) sampleRows) { center := some [.int 1, .int 1], radius := .int 1 } = .ok (.gray (1 / 2)) := by
  have h := C190_snr_noise sampleRows { center := some [.int 1, .int 1], radius := .int 1 } rfl rfl [1, 1] 1
    ⟨sampleRows, boxMask [6, 6] [1, 1] 1⟩ rfl rfl 2 (by norm_num) 1 (by
      rw [(C55_region sampleRows { center := some [.int 1, .int 1], radius := .int 1 } rfl rfl [1, 1] 1
        ⟨sampleRows, boxMask [6, 6] [1, 1] 1⟩ rfl rfl (by rw [sampleRows_background]; simp)).2.2 (by
        rw [sampleRows_background]
        rintro ⟨v, h⟩
        have h0 := h 0 (by simp)
        have h1 := h 1 (by simp)
        rw [← h0] at h1
        norm_num at h1), sampleRows_background]
      norm_num
      rw [show (4 : ℝ) = 2 ^ 2 by norm_num, Real.sqrt_sq (by norm_num)]
      norm_num)
  rw [sampleRows_background, show meanQ [0, 0, 1, 1] = 1 / 2 by decide +kernel] at h
  rw [h]
  norm_num

/-- A signal that is brighter by 2 at a noise of 1/2: CNR 10 instead of 6. -/
example (h6 : cnr sampleRows sampleRowsArgs = .ok 6) :
    cnr (Spec.raised 2 (boxMask [6, 6] [4, 4] 1) sampleRows) sampleRowsArgs = .ok 10 := by
  have h := C190_cnr_contrast sampleRows sampleRowsArgs rfl ⟨sampleRows, boxMask [6, 6] [4, 4] 1⟩ ⟨sampleRows, boxMask [6, 6] [1, 1] 1⟩
    sampleRows_select (by unfold Region.selected; decide +kernel) (by
      rw [sampleRows_background]
      rintro ⟨v, h⟩
      have h0 := h 0 (by simp)
      have h1 := h 1 (by simp)
      rw [← h0] at h1
      norm_num at h1) 2 6 h6
  rw [sampleRows_background] at h
  rw [h]
  have : stdQ [0, 0, 1, 1] = 1 / 2 := by
    unfold stdQ
    rw [show varQ [0, 0, 1, 1] = 1 / 4 by decide +kernel]
    norm_num
    rw [show (4 : ℝ) = 2 ^ 2 by norm_num, Real.sqrt_sq (by norm_num)]
    norm_num
  rw [this]
  norm_num

/-- Three times the noise of the background, a third of the CNR. -/
example (h6 : cnr sampleRows sampleRowsArgs = .ok 6) :
    cnr (Spec.noisier 3 (1 / 2) (boxMask [6, 6] [1, 1] 1) sampleRows) sampleRowsArgs = .ok 2 := by
  have h := C190_cnr_noise sampleRows sampleRowsArgs rfl ⟨sampleRows, boxMask [6, 6] [4, 4] 1⟩ ⟨sampleRows, boxMask [6, 6] [1, 1] 1⟩
    sampleRows_select (by unfold Region.selected; decide +kernel) 3 (by norm_num) 6 h6
  rw [sampleRows_background, show meanQ [0, 0, 1, 1] = 1 / 2 by decide +kernel] at h
  rw [h]
  norm_num

theorem sampleRows_flat : ¬ ∃ v, ∀ x ∈ (⟨sampleRows, boxMask [6, 6] [1, 1] 1⟩ : Region Rat).values, x = v := by
  rw [sampleRows_background]
  rintro ⟨v, h⟩
  have h0 := h 0 (by simp)
  have h1 := h 1 (by simp)
  rw [← h0] at h1
  norm_num at h1

/-- A region that is brighter by 3. -/
example (v : ℝ) (hv : snr sampleRows { center := some [.int 1, .int 1], radius := .int 1 } = .ok (.gray v)) :
    snr (Spec.raised 3 (boxMask [6, 6] [1, 1] 1) sampleRows) { center := some [.int 1, .int 1], radius := .int 1 } =
      .ok (.gray (v + (3 : Rat) / stdQ [0, 0, 1, 1])) := by
  have h := C190_snr_brightness sampleRows { center := some [.int 1, .int 1], radius := .int 1 } rfl rfl [1, 1] 1
    ⟨sampleRows, boxMask [6, 6] [1, 1] 1⟩ rfl rfl sampleRows_flat 3 v hv
  rw [sampleRows_background] at h
  exact h

/-- Columns of noise on an image of rows: the noise is that of the rows, SNR is divided by the root of 2. -/
example : ∃ v, snr sampleRows { center := some [.int 1, .int 1], radius := .int 1 } = .ok (.gray v) ∧
    snr (Spec.plusQ sampleRows ⟨[6, 6], fun i => i.getD 1 0 - 1 / 2⟩) { center := some [.int 1, .int 1], radius := .int 1 } =
      .ok (.gray (v * (stdQ [0, 0, 1, 1] / Real.sqrt (stdQ [0, 0, 1, 1] ^ 2 + stdQ [-1 / 2, 1 / 2, -1 / 2, 1 / 2] ^ 2)))) := by
  have hsel : (⟨sampleRows, boxMask [6, 6] [1, 1] 1⟩ : Region Rat).selected = [[0, 0], [0, 1], [1, 0], [1, 1]] := by
    unfold Region.selected
    decide +kernel
  obtain ⟨v, h1, h2⟩ := C190_snr_added sampleRows ⟨[6, 6], fun i => i.getD 1 0 - 1 / 2⟩ { center := some [.int 1, .int 1], radius := .int 1 } rfl rfl
    [1, 1] 1 ⟨sampleRows, boxMask [6, 6] [1, 1] 1⟩ rfl rfl (by rw [hsel]; decide +kernel) (by rw [hsel]; decide +kernel) sampleRows_flat
  refine ⟨v, h1, ?_⟩
  rw [sampleRows_background, hsel] at h2
  have : List.map (NDArray.mk [6, 6] fun i => ((i.getD 1 0 : Nat) : Rat) - 1 / 2).get [[0, 0], [0, 1], [1, 0], [1, 1]] = [-1 / 2, 1 / 2, -1 / 2, 1 / 2] := by
    decide +kernel
  rw [this] at h2
  exact h2

end Viqa
