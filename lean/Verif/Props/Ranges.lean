import Verif.Props.Distance
import Verif.Props.Gsm
import Verif.Props.Noise

/-!
C150: the ranges of the scores in the table of `README.md` ("Range (different/worst -
identical/best)"): PSNR, CNR and SNR in [0, ∞), GSM in [0, 1]. The range of RMSE is C28, that of SSIM
C31, that of MAD C39.
-/

namespace Viqa

/-! ### PSNR -/

/-- **C150, PSNR.** The score is negative exactly if the RMSE exceeds the data range. -/
theorem C150_psnr_sign (d : ℝ) (hd : 0 < d) (a b : NDArray ℝ) (h : Comparable a b) (hne : ¬ a.Same b) :
    ∃ r p, rmse a b = .ok r ∧ psnr d a b = .ok (.finite p) ∧ (0 ≤ p ↔ r ≤ d) := by
  obtain ⟨r, hr, hr0, hp⟩ := C29_formula d a b h hne hd.ne'
  refine ⟨r, _, hr, hp, ?_⟩
  rw [abs_of_pos hd]
  constructor
  · intro h0
    by_contra hc
    have hlt : d / r < 1 := (div_lt_one hr0).2 (not_le.1 hc)
    have := Real.logb_neg (b := 10) (by norm_num) (div_pos hd hr0) hlt
    linarith
  · intro hle
    have := Real.logb_nonneg (b := 10) (by norm_num) ((one_le_div hr0).2 hle)
    linarith

theorem two_pixels_ne (s t : ℝ) (h : s ≠ t) :
    ¬ (⟨[1, 2], fun _ => s⟩ : NDArray ℝ).Same ⟨[1, 2], fun _ => t⟩ :=
  fun hs => h (hs.2 [0, 0] (show InShape [1, 2] [0, 0] by decide))

/-- Images that differ by 1 everywhere and the data range 255. -/
example : ∃ r p, rmse ⟨[1, 2], fun _ => 0⟩ ⟨[1, 2], fun _ => 1⟩ = .ok r ∧
    psnr 255 ⟨[1, 2], fun _ => 0⟩ ⟨[1, 2], fun _ => 1⟩ = .ok (.finite p) ∧ (0 ≤ p ↔ r ≤ 255) :=
  C150_psnr_sign 255 (by norm_num) _ _ ⟨rfl, by decide⟩ (two_pixels_ne _ _ (by norm_num))

/-- **C150, PSNR (partial).** The score of images whose pixels differ by at most the data range is not
negative. Missing: other images, see `C150_psnr_refuted`. -/
theorem C150_psnr_partial (d : ℝ) (hd : 0 < d) (a b : NDArray ℝ) (h : Comparable a b) (hne : ¬ a.Same b)
    (hr : ∀ i, InShape a.shape i → |a.get i - b.get i| ≤ d) :
    ∃ p, psnr d a b = .ok (.finite p) ∧ 0 ≤ p := by
  obtain ⟨r, p, hr', hp, hiff⟩ := C150_psnr_sign d hd a b h hne
  refine ⟨p, hp, hiff.2 ?_⟩
  rw [rmse_eq h] at hr'
  cases hr'
  rw [Real.sqrt_le_left hd.le]
  have hs : (0 : ℝ) < a.size := by
    have := h.2
    exact_mod_cast Nat.pos_of_ne_zero this
  rw [div_le_iff₀ hs]
  have hle : ∀ v ∈ (indices a.shape).map (fun i => (a.get i - b.get i) ^ 2), v ≤ d ^ 2 := by
    intro v hv
    obtain ⟨i, hi, rfl⟩ := List.mem_map.1 hv
    exact sq_le_sq' (by have := (abs_le.1 (hr i ((mem_indices _ _).1 hi))).1; linarith)
      (abs_le.1 (hr i ((mem_indices _ _).1 hi))).2
  have := List.sum_le_card_nsmul _ _ hle
  rw [List.length_map, length_indices, nsmul_eq_mul, mul_comm] at this
  exact this

example : ∃ p, psnr 255 ⟨[1, 2], fun _ => 0⟩ ⟨[1, 2], fun _ => 200⟩ = .ok (.finite p) ∧ 0 ≤ p :=
  C150_psnr_partial 255 (by norm_num) _ _ ⟨rfl, by decide⟩ (two_pixels_ne _ _ (by norm_num))
    (fun _ _ => by norm_num)

/-- **C150, PSNR, refuted**: images of 16 bit that differ by 1000, with the data range 255. -/
theorem C150_psnr_refuted : ∃ p, psnr 255 ⟨[1, 2], fun _ => 0⟩ ⟨[1, 2], fun _ => 1000⟩ = .ok (.finite p) ∧ p < 0 := by
  have h : Comparable (⟨[1, 2], fun _ => 0⟩ : NDArray ℝ) ⟨[1, 2], fun _ => 1000⟩ := ⟨rfl, by decide⟩
  obtain ⟨r, p, hr, hp, hiff⟩ := C150_psnr_sign 255 (by norm_num) _ _ h (two_pixels_ne 0 1000 (by norm_num))
  refine ⟨p, hp, not_le.1 (fun h0 => ?_)⟩
  have hle := hiff.1 h0
  rw [rmse_eq h] at hr
  cases hr
  rw [Real.sqrt_le_left (by norm_num)] at hle
  have e : indices [1, 2] = [[0, 0], [0, 1]] := by decide
  simp only [e] at hle
  norm_num [NDArray.size] at hle

/-! ### GSM -/

theorem combine_nonneg (p con lum : Rat) (hp : 0 ≤ p) (hp1 : p ≤ 1) (hc0 : 0 ≤ con) (hc : con ≤ 1) (hl0 : 0 ≤ lum) :
    0 ≤ combine p con lum := by
  unfold combine
  have h1 : p * con ≤ 1 := by nlinarith
  have := mul_nonneg (sub_nonneg.2 h1) hc0
  have := mul_nonneg (mul_nonneg hp hc0) hl0
  linarith

theorem nanMean_ge (l : List Quality) (b v : Rat) (h : ∀ q, .val q ∈ l → b ≤ q) (hv : nanMean l = .ok v) : b ≤ v := by
  unfold nanMean at hv
  split at hv
  · cases hv
  · simp only at hv
    generalize hL : l.filterMap (fun | .val q => some q | _ => none) = L at hv
    split at hv
    · cases hv
    · rename_i hne
      have hLb : ∀ a ∈ L, b ≤ a := by
        intro a ha
        rw [← hL] at ha
        obtain ⟨q, hq, hqa⟩ := List.mem_filterMap.1 ha
        cases q with
        | nan => cases hqa
        | inf => cases hqa
        | val q => cases hqa; exact h _ hq
      have hpos : (0 : Rat) < L.length := by
        have : 0 < L.length := List.length_pos_of_ne_nil hne
        exact_mod_cast this
      cases hv
      rw [le_div_iff₀ hpos]
      have := List.card_nsmul_le_sum L b hLb
      simpa [mul_comm] using this

/-- **C150, GSM (partial).** With a non-negative constant `c`, a weight between 0 and 1, pixels of
floating point images that differ by at most the data range, and at least one positive gradient, the
score is not negative if the gradients of the two images differ in no pixel by more than the stronger
gradient image where that is positive. Missing: all other images, see `C150_gsm_refuted`. -/
theorem C150_gsm_partial (dr c p v : Rat) (hdr : 0 < dr) (hc : 0 ≤ c) (hp : 0 ≤ p) (hp1 : p ≤ 1) (x y : NDArray Rat)
    (hs : x.shape = y.shape)
    (hrange : ∀ i, InShape x.shape i → |x.get i - y.get i| ≤ dr)
    (hpos : ∃ q ∈ (usedGradient floatOps x).toList ++ (usedGradient floatOps y).toList, 0 < q)
    (hgrad : ∀ i, InShape x.shape i →
      0 < (strongest (usedGradient floatOps x) [usedGradient floatOps y]).get i →
      |(usedGradient floatOps x).get i - (usedGradient floatOps y).get i| ≤
        (strongest (usedGradient floatOps x) [usedGradient floatOps y]).get i)
    (h : gradientSimilarity floatOps dr c p x y = .ok v) : 0 ≤ v := by
  have key : ∀ (w : NDArray Int) (ws : List (NDArray Int)) (gr gm : NDArray Rat),
      strongest (gradient floatOps w x) (ws.map (fun w => gradient floatOps w x)) = gr →
      strongest (gradient floatOps w y) (ws.map (fun w => gradient floatOps w y)) = gm →
      (∃ q ∈ gr.toList ++ gm.toList, 0 < q) →
      (∀ i, InShape x.shape i → 0 < (strongest gr [gm]).get i →
        |gr.get i - gm.get i| ≤ (strongest gr [gm]).get i) →
      gsmWith floatOps dr c p x y w ws = .ok v → 0 ≤ v := by
    intro w ws gr gm egr egm hpos hgrad h
    unfold gsmWith at h
    simp only [egr, egm] at h
    split at h
    · rename_i r0 rs m0 ms hr hm
      rw [hr, hm] at hpos
      have htop : 0 < largest (largest r0 rs) [largest m0 ms] := by
        obtain ⟨q, hq, hq0⟩ := hpos
        refine lt_of_lt_of_le hq0 ?_
        rcases List.mem_append.1 hq with hq | hq
        · exact le_trans (largest_le r0 rs q hq) (largest_le _ _ _ (by simp))
        · exact le_trans (largest_le m0 ms q hq) (largest_le _ _ _ (by simp))
      rw [if_neg (ne_of_gt htop)] at h
      have hk : 0 ≤ c / largest (largest r0 rs) [largest m0 ms] := div_nonneg hc (le_of_lt htop)
      refine nanMean_ge _ 0 v ?_ h
      intro q hq
      obtain ⟨i, hmi, hi⟩ := List.mem_map.1 hq
      have hin := inShape_of_mem_indices _ _ hmi
      unfold quality at hi
      split at hi
      · cases hi
      · rename_i hd0
        simp only at hi
        split at hi
        · split at hi <;> cases hi
        · cases hi
          have habs : ratAbs (gr.get i - gm.get i) = |gr.get i - gm.get i| := by
            unfold ratAbs
            split
            · rw [abs_of_neg (by assumption)]
            · rw [abs_of_nonneg (by linarith)]
          have hr1 : ratAbs (gr.get i - gm.get i) / (strongest gr [gm]).get i ≤ 1 := by
            rw [habs]
            rcases lt_or_gt_of_ne hd0 with hneg | hpos'
            · exact le_trans (div_nonpos_of_nonneg_of_nonpos (abs_nonneg _) hneg.le) (by norm_num)
            · exact (div_le_one hpos').2 (hgrad i hin hpos')
          apply combine_nonneg _ _ _ hp hp1 _ (conRatio_le_one _ _ hk)
          · show 0 ≤ 1 - ((x.get i - y.get i) / dr) ^ 2
            have : |(x.get i - y.get i) / dr| ≤ 1 := by
              rw [abs_div, abs_of_pos hdr, div_le_one hdr]; exact hrange i hin
            have := (sq_le_one_iff_abs_le_one _).2 this
            linarith
          · apply div_nonneg
            · unfold conNum; linarith
            · unfold conDen; nlinarith [sq_nonneg (1 - ratAbs (gr.get i - gm.get i) / (strongest gr [gm]).get i)]
    · cases h
  have hnd : x.ndim = y.ndim := by unfold NDArray.ndim; rw [hs]
  unfold gradientSimilarity at h
  unfold usedGradient at hpos hgrad
  rw [← hnd] at hpos hgrad
  by_cases h3 : x.ndim = 3
  · rw [if_pos h3] at h
    simp only [if_pos h3] at hpos hgrad
    exact key _ _ _ _ rfl rfl hpos hgrad h
  · rw [if_neg h3] at h
    simp only [if_neg h3] at hpos hgrad
    by_cases h2 : x.ndim = 2
    · rw [if_pos h2] at h
      exact key _ _ _ _ rfl rfl hpos hgrad h
    · rw [if_neg h2] at h
      cases h

/-- An edge. -/
def edge : NDArray Rat := row [0, 0, 2, 2]

/-- An edge half as strong. -/
def halfEdge : NDArray Rat := row [0, 0, 1, 1]

theorem edge_differences : (∀ i ∈ indices edge.shape, |edge.get i - halfEdge.get i| ≤ 255) ∧
    ((usedGradient floatOps edge).toList ++ (usedGradient floatOps halfEdge).toList).any (fun q => decide (0 < q)) = true ∧
    ∀ i ∈ indices edge.shape, 0 < (strongest (usedGradient floatOps edge) [usedGradient floatOps halfEdge]).get i →
      |(usedGradient floatOps edge).get i - (usedGradient floatOps halfEdge).get i| ≤
        (strongest (usedGradient floatOps edge) [usedGradient floatOps halfEdge]).get i := by
  decide +kernel

example (v : Rat) (h : gradientSimilarity floatOps 255 200 (1 / 10) edge halfEdge = .ok v) : 0 ≤ v := by
  obtain ⟨h1, h2, h3⟩ := edge_differences
  obtain ⟨q, hq, h0⟩ := List.any_eq_true.1 h2
  exact C150_gsm_partial 255 200 (1 / 10) v (by norm_num) (by norm_num) (by norm_num) (by norm_num) edge halfEdge rfl
    (fun i hi => h1 i ((mem_indices _ _).2 hi)) ⟨q, hq, of_decide_eq_true h0⟩
    (fun i hi => h3 i ((mem_indices _ _).2 hi)) h

/-- **C150, GSM, refuted**: an edge and its inversion, both within the data range; the score is below
-1. -/
theorem C150_gsm_refuted :
    gradientSimilarity floatOps 255 200 (1 / 10) (row [0, 0, 255, 255]) (row [255, 255, 0, 0]) = .ok (-455511 / 436810) := by
  decide +kernel

/-! ### SNR and CNR -/

theorem stdQ_pos {l : List Rat} (hne : l ≠ []) (h : ¬ ∃ v, ∀ x ∈ l, x = v) :
    0 < Real.sqrt (((l.map (fun v => (v - l.sum / l.length) ^ 2)).sum / (l.length : Rat) : Rat)) := by
  apply Real.sqrt_pos.2
  have h0 : (0 : Rat) ≤ (l.map (fun v => (v - l.sum / l.length) ^ 2)).sum / l.length :=
    div_nonneg (List.sum_nonneg (by intro v hv; obtain ⟨u, -, rfl⟩ := List.mem_map.1 hv; positivity)) (by positivity)
  have hn : varQ l ≠ 0 := fun hz => h ((varQ_eq_zero_iff _ hne).1 hz)
  have h1 : (0 : Rat) < (l.map (fun v => (v - l.sum / l.length) ^ 2)).sum / l.length :=
    lt_of_le_of_ne h0 (fun hz => hn hz.symm)
  exact_mod_cast h1

/-- **C150, CNR.** The score of a region against one that is not flat is negative exactly if the
region is darker on average. -/
theorem C150_cnr_sign (a : NDArray Rat) (args : CnrArgs) (s g : Region Rat)
    (hsel : cnrSelect a args = .ok (s, g)) (hg : ¬ ∃ v, ∀ x ∈ g.values, x = v) (hs : s.values ≠ []) :
    ∃ v, cnr a args = .ok v ∧
      (0 ≤ v ↔ g.values.sum / g.values.length ≤ s.values.sum / s.values.length) := by
  refine ⟨_, C54_value a args s g hsel hg hs, ?_⟩
  have hgne : g.values ≠ [] := fun h => hg ⟨0, by rw [h]; simp⟩
  rw [le_div_iff₀ (stdQ_pos hgne hg), zero_mul]
  constructor
  · intro h
    have : (0 : Rat) ≤ s.values.sum / s.values.length - g.values.sum / g.values.length := by exact_mod_cast h
    linarith
  · intro h
    have : (0 : Rat) ≤ s.values.sum / s.values.length - g.values.sum / g.values.length := by linarith
    exact_mod_cast this

theorem sampleRows_background_uneven : ¬ ∃ v, ∀ x ∈ (⟨sampleRows, boxMask [6, 6] [1, 1] 1⟩ : Region Rat).values, x = v := by
  rw [sampleRows_background]
  rintro ⟨v, h⟩
  have h0 := h 0 (by simp)
  have h1 := h 1 (by simp)
  rw [← h0] at h1
  norm_num at h1

example : ∃ v, cnr sampleRows sampleRowsArgs = .ok v ∧ 0 ≤ v := by
  obtain ⟨v, hv, hiff⟩ := C150_cnr_sign sampleRows sampleRowsArgs _ _ sampleRows_select sampleRows_background_uneven
    (by rw [sampleRows_signal]; simp)
  refine ⟨v, hv, hiff.2 ?_⟩
  rw [sampleRows_signal, sampleRows_background]
  norm_num

/-- **C150, CNR, refuted**: a dark region in front of a bright background. -/
theorem C150_cnr_refuted : ∃ v, cnr sampleRows
    { signal := [.int 1, .int 1], background := [.int 4, .int 4], radius := .int 1 } = .ok v ∧ v < 0 := by
  have hsel : cnrSelect sampleRows { signal := [.int 1, .int 1], background := [.int 4, .int 4], radius := .int 1 } =
    .ok (⟨sampleRows, boxMask [6, 6] [1, 1] 1⟩, ⟨sampleRows, boxMask [6, 6] [4, 4] 1⟩) := rfl
  obtain ⟨v, hv, hiff⟩ := C150_cnr_sign _ _ _ _ hsel (by
    rw [sampleRows_signal]
    rintro ⟨v, h⟩
    have h0 := h 3 (by simp)
    have h1 := h 4 (by simp)
    rw [← h0] at h1
    norm_num at h1) (by rw [sampleRows_background]; simp)
  refine ⟨v, hv, not_le.1 (fun h0 => ?_)⟩
  have := hiff.1 h0
  rw [sampleRows_signal, sampleRows_background] at this
  norm_num at this

/-- **C150, SNR (partial).** The score of a grayscale region without negative values is not negative.
Missing: images with negative values (`C150_snr_refuted`) and colour images (C57). -/
theorem C150_snr_partial (a : NDArray Rat) (args : SnrArgs) (hauto : args.auto = false)
    (hc : isColour a = false) (c : List Int) (r : Int) (reg : Region Rat)
    (h1 : snrChecks a args.center args.radius = .ok (c, r))
    (h2 : selectRegion a (regionKind args.regionType) c r none = .ok reg) (hne : reg.values ≠ [])
    (hpos : ∀ v ∈ reg.values, 0 ≤ v) :
    ∃ v, snr a args = .ok (.gray v) ∧ 0 ≤ v := by
  obtain ⟨-, hflat, hval⟩ := C55_region a args hauto hc c r reg h1 h2 hne
  by_cases hf : ∃ v, ∀ x ∈ reg.values, x = v
  · exact ⟨0, hflat hf, le_refl _⟩
  · refine ⟨_, hval hf, div_nonneg ?_ (Real.sqrt_nonneg _)⟩
    have : (0 : Rat) ≤ reg.values.sum / reg.values.length :=
      div_nonneg (List.sum_nonneg hpos) (by positivity)
    exact_mod_cast this

example : ∃ v, snr sampleRows { center := some [.int 1, .int 1], radius := .int 1 } = .ok (.gray v) ∧ 0 ≤ v :=
  C150_snr_partial sampleRows { center := some [.int 1, .int 1], radius := .int 1 } rfl rfl [1, 1] 1
    ⟨sampleRows, boxMask [6, 6] [1, 1] 1⟩ rfl rfl (by rw [sampleRows_background]; simp)
    (by rw [sampleRows_background]; simp)

/-- An image of which the values are below zero, like air in Hounsfield units. -/
def belowZero : NDArray Rat := sampleRows.map (fun v => v - 1000)

theorem belowZero_values : (⟨belowZero, boxMask [6, 6] [1, 1] 1⟩ : Region Rat).values = [-1000, -1000, -999, -999] := by
  decide +kernel

/-- **C150, SNR, refuted.** -/
theorem C150_snr_refuted : ∃ v, snr belowZero { center := some [.int 1, .int 1], radius := .int 1 } = .ok (.gray v) ∧ v < 0 := by
  have hf : ¬ ∃ v, ∀ x ∈ (⟨belowZero, boxMask [6, 6] [1, 1] 1⟩ : Region Rat).values, x = v := by
    rw [belowZero_values]
    rintro ⟨v, h⟩
    have h0 := h (-1000) (by simp)
    have h1 := h (-999) (by simp)
    rw [← h0] at h1
    norm_num at h1
  have hne : (⟨belowZero, boxMask [6, 6] [1, 1] 1⟩ : Region Rat).values ≠ [] := by rw [belowZero_values]; simp
  have h := (C55_region belowZero { center := some [.int 1, .int 1], radius := .int 1 } rfl rfl [1, 1] 1
    ⟨belowZero, boxMask [6, 6] [1, 1] 1⟩ rfl rfl hne).2.2 hf
  refine ⟨_, h, div_neg_of_neg_of_pos ?_ (stdQ_pos hne hf)⟩
  rw [belowZero_values]
  norm_num

end Viqa
