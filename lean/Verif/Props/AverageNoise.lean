import Verif.Props.Noise
import Verif.Props.Average

/-! C189: SNR and CNR of averaged images. -/

namespace Viqa

/-- Average of `n` images, rational gray values. -/
def Spec.averageQ {n : Nat} (s : List Nat) (ys : Fin n → NDArray Rat) : NDArray Rat := ⟨s, fun i => (∑ k, (ys k).get i) / n⟩

/-- Deviations from the mean in two images, multiplied and added up over the pixels: zero if the noise is not correlated. -/
def Spec.covariationQ (u v : List Rat) : Rat := (List.zipWith (fun a b => (a - meanQ u) * (b - meanQ v)) u v).sum

section
variable {ι : Type} {n : Nat}

theorem sumQ_fin (l : List ι) (f : Fin n → ι → Rat) : (l.map (fun i => ∑ k, f k i)).sum = ∑ k, (l.map (f k)).sum := by
  induction l with
  | nil => simp
  | cons a l ih => simp only [List.map_cons, List.sum_cons, Finset.sum_add_distrib, ih]

theorem meanQ_average (l : List ι) (f : Fin n → ι → Rat) :
    meanQ (l.map (fun i => (∑ k, f k i) / n)) = (∑ k, meanQ (l.map (f k))) / n := by
  have : (fun i => (∑ k, f k i) / (n : Rat)) = fun i => ∑ k, (fun k i => f k i / (n : Rat)) k i := by
    funext i
    rw [Finset.sum_div]
  unfold meanQ
  rw [this, sumQ_fin]
  simp only [List.length_map, div_eq_mul_inv, List.sum_map_mul_right, ← Finset.sum_mul]
  ring

theorem varQ_cast (l : List ι) (f : ι → Rat) :
    ((varQ (l.map f) : Rat) : ℝ) = (l.map (fun i => ((f i - meanQ (l.map f) : Rat) : ℝ) ^ 2)).sum / l.length := by
  unfold varQ
  push_cast
  rw [List.map_map, List.length_map, List.map_map]
  congr 2
  apply List.map_congr_left
  intro i _
  simp

theorem average_deviation (l : List ι) (f : Fin n → ι → Rat) (i : ι) :
    (((∑ k, f k i) / n - meanQ (l.map (fun i => (∑ k, f k i) / n)) : Rat) : ℝ) =
      ∑ k, (1 / (n : ℝ)) * ((f k i - meanQ (l.map (f k)) : Rat) : ℝ) := by
  rw [meanQ_average, ← sub_div, ← Finset.sum_sub_distrib, ← Finset.mul_sum]
  push_cast
  ring

/-- The noise of the average is at most the average noise. -/
theorem stdQ_average (l : List ι) (f : Fin n → ι → Rat) :
    stdQ (l.map (fun i => (∑ k, f k i) / n)) ≤ ∑ k, (1 / (n : ℝ)) * stdQ (l.map (f k)) := by
  unfold stdQ
  rw [varQ_cast, Real.sqrt_div' _ (Nat.cast_nonneg _)]
  simp only [average_deviation l f, varQ_cast, Real.sqrt_div' _ (Nat.cast_nonneg _), ← mul_div_assoc]
  rw [← Finset.sum_div]
  exact div_le_div_of_nonneg_right (minkowski_sum l Finset.univ (fun _ => 1 / (n : ℝ)) (fun _ _ => by positivity) _) (Real.sqrt_nonneg _)

theorem covariationQ_map (l : List ι) (f g : ι → Rat) :
    Spec.covariationQ (l.map f) (l.map g) = (l.map (fun i => (f i - meanQ (l.map f)) * (g i - meanQ (l.map g)))).sum := by
  unfold Spec.covariationQ
  congr 1
  generalize meanQ (l.map f) = a
  generalize meanQ (l.map g) = b
  induction l with
  | nil => rfl
  | cons i l ih => simp only [List.map_cons, List.zipWith_cons_cons, ih]

/-- Noise that is not correlated adds up by squares. -/
theorem varQ_average (hn : n ≠ 0) (l : List ι) (f : Fin n → ι → Rat)
    (hu : ∀ j k, j ≠ k → Spec.covariationQ (l.map (f j)) (l.map (f k)) = 0) :
    varQ (l.map (fun i => (∑ k, f k i) / n)) = (∑ k, varQ (l.map (f k))) / n ^ 2 := by
  have hn' : (n : ℝ) ≠ 0 := by exact_mod_cast hn
  have h : ((varQ (l.map (fun i => (∑ k, f k i) / n)) : Rat) : ℝ) = (((∑ k, varQ (l.map (f k))) / n ^ 2 : Rat) : ℝ) := by
    rw [varQ_cast]
    simp only [average_deviation l f]
    have he : (fun i => (∑ k, 1 / (n : ℝ) * ((f k i - meanQ (l.map (f k)) : Rat) : ℝ)) ^ 2) =
        fun i => (1 / (n : ℝ) ^ 2) * (∑ k, (((f k i - meanQ (l.map (f k)) : Rat) : ℝ))) ^ 2 := by
      funext i
      rw [← Finset.mul_sum]
      ring
    rw [he, sum_map_mul, sum_square_uncorrelated l (fun k i => ((f k i - meanQ (l.map (f k)) : Rat) : ℝ))]
    · push_cast
      simp only [varQ_cast]
      rw [← Finset.sum_div]
      push_cast
      ring
    · intro j k hjk
      have := hu j k hjk
      rw [covariationQ_map] at this
      have h2 := congrArg (fun q : Rat => (q : ℝ)) this
      simp only [Rat.cast_zero] at h2
      rw [← h2, Rat.cast_list_sum, List.map_map]
      congr 1
      apply List.map_congr_left
      intro i _
      simp
  exact_mod_cast h

end

/-! ### SNR -/

/-- The region of an image for given arguments: the positions depend on the shape only. -/
theorem snr_positions (s : List Nat) (args : SnrArgs) (hauto : args.auto = false)
    (z : NDArray Rat) (hz : z.shape = s) (hc : isColour z = false) (c : List Int) (r : Int) (reg : Region Rat)
    (h1 : snrChecks z args.center args.radius = .ok (c, r))
    (h2 : selectRegion z (regionKind args.regionType) c r none = .ok reg) :
    ∀ b : NDArray Rat, b.shape = s → snr b args = (snrOf (reg.selected.map b.get)).map .gray := by
  intro b hb
  have hzb : z.shape = b.shape := hz.trans hb.symm
  have hcb : isColour b = false := by
    unfold isColour NDArray.ndim NDArray.lastDim at *
    rw [← hzb]
    exact hc
  rw [snr_gray_eq b args hauto hcb]
  have hchk : snrChecks b args.center args.radius = .ok (c, r) := by
    rw [← h1]
    unfold snrChecks NDArray.ndim NDArray.lastDim
    rw [← hzb]
  obtain ⟨e1, e2⟩ := selectRegion_sel z b hzb _ _ _ _ h2
  rw [hchk]
  simp only [e1]
  unfold Region.values Region.selected
  rw [e2, hzb]

/-- **C189 (partial).** If every scan has an SNR of at least `P` in a region, so has their average, unless the region is flat in it. -/
theorem C189_snr_partial {n : Nat} (ys : Fin n → NDArray Rat) (s : List Nat) (hs : ∀ k, (ys k).shape = s) (args : SnrArgs) (hauto : args.auto = false)
    (hc : isColour (Spec.averageQ s ys) = false) (c : List Int) (r : Int) (reg : Region Rat)
    (h1 : snrChecks (Spec.averageQ s ys) args.center args.radius = .ok (c, r))
    (h2 : selectRegion (Spec.averageQ s ys) (regionKind args.regionType) c r none = .ok reg)
    (hflat : ¬ ∃ v, ∀ x ∈ reg.values, x = v) (P : ℝ) (hP : 0 < P) (hsnr : ∀ k, ∃ v, snr (ys k) args = .ok (.gray v) ∧ P ≤ v) :
    ∃ v, snr (Spec.averageQ s ys) args = .ok (.gray v) ∧ P ≤ v := by
  have hpos := snr_positions s args hauto _ rfl hc c r reg h1 h2
  have harr := (selectRegion_sel _ _ rfl _ _ _ _ h2).2
  have hval : reg.values = reg.selected.map (Spec.averageQ s ys).get := by unfold Region.values; rw [harr]
  set L := reg.selected
  have hne : reg.values ≠ [] := by
    intro h
    exact hflat ⟨0, by rw [h]; simp⟩
  have hvar : varQ (L.map (Spec.averageQ s ys).get) ≠ 0 := by
    rw [← hval]
    exact fun h => hflat ((varQ_eq_zero_iff _ hne).1 h)
  rw [hval] at hne
  have hmean : ∀ k, P * stdQ (L.map (ys k).get) ≤ meanQ (L.map (ys k).get) := by
    intro k
    obtain ⟨v, hv, hPv⟩ := hsnr k
    rw [hpos (ys k) (hs k)] at hv
    unfold snrOf at hv
    split_ifs at hv with e1 e2
    · cases hv
    · cases hv
      linarith
    · simp only [Except.map, Except.ok.injEq, SnrResult.gray.injEq] at hv
      have h0 : 0 < stdQ (L.map (ys k).get) := lt_of_le_of_ne (Real.sqrt_nonneg _) (stdQ_ne_zero _ e2).symm
      rw [← hv, le_div_iff₀ h0] at hPv
      exact hPv
  refine ⟨(meanQ (L.map (Spec.averageQ s ys).get) : ℝ) / stdQ (L.map (Spec.averageQ s ys).get), ?_, ?_⟩
  · rw [hpos _ rfl]
    unfold snrOf
    rw [if_neg hne, if_neg hvar]
    rfl
  · have h0 : 0 < stdQ (L.map (Spec.averageQ s ys).get) := lt_of_le_of_ne (Real.sqrt_nonneg _) (stdQ_ne_zero _ hvar).symm
    rw [le_div_iff₀ h0]
    have e1 := stdQ_average L (fun k => (ys k).get)
    have e2 := meanQ_average L (fun k => (ys k).get)
    have e3 : ((meanQ (L.map (Spec.averageQ s ys).get) : Rat) : ℝ) = ∑ k, (1 / (n : ℝ)) * (meanQ (L.map (ys k).get) : ℝ) := by
      show ((meanQ (L.map (fun i => (∑ k, (ys k).get i) / n)) : Rat) : ℝ) = _
      rw [e2, ← Finset.mul_sum]
      push_cast
      ring
    rw [e3]
    calc P * stdQ (L.map (Spec.averageQ s ys).get) ≤ P * ∑ k, (1 / (n : ℝ)) * stdQ (L.map (ys k).get) := mul_le_mul_of_nonneg_left e1 hP.le
      _ = ∑ k, (1 / (n : ℝ)) * (P * stdQ (L.map (ys k).get)) := by
        rw [Finset.mul_sum]
        exact Finset.sum_congr rfl (fun k _ => by ring)
      _ ≤ _ := Finset.sum_le_sum (fun k _ => mul_le_mul_of_nonneg_left (hmean k) (by positivity))

/-- **C189 (partial).** The average of `n` scans with the same mean and the same noise in a region, not correlated: the SNR grows by the square root
of `n`. -/
theorem C189_gain_partial {n : Nat} (hn : n ≠ 0) (ys : Fin n → NDArray Rat) (s : List Nat) (hs : ∀ k, (ys k).shape = s) (args : SnrArgs) (hauto : args.auto = false)
    (hc : isColour (Spec.averageQ s ys) = false) (c : List Int) (r : Int) (reg : Region Rat)
    (h1 : snrChecks (Spec.averageQ s ys) args.center args.radius = .ok (c, r))
    (h2 : selectRegion (Spec.averageQ s ys) (regionKind args.regionType) c r none = .ok reg) (hne : reg.values ≠ [])
    (m q : Rat) (hm : ∀ k, meanQ (reg.selected.map (ys k).get) = m) (hq : ∀ k, varQ (reg.selected.map (ys k).get) = q) (hq0 : q ≠ 0)
    (hu : ∀ j k, j ≠ k → Spec.covariationQ (reg.selected.map (ys j).get) (reg.selected.map (ys k).get) = 0) :
    ∃ v, (∀ k, snr (ys k) args = .ok (.gray v)) ∧ snr (Spec.averageQ s ys) args = .ok (.gray (Real.sqrt n * v)) := by
  have hpos := snr_positions s args hauto _ rfl hc c r reg h1 h2
  have hsel : reg.selected ≠ [] := by
    intro h
    apply hne
    unfold Region.values
    rw [h]
    rfl
  have hn0 : (n : Rat) ≠ 0 := by exact_mod_cast hn
  have e1 : varQ (reg.selected.map (Spec.averageQ s ys).get) = q / n := by
    have := varQ_average hn reg.selected (fun k => (ys k).get) hu
    simp only [hq, Finset.sum_const, Finset.card_univ, Fintype.card_fin, nsmul_eq_mul] at this
    rw [show q / n = n * q / n ^ 2 by field_simp, ← this]
    rfl
  have e2 : meanQ (reg.selected.map (Spec.averageQ s ys).get) = m := by
    have := meanQ_average reg.selected (fun k => (ys k).get)
    simp only [hm, Finset.sum_const, Finset.card_univ, Fintype.card_fin, nsmul_eq_mul] at this
    rw [mul_div_cancel_left₀ _ hn0] at this
    exact this
  refine ⟨(m : ℝ) / Real.sqrt q, fun k => ?_, ?_⟩
  · rw [hpos _ (hs k)]
    unfold snrOf stdQ
    rw [if_neg (by simpa using hsel), hq k, if_neg hq0, hm k]
    rfl
  · rw [hpos _ rfl]
    unfold snrOf stdQ
    rw [if_neg (by simpa using hsel), e1, if_neg (by positivity), e2]
    simp only [Except.map, Except.ok.injEq, SnrResult.gray.injEq]
    push_cast
    rw [Real.sqrt_div' _ (Nat.cast_nonneg _), div_div_eq_mul_div]
    ring

/-- The image reflected at a gray value. -/
def Spec.reflectedAt (m : Rat) (y : NDArray Rat) : NDArray Rat := y.map (fun v => -1 * v + 2 * m)

/-- **C189 is false** if the noise cancels: a scan and one with the opposite noise have the same SNR, but that of their average is 0. -/
theorem C189_snr_refuted (y : NDArray Rat) (args : SnrArgs) (hauto : args.auto = false)
    (hc : isColour y = false) (c : List Int) (r : Int) (reg : Region Rat) (h1 : snrChecks y args.center args.radius = .ok (c, r))
    (h2 : selectRegion y (regionKind args.regionType) c r none = .ok reg) (hne : reg.values ≠ []) :
    snr (Spec.reflectedAt (meanQ reg.values) y) args = snr y args ∧
      snr (Spec.averageQ y.shape ![y, Spec.reflectedAt (meanQ reg.values) y]) args = .ok (.gray 0) := by
  have hpos := snr_positions y.shape args hauto y rfl hc c r reg h1 h2
  have harr := (selectRegion_sel _ _ rfl _ _ _ _ h2).2
  have hval : reg.values = reg.selected.map y.get := by unfold Region.values; rw [harr]
  rw [hval] at hne ⊢
  generalize reg.selected = L at *
  set m := meanQ (L.map y.get) with hm
  have e : L.map (Spec.reflectedAt m y).get = (L.map y.get).map (fun v => -1 * v + 2 * m) := by
    rw [List.map_map]
    rfl
  constructor
  · rw [hpos y rfl, hpos (Spec.reflectedAt m y) rfl, e]
    congr 1
    unfold snrOf
    rw [stdQ_affine _ _ _ hne, varQ_affine _ _ _ hne, meanQ_affine _ _ _ hne, ← hm]
    simp only [List.map_eq_nil_iff]
    norm_num
    ring_nf
  · rw [hpos (Spec.averageQ y.shape ![y, Spec.reflectedAt m y]) rfl]
    have e2 : L.map (Spec.averageQ y.shape ![y, Spec.reflectedAt m y]).get = L.map (fun _ => m) := by
      apply List.map_congr_left
      intro i _
      simp only [Spec.averageQ, Fin.sum_univ_two, Matrix.cons_val_zero, Matrix.cons_val_one, Spec.reflectedAt, NDArray.map]
      push_cast
      ring
    rw [e2]
    have hne2 : L.map (fun _ => m) ≠ [] := by simpa using hne
    have h0 : varQ (L.map (fun _ => m)) = 0 := (varQ_eq_zero_iff _ hne2).2 ⟨m, by
      intro x hx
      obtain ⟨_, _, rfl⟩ := List.mem_map.1 hx
      rfl⟩
    unfold snrOf
    rw [if_neg hne2, if_pos h0]
    rfl

/-! ### CNR -/

theorem cnr_positions (s : List Nat) (args : CnrArgs) (hauto : args.auto = false) (z : NDArray Rat) (hz : z.shape = s) (sg bg : Region Rat)
    (h : cnrSelect z args = .ok (sg, bg)) :
    ∀ b : NDArray Rat, b.shape = s → cnr b args = cnrOf (sg.selected.map b.get) (bg.selected.map b.get) := by
  intro b hb
  have hzb : z.shape = b.shape := hz.trans hb.symm
  obtain ⟨e1, e2, e3⟩ := cnrSelect_sel z b args hauto hzb sg bg h
  unfold cnr
  rw [e1]
  simp only
  unfold Region.values Region.selected
  rw [e2, e3, hzb]

/-- **C189 (partial).** If every scan has a CNR of at least `P`, so has their average, unless the background is flat in it. -/
theorem C189_cnr_partial {n : Nat} (ys : Fin n → NDArray Rat) (s : List Nat) (hs : ∀ k, (ys k).shape = s) (args : CnrArgs)
    (hauto : args.auto = false) (sg bg : Region Rat) (h : cnrSelect (Spec.averageQ s ys) args = .ok (sg, bg)) (hsig : sg.values ≠ [])
    (hflat : ¬ ∃ v, ∀ x ∈ bg.values, x = v) (P : ℝ) (hP : 0 < P) (hcnr : ∀ k, ∃ v, cnr (ys k) args = .ok v ∧ P ≤ v) :
    ∃ v, cnr (Spec.averageQ s ys) args = .ok v ∧ P ≤ v := by
  have hpos := cnr_positions s args hauto _ rfl sg bg h
  obtain ⟨-, hsa, hba⟩ := cnrSelect_sel _ _ args hauto rfl sg bg h
  have hbval : bg.values = bg.selected.map (Spec.averageQ s ys).get := by unfold Region.values; rw [hba]
  have hsval : sg.values = sg.selected.map (Spec.averageQ s ys).get := by unfold Region.values; rw [hsa]
  have hne : bg.values ≠ [] := by
    intro h
    exact hflat ⟨0, by rw [h]; simp⟩
  have hvar : varQ bg.values ≠ 0 := fun h => hflat ((varQ_eq_zero_iff _ hne).1 h)
  rw [hbval] at hne hvar
  rw [hsval] at hsig
  generalize sg.selected = S at *
  generalize bg.selected = B at *
  have hmean : ∀ k, P * stdQ (B.map (ys k).get) ≤ ((meanQ (S.map (ys k).get) - meanQ (B.map (ys k).get) : Rat) : ℝ) := by
    intro k
    obtain ⟨v, hv, hPv⟩ := hcnr k
    rw [hpos (ys k) (hs k)] at hv
    unfold cnrOf at hv
    split_ifs at hv with e1 e2
    · cases hv
      linarith
    · simp only [Except.ok.injEq] at hv
      have h0 : 0 < stdQ (B.map (ys k).get) := lt_of_le_of_ne (Real.sqrt_nonneg _) (stdQ_ne_zero _ e2).symm
      rw [← hv, le_div_iff₀ h0] at hPv
      exact hPv
  refine ⟨_, by rw [hpos _ rfl]; unfold cnrOf; rw [if_neg hne, if_neg hvar, if_neg hsig], ?_⟩
  have h0 : 0 < stdQ (B.map (Spec.averageQ s ys).get) := lt_of_le_of_ne (Real.sqrt_nonneg _) (stdQ_ne_zero _ hvar).symm
  rw [le_div_iff₀ h0]
  have e1 := stdQ_average B (fun k => (ys k).get)
  have e3 : ((meanQ (S.map (Spec.averageQ s ys).get) - meanQ (B.map (Spec.averageQ s ys).get) : Rat) : ℝ) =
      ∑ k, (1 / (n : ℝ)) * ((meanQ (S.map (ys k).get) - meanQ (B.map (ys k).get) : Rat) : ℝ) := by
    show ((meanQ (S.map (fun i => (∑ k, (ys k).get i) / n)) - meanQ (B.map (fun i => (∑ k, (ys k).get i) / n)) : Rat) : ℝ) = _
    rw [meanQ_average, meanQ_average, ← Finset.mul_sum]
    push_cast
    rw [Finset.sum_sub_distrib]
    ring
  rw [e3]
  calc P * stdQ (B.map (Spec.averageQ s ys).get) ≤ P * ∑ k, (1 / (n : ℝ)) * stdQ (B.map (ys k).get) := mul_le_mul_of_nonneg_left e1 hP.le
    _ = ∑ k, (1 / (n : ℝ)) * (P * stdQ (B.map (ys k).get)) := by
      rw [Finset.mul_sum]
      exact Finset.sum_congr rfl (fun k _ => by ring)
    _ ≤ _ := Finset.sum_le_sum (fun k _ => mul_le_mul_of_nonneg_left (hmean k) (by positivity))

/-- **C189 (partial).** The average of `n` scans with the same means and the same noise in the background, not correlated: the CNR grows by
the square root of `n`. -/
theorem C189_cnr_gain_partial {n : Nat} (hn : n ≠ 0) (ys : Fin n → NDArray Rat) (s : List Nat) (hs : ∀ k, (ys k).shape = s) (args : CnrArgs)
    (hauto : args.auto = false) (sg bg : Region Rat) (h : cnrSelect (Spec.averageQ s ys) args = .ok (sg, bg)) (hsig : sg.values ≠ [])
    (hne : bg.values ≠ []) (m m' q : Rat) (hm : ∀ k, meanQ (sg.selected.map (ys k).get) = m) (hm' : ∀ k, meanQ (bg.selected.map (ys k).get) = m')
    (hq : ∀ k, varQ (bg.selected.map (ys k).get) = q) (hq0 : q ≠ 0)
    (hu : ∀ j k, j ≠ k → Spec.covariationQ (bg.selected.map (ys j).get) (bg.selected.map (ys k).get) = 0) :
    ∃ v, (∀ k, cnr (ys k) args = .ok v) ∧ cnr (Spec.averageQ s ys) args = .ok (Real.sqrt n * v) := by
  have hpos := cnr_positions s args hauto _ rfl sg bg h
  have hS : sg.selected ≠ [] := by
    intro h
    apply hsig
    unfold Region.values
    rw [h]
    rfl
  have hB : bg.selected ≠ [] := by
    intro h
    apply hne
    unfold Region.values
    rw [h]
    rfl
  have hn0 : (n : Rat) ≠ 0 := by exact_mod_cast hn
  have e1 : varQ (bg.selected.map (Spec.averageQ s ys).get) = q / n := by
    have := varQ_average hn bg.selected (fun k => (ys k).get) hu
    simp only [hq, Finset.sum_const, Finset.card_univ, Fintype.card_fin, nsmul_eq_mul] at this
    rw [show q / n = n * q / n ^ 2 by field_simp, ← this]
    rfl
  have e2 : ∀ (L : List (List Nat)) (m : Rat), (∀ k, meanQ (L.map (ys k).get) = m) → meanQ (L.map (Spec.averageQ s ys).get) = m := by
    intro L m hm
    have := meanQ_average L (fun k => (ys k).get)
    simp only [hm, Finset.sum_const, Finset.card_univ, Fintype.card_fin, nsmul_eq_mul] at this
    rw [mul_div_cancel_left₀ _ hn0] at this
    exact this
  refine ⟨((m - m' : Rat) : ℝ) / Real.sqrt q, fun k => ?_, ?_⟩
  · rw [hpos _ (hs k)]
    unfold cnrOf stdQ
    rw [if_neg (by simpa using hB), hq k, if_neg hq0, if_neg (by simpa using hS), hm k, hm' k]
  · rw [hpos _ rfl]
    unfold cnrOf stdQ
    rw [if_neg (by simpa using hB), e1, if_neg (by positivity), if_neg (by simpa using hS), e2 _ m hm, e2 _ m' hm']
    simp only [Except.ok.injEq]
    push_cast
    rw [Real.sqrt_div' _ (Nat.cast_nonneg _), div_div_eq_mul_div]
    ring

/-! ### Examples -/

/-- Two scans of a gray value 10 with a different pattern of noise. -/
def noisyScan (b : Bool) : NDArray Rat := ⟨[6, 6], fun i => if (i.getD (if b then 0 else 1) 0) % 2 = 0 then 11 else 9⟩

/-- Their average: the SNR grows from 10 by the square root of 2. -/
example : ∃ v, (∀ k : Fin 2, snr ((![noisyScan true, noisyScan false] : Fin 2 → NDArray Rat) k) { center := some [.int 3, .int 3], radius := .int 1 } = .ok (.gray v)) ∧
    snr (Spec.averageQ [6, 6] ![noisyScan true, noisyScan false]) { center := some [.int 3, .int 3], radius := .int 1 } = .ok (.gray (Real.sqrt 2 * v)) := by
  have hsel : (⟨Spec.averageQ [6, 6] ![noisyScan true, noisyScan false], boxMask [6, 6] [3, 3] 1⟩ : Region Rat).selected = [[2, 2], [2, 3], [3, 2], [3, 3]] := by
    unfold Region.selected
    decide +kernel
  refine C189_gain_partial (n := 2) two_ne_zero ![noisyScan true, noisyScan false] [6, 6] (by intro k; fin_cases k <;> rfl)
    { center := some [.int 3, .int 3], radius := .int 1 } rfl rfl [3, 3] 1
    ⟨Spec.averageQ [6, 6] ![noisyScan true, noisyScan false], boxMask [6, 6] [3, 3] 1⟩ rfl rfl ?_ 10 1 ?_ ?_ one_ne_zero ?_
  · unfold Region.values
    rw [hsel]
    simp
  · rw [hsel]
    intro k
    fin_cases k <;> decide +kernel
  · rw [hsel]
    intro k
    fin_cases k <;> decide +kernel
  · rw [hsel]
    intro j k hjk
    fin_cases j <;> fin_cases k <;> first | exact absurd rfl hjk | decide +kernel

/-- With the opposite noise the SNR of the average is 0. -/
example : snr (Spec.averageQ [6, 6] ![sampleRows, Spec.reflectedAt (1 / 2) sampleRows]) { center := some [.int 1, .int 1], radius := .int 1 } = .ok (.gray 0) := by
  have h := (C189_snr_refuted sampleRows { center := some [.int 1, .int 1], radius := .int 1 } rfl rfl [1, 1] 1
    ⟨sampleRows, boxMask [6, 6] [1, 1] 1⟩ rfl rfl (by rw [sampleRows_background]; simp)).2
  rw [sampleRows_background, show meanQ [0, 0, 1, 1] = 1 / 2 by decide +kernel] at h
  exact h

/-- The average of two equal scans keeps the CNR of 6. -/
example : ∃ v, cnr (Spec.averageQ [6, 6] ![sampleRows, sampleRows]) sampleRowsArgs = .ok v ∧ 6 ≤ v := by
  have hv : ∀ k : Fin 2, ((![sampleRows, sampleRows] : Fin 2 → NDArray Rat) k) = sampleRows := by intro k; fin_cases k <;> rfl
  have hb : (⟨Spec.averageQ [6, 6] ![sampleRows, sampleRows], boxMask [6, 6] [1, 1] 1⟩ : Region Rat).values = [0, 0, 1, 1] := by decide +kernel
  refine C189_cnr_partial ![sampleRows, sampleRows] [6, 6] (fun k => by rw [hv]; rfl) sampleRowsArgs rfl
    ⟨Spec.averageQ [6, 6] ![sampleRows, sampleRows], boxMask [6, 6] [4, 4] 1⟩
    ⟨Spec.averageQ [6, 6] ![sampleRows, sampleRows], boxMask [6, 6] [1, 1] 1⟩ rfl (by decide +kernel) ?_ 6 (by norm_num) (fun k => ⟨6, ?_, le_rfl⟩)
  · rw [hb]
    rintro ⟨v, h⟩
    have h0 := h 0 (by simp)
    have h1 := h 1 (by simp)
    rw [← h0] at h1
    norm_num at h1
  · rw [hv, C54_value _ _ _ _ sampleRows_select (by
      rw [sampleRows_background]
      rintro ⟨v, h⟩
      have h0 := h 0 (by simp)
      have h1 := h 1 (by simp)
      rw [← h0] at h1
      norm_num at h1) (by rw [sampleRows_signal]; simp), sampleRows_signal, sampleRows_background]
    norm_num
    rw [show (4 : ℝ) = 2 ^ 2 by norm_num, Real.sqrt_sq (by norm_num)]
    norm_num

end Viqa
