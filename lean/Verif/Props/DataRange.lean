import Verif.Props.SsimWeights
import Verif.Props.GsmParameters

/-!
C183: a greater data range is more forgiving.
-/

namespace Viqa

theorem npDiv_mono (big n d c c' : ℝ) (hd : 0 ≤ d) (hn : 0 ≤ n + c) (hnd : n ≤ d) (hc : 0 ≤ c) (h : c ≤ c') :
    nanToNum big (npDiv (n + c) (d + c)) ≤ nanToNum big (npDiv (n + c') (d + c')) := by
  unfold npDiv
  by_cases h0 : d + c = 0
  · have hd0 : d = 0 := by linarith
    have hc0 : c = 0 := by linarith
    have hn0 : n = 0 := by linarith
    subst hd0 hc0 hn0
    by_cases h1 : c' = 0
    · simp [h1]
    · simp [h1, nanToNum]
  · have hp : 0 < d + c := lt_of_le_of_ne (by linarith) (Ne.symm h0)
    have hp' : 0 < d + c' := by linarith
    rw [if_neg h0, if_neg hp'.ne']
    show (n + c) / (d + c) ≤ (n + c') / (d + c')
    rw [div_le_div_iff₀ hp hp']
    nlinarith [mul_nonneg (sub_nonneg.2 h) (sub_nonneg.2 hnd)]

/-- **C183 (partial).** Greater constants, by a greater data range or greater `K1` and `K2`, never lower the SSIM of images without
negative gray values that vary alike. -/
theorem C183_ssim_partial (big dr dr' k1' k2' : ℝ) (hbig : 0 ≤ big) (a : SsimArgs) (α β γ : Nat)
    (he : a.alpha = .int α ∧ a.beta = .int β ∧ a.gamma = .int γ)
    (h1 : |a.k1 * dr| ≤ |k1' * dr'|) (h2 : |a.k2 * dr| ≤ |k2' * dr'|)
    (hb : Spec.NoFill a) (x y : NDArray ℝ) (hs : x.shape = y.shape) (hx : ∀ i, InShape x.shape i → 0 ≤ x.get i)
    (hy : ∀ i, InShape y.shape i → 0 ≤ y.get i)
    (hxy : Spec.VaryAlike a x y) (v v' : ℝ) (hv : structuralSimilarity big a dr x y = .ok v)
    (hv' : structuralSimilarity big { a with k1 := k1', k2 := k2' } dr' x y = .ok v') : v ≤ v' := by
  obtain ⟨hval, norm, m, l, hn, hm, hl, hmean⟩ := ssim_ok _ _ _ _ _ _ hv
  obtain ⟨-, norm', m', l', hn', hm', hl', hmean'⟩ := ssim_ok _ _ _ _ _ _ hv'
  have e1 : covNorm a x.ndim = .ok norm' := hn'
  have e2 : (open Classical in if a.gaussian = true ∧ a.sigma = 0 then .ok .reflect else borderMode a.mode) = (.ok m' : Py BorderMode) := hm'
  rw [hn] at e1
  cases e1
  rw [hm] at e2
  cases e2
  have hpos := covNorm_pos a _ norm hval.odd hn
  refine mean_le l' l v' v (pointwise _ _ _ _ l' l hl' hl ?_) hmean' hmean
  intro p hp w' w hw' hw
  have hin := noFill_inside a x.shape hval hb m hm p hp
  have hw2 : ssimAt big (a.filter m) norm dr' { a with k1 := k1', k2 := k2' } x y p = .ok w' := hw'
  rw [ssimAt_terms] at hw hw2
  simp only [he.1, he.2.1, he.2.2, ExpArg.cast] at hw hw2
  obtain ⟨-, -, h3⟩ := scaled_stats (a.filter m) (a.filter_proper m) x y hs p (Or.inr hin) norm hpos
  have q1 : (a.k1 * dr) ^ 2 ≤ (k1' * dr') ^ 2 := sq_le_sq.2 h1
  have q2 : (a.k2 * dr) ^ 2 ≤ (k2' * dr') ^ 2 := sq_le_sq.2 h2
  have p1 : 0 ≤ (a.k1 * dr) ^ 2 := sq_nonneg _
  have p2 : 0 ≤ (a.k2 * dr) ^ 2 := sq_nonneg _
  generalize (a.k1 * dr) ^ 2 = c1 at *
  generalize (a.k2 * dr) ^ 2 = c2 at *
  generalize (k1' * dr') ^ 2 = c1' at *
  generalize (k2' * dr') ^ 2 = c2' at *
  have hlen := ((mem_cropPositions _ _ _).1 hp).1
  have hp0 : ∀ n ∈ x.shape, 0 < n := fun n hn => by have := hval.fits n hn; have := hval.odd; omega
  have hx1 := apply_nonneg _ (a.filter_proper m) x hx p hlen hp0 hin
  have hy1 := apply_nonneg _ (a.filter_proper m) y hy p (hs ▸ hlen) (hs ▸ hp0) (hs ▸ hin)
  have hcov := mul_nonneg hpos.le (sub_nonneg.2 (hxy m p hp))
  generalize norm * ((a.filter m).apply (NDArray.zip (· * ·) x x) p - (a.filter m).apply x p * (a.filter m).apply x p) = vx at *
  generalize norm * ((a.filter m).apply (NDArray.zip (· * ·) y y) p - (a.filter m).apply y p * (a.filter m).apply y p) = vy at *
  generalize norm * ((a.filter m).apply (NDArray.zip (· * ·) x y) p - (a.filter m).apply x p * (a.filter m).apply y p) = vxy at *
  generalize (a.filter m).apply x p = ux at *
  generalize (a.filter m).apply y p = uy at *
  have m1 : nanToNum big (luminanceTerm ux uy c1) ≤ nanToNum big (luminanceTerm ux uy c1') :=
    npDiv_mono big _ _ _ _ (by positivity) (by positivity) (by nlinarith [sq_nonneg (ux - uy)]) p1 q1
  have m2 : nanToNum big (contrastTerm vx vy c2) ≤ nanToNum big (contrastTerm vx vy c2') := by
    unfold contrastTerm
    split
    · exact le_rfl
    · rename_i h
      push Not at h
      refine npDiv_mono big _ _ _ _ (by linarith [h.1, h.2]) (by positivity) ?_ p2 q2
      nlinarith [sq_nonneg (Real.sqrt vx - Real.sqrt vy), Real.sq_sqrt h.1, Real.sq_sqrt h.2]
  have m3 : nanToNum big (structureTerm vx vy vxy (c2 / 2)) ≤ nanToNum big (structureTerm vx vy vxy (c2' / 2)) := by
    unfold structureTerm
    split
    · exact le_rfl
    · exact npDiv_mono big _ _ _ _ (by positivity) (by linarith) ((le_abs_self _).trans h3) (by linarith) (by linarith)
  have n1 : 0 ≤ nanToNum big (luminanceTerm ux uy c1) := npDiv_nonneg _ _ _ hbig (by positivity) (by positivity)
  have n2 : 0 ≤ nanToNum big (contrastTerm vx vy c2) := by
    unfold contrastTerm
    split
    · exact zero_le_one
    · rename_i h
      push Not at h
      exact npDiv_nonneg _ _ _ hbig (by positivity) (by linarith [h.1, h.2])
  have n3 : 0 ≤ nanToNum big (structureTerm vx vy vxy (c2 / 2)) := by
    unfold structureTerm
    split
    · exact zero_le_one
    · exact npDiv_nonneg _ _ _ hbig (by linarith) (by positivity)
  unfold npPow at hw hw2
  rw [if_neg (by omega), if_neg (by omega), if_neg (by omega)] at hw hw2
  simp only [zpow_natCast] at hw hw2
  cases hw
  cases hw2
  have n1' := n1.trans m1
  have n2' := n2.trans m2
  exact mul_le_mul (mul_le_mul (pow_le_pow_left₀ n1 m1 α) (pow_le_pow_left₀ n2 m2 β) (pow_nonneg n2 β) (pow_nonneg n1' α))
    (pow_le_pow_left₀ n3 m3 γ) (pow_nonneg n3 γ) (mul_nonneg (pow_nonneg n1' α) (pow_nonneg n2' β))

/-- The data range alone. -/
theorem C183_ssim_range_partial (big dr dr' : ℝ) (hbig : 0 ≤ big) (hdr : 0 ≤ dr) (h : dr ≤ dr') (a : SsimArgs) (α β γ : Nat)
    (he : a.alpha = .int α ∧ a.beta = .int β ∧ a.gamma = .int γ)
    (hb : Spec.NoFill a) (x y : NDArray ℝ) (hs : x.shape = y.shape) (hx : ∀ i, InShape x.shape i → 0 ≤ x.get i)
    (hy : ∀ i, InShape y.shape i → 0 ≤ y.get i)
    (hxy : Spec.VaryAlike a x y) (v v' : ℝ) (hv : structuralSimilarity big a dr x y = .ok v)
    (hv' : structuralSimilarity big a dr' x y = .ok v') : v ≤ v' := by
  have key : ∀ k : ℝ, |k * dr| ≤ |k * dr'| := fun k => by
    rw [abs_mul, abs_mul, abs_of_nonneg hdr, abs_of_nonneg (hdr.trans h)]
    exact mul_le_mul_of_nonneg_left h (abs_nonneg k)
  exact C183_ssim_partial big dr dr' a.k1 a.k2 hbig a α β γ he (key _) (key _) hb x y hs hx hy hxy v v' hv hv'

/-- **C183.** For PSNR a greater data range adds its ratio in decibels, whatever the images. -/
theorem C183_psnr (dr dr' : ℝ) (hdr : 0 < dr) (h : dr ≤ dr') (x y : NDArray ℝ) (v : ℝ) (hv : psnr dr x y = .ok (.finite v)) :
    psnr dr' x y = .ok (.finite (v + 20 * Real.logb 10 (dr' / dr))) ∧ 0 ≤ 20 * Real.logb 10 (dr' / dr) := by
  have hdr' : 0 < dr' := hdr.trans_le h
  constructor
  · unfold psnr at hv ⊢
    by_cases he : arrayEqual x y
    · rw [if_pos he] at hv
      cases hv
    · rw [if_neg he] at hv ⊢
      cases hm : meanSquaredError x y with
      | error e => rw [hm] at hv; cases hv
      | ok m =>
        rw [hm] at hv
        simp only at hv ⊢
        by_cases hz : dr ^ 2 / m = 0
        · rw [if_pos hz] at hv
          cases hv
        · rw [if_neg hz] at hv
          have hm0 : m ≠ 0 := fun h0 => hz (by rw [h0, div_zero])
          have hz' : dr' ^ 2 / m ≠ 0 := div_ne_zero (pow_ne_zero 2 hdr'.ne') hm0
          rw [if_neg hz']
          cases hv
          have : dr' ^ 2 / m = dr ^ 2 / m * (dr' / dr) ^ 2 := by field_simp
          rw [this, Real.logb_mul hz (by positivity), Real.logb_pow]
          congr 2
          push_cast
          ring
  · exact mul_nonneg (by norm_num) (Real.logb_nonneg (by norm_num) ((one_le_div hdr).2 h))

/-- **C183 (partial).** A greater data range never lowers the GSM of floating-point images where the structural similarity is nowhere
negative: where no gradients differ by more than the gradient of the reference they are compared with. -/
theorem C183_gsm_partial (dr dr' c p v : Rat) (hdr : 0 < dr) (h : dr ≤ dr') (hc : 0 ≤ c) (hp : 0 ≤ p) (x y : NDArray Rat)
    (hs : x.shape = y.shape)
    (hpos : ∃ q ∈ (usedGradient floatOps x).toList ++ (usedGradient floatOps y).toList, 0 < q)
    (hr : ∀ i, InShape x.shape i → ratAbs ((usedGradient floatOps x).get i - (usedGradient floatOps y).get i) /
      (strongest (usedGradient floatOps x) [usedGradient floatOps y]).get i ≤ 1)
    (hv : gradientSimilarity floatOps dr c p x y = .ok v) :
    ∃ v', gradientSimilarity floatOps dr' c p x y = .ok v' ∧ v ≤ v' := by
  have hdr' : 0 < dr' := hdr.trans_le h
  have key : ∀ (w : NDArray Int) (ws : List (NDArray Int)),
      (∃ q ∈ (strongest (gradient floatOps w x) (ws.map (fun w => gradient floatOps w x))).toList ++
        (strongest (gradient floatOps w y) (ws.map (fun w => gradient floatOps w y))).toList, 0 < q) →
      (∀ i, InShape x.shape i → ratAbs ((strongest (gradient floatOps w x) (ws.map (fun w => gradient floatOps w x))).get i -
        (strongest (gradient floatOps w y) (ws.map (fun w => gradient floatOps w y))).get i) /
        (strongest (strongest (gradient floatOps w x) (ws.map (fun w => gradient floatOps w x)))
          [strongest (gradient floatOps w y) (ws.map (fun w => gradient floatOps w y))]).get i ≤ 1) →
      gsmWith floatOps dr c p x y w ws = .ok v → ∃ v', gsmWith floatOps dr' c p x y w ws = .ok v' ∧ v ≤ v' := by
    intro w ws hpos hr h'
    unfold gsmWith at h' ⊢
    simp only at h' ⊢
    generalize strongest (gradient floatOps w x) (ws.map (fun w => gradient floatOps w x)) = gr at h' hpos hr ⊢
    generalize strongest (gradient floatOps w y) (ws.map (fun w => gradient floatOps w y)) = gm at h' hpos hr ⊢
    cases hrl : gr.toList with
    | nil => rw [hrl] at h'; simp at h'
    | cons r0 rs =>
      cases hm : gm.toList with
      | nil => rw [hrl, hm] at h'; simp at h'
      | cons m0 ms =>
        rw [hrl, hm] at h' hpos
        simp only at h' ⊢
        have htop : 0 < largest (largest r0 rs) [largest m0 ms] := by
          obtain ⟨q, hq, hq0⟩ := hpos
          refine lt_of_lt_of_le hq0 ?_
          rcases List.mem_append.1 hq with hq | hq
          · exact le_trans (largest_le r0 rs q hq) (largest_le _ _ _ (by simp))
          · exact le_trans (largest_le m0 ms q hq) (largest_le _ _ _ (by simp))
        rw [if_neg htop.ne'] at h' ⊢
        simp only [quality_with, nanMean_with] at h' ⊢
        generalize hR : ratedPixels _ (indices x.shape) = R at h' ⊢
        split at h'
        · cases h'
        · rename_i hne
          rw [if_neg hne]
          cases h'
          refine ⟨_, rfl, ?_⟩
          apply div_le_div_of_nonneg_right _ (Nat.cast_nonneg _)
          apply List.sum_le_sum
          intro e he
          have hcon : 0 ≤ e.2 := by
            rw [← hR] at he
            unfold ratedPixels at he
            obtain ⟨i, hi, hie⟩ := List.mem_filterMap.1 he
            split at hie
            · rename_i c0 hc0
              cases hie
              unfold conQuality at hc0
              simp only at hc0
              split at hc0
              · cases hc0
              · split at hc0
                · split at hc0 <;> cases hc0
                · cases hc0
                  have hr1 := hr i (inShape_of_mem_indices _ _ hi)
                  have hk : 0 ≤ c / largest (largest r0 rs) [largest m0 ms] := div_nonneg hc htop.le
                  refine div_nonneg ?_ (conDen_pos _ _ hk).le
                  unfold conNum
                  linarith
            · cases hie
          have hl : lumSim floatOps dr (x.get e.1) (y.get e.1) ≤ lumSim floatOps dr' (x.get e.1) (y.get e.1) := by
            show 1 - ((x.get e.1 - y.get e.1) / dr) ^ 2 ≤ 1 - ((x.get e.1 - y.get e.1) / dr') ^ 2
            rw [div_pow, div_pow]
            have := div_le_div_of_nonneg_left (sq_nonneg (x.get e.1 - y.get e.1)) (by positivity) (pow_le_pow_left₀ hdr.le h 2)
            linarith
          have := mul_le_mul_of_nonneg_left hl (mul_nonneg hp hcon)
          unfold combine
          linarith
  have hnd : x.ndim = y.ndim := by unfold NDArray.ndim; rw [hs]
  unfold gradientSimilarity at hv ⊢
  unfold usedGradient at hpos hr
  rw [← hnd] at hpos hr
  by_cases h3 : x.ndim = 3
  · rw [if_pos h3] at hv ⊢
    rw [if_pos h3, if_pos h3] at hpos hr
    exact key _ _ hpos hr hv
  · rw [if_neg h3] at hv ⊢
    rw [if_neg h3, if_neg h3] at hpos hr
    by_cases h2 : x.ndim = 2
    · rw [if_pos h2] at hv ⊢
      exact key _ _ hpos hr hv
    · rw [if_neg h2] at hv
      cases hv

/-- A row of three gray values, one window. -/
theorem ssim_three (big dr k1 k2 : ℝ) (h1 : 0 ≤ k1) (h2 : 0 ≤ k2) (x y : NDArray ℝ) (hx : x.shape = [3]) (hy : y.shape = [3]) :
    structuralSimilarity big { gaussian := false, winSize := some 3, k1 := k1, k2 := k2 } dr x y =
      (let ux := (x.get [0] + x.get [1] + x.get [2]) / 3
       let uy := (y.get [0] + y.get [1] + y.get [2]) / 3
       let vx := 3 / 2 * ((x.get [0] * x.get [0] + x.get [1] * x.get [1] + x.get [2] * x.get [2]) / 3 - ux * ux)
       let vy := 3 / 2 * ((y.get [0] * y.get [0] + y.get [1] * y.get [1] + y.get [2] * y.get [2]) / 3 - uy * uy)
       let vxy := 3 / 2 * ((x.get [0] * y.get [0] + x.get [1] * y.get [1] + x.get [2] * y.get [2]) / 3 - ux * uy)
       .ok (nanToNum big (luminanceTerm ux uy ((k1 * dr) ^ 2)) * nanToNum big (contrastTerm vx vy ((k2 * dr) ^ 2)) *
         nanToNum big (structureTerm vx vy vxy ((k2 * dr) ^ 2 / 2)))) := by
  obtain ⟨sx, x⟩ := x
  obtain ⟨sy, y⟩ := y
  simp only at hx hy
  subst hx hy
  have ha : ∀ z : List Nat → ℝ, (SsimArgs.filter { gaussian := false, winSize := some 3, k1 := k1, k2 := k2 } .reflect).apply ⟨[3], z⟩ [1] =
      (z [0] + z [1] + z [2]) / 3 := by
    intro z
    have hr : (SsimArgs.filter { gaussian := false, winSize := some 3, k1 := k1, k2 := k2 } .reflect) = ⟨1, boxWeight 1, .reflect, 0⟩ := by
      simp [SsimArgs.filter, SsimArgs.window]
    rw [hr]
    have ho : offsets 1 1 = [[-1], [0], [1]] := by decide
    have hi : ∀ a : Nat, a < 3 → extendIndices .reflect [3] [(a : Int)] = some [a] := fun a ha =>
      extendIndices_inside .reflect [3] [a] ⟨ha, trivial⟩
    have h0 := hi 0; have h1 := hi 1; have h2 := hi 2
    norm_num at h0 h1 h2
    simp only [Filter.apply, NDArray.ndim, List.length_cons, List.length_nil, zero_add, ho, List.map_cons, List.map_nil, sample, shiftIndex,
      List.zipWith_cons_cons, List.zipWith_nil_right]
    norm_num [h0, h1, h2, offsetWeight, boxWeight]
    ring
  rw [ssim_valid _ _ _ _ _ (by constructor <;> norm_num [SsimArgs.window, h1, h2])]
  have hc : covNorm { gaussian := false, winSize := some 3, k1 := k1, k2 := k2 } (NDArray.ndim (⟨[3], x⟩ : NDArray ℝ)) = .ok (3 / 2) := by
    norm_num [covNorm, SsimArgs.window, NDArray.ndim]
  have hp : cropPositions ((SsimArgs.window { gaussian := false, winSize := some 3, k1 := k1, k2 := k2 } - 1) / 2) [3] = [[1]] := by
    rw [show SsimArgs.window { gaussian := false, winSize := some 3, k1 := k1, k2 := k2 } = 3 by simp [SsimArgs.window]]
    decide
  have hb : borderMode "reflect" = .ok .reflect := by simp [borderMode]
  unfold ssimBody
  simp only [hc, Bool.false_eq_true, false_and, if_false, hb, hp, List.map_cons, List.map_nil]
  rw [ssimAt_terms]
  simp only [NDArray.zip, ha, ExpArg.cast, npPow]
  norm_num [allOk, meanList]

/-- **C183 is false** for images that vary inversely: SSIM is a product, and a greater data range brings the luminance nearer to 1. -/
theorem C183_ssim_refuted (big : ℝ) : ∃ v v' : ℝ,
    structuralSimilarity big { gaussian := false, winSize := some 3, k1 := 1 / 100, k2 := 3 / 100 } 1
      ⟨[3], fun i => [2, 1, 0].getD (i.getD 0 0) 0⟩ ⟨[3], fun i => [-1, 0, 1].getD (i.getD 0 0) 0⟩ = .ok v ∧
    structuralSimilarity big { gaussian := false, winSize := some 3, k1 := 1 / 100, k2 := 3 / 100 } 2
      ⟨[3], fun i => [2, 1, 0].getD (i.getD 0 0) 0⟩ ⟨[3], fun i => [-1, 0, 1].getD (i.getD 0 0) 0⟩ = .ok v' ∧ v' < v := by
  refine ⟨_, _, ssim_three big 1 _ _ (by norm_num) (by norm_num) _ _ rfl rfl, ssim_three big 2 _ _ (by norm_num) (by norm_num) _ _ rfl rfl, ?_⟩
  norm_num [luminanceTerm, contrastTerm, structureTerm, npDiv, nanToNum]

/-- **C183 is false** for GSM where gradients point into opposite directions: the similarity of the structure is negative there, and it
is a factor of the luminance. -/
theorem C183_gsm_refuted : gradientSimilarity floatOps 255 200 (1 / 10) (row [0, 100, 200]) (row [200, 100, 0]) = .ok (-15338707 / 14162445) ∧
    gradientSimilarity floatOps 510 200 (1 / 10) (row [0, 100, 200]) (row [200, 100, 0]) = .ok (-15747907 / 14162445) ∧
    (-15747907 / 14162445 : Rat) < -15338707 / 14162445 := by decide +kernel

/-! ### Examples -/

/-- A slope and a steeper one, 8 bit or 16 bit. -/
example (big v v' : ℝ) (hbig : 0 ≤ big)
    (hv : structuralSimilarity big { gaussian := false, winSize := some 7 } 255 (Spec.toned 2 10 slope9) slope9 = .ok v)
    (hv' : structuralSimilarity big { gaussian := false, winSize := some 7 } 65535 (Spec.toned 2 10 slope9) slope9 = .ok v') : v ≤ v' := by
  refine C183_ssim_range_partial big 255 65535 hbig (by norm_num) (by norm_num) { gaussian := false, winSize := some 7 } 1 1 1 ⟨rfl, rfl, rfl⟩
    (.inr (.inr rfl)) (Spec.toned 2 10 slope9) slope9 rfl (fun i _ => ?_) (fun i _ => ?_) (toned_alike _ rfl slope9 2 10 (by norm_num)) v v' hv hv'
  · simp only [Spec.toned, slope9]; positivity
  · simp only [slope9]; positivity

/-- The score of three pixels with the data range 1 and 10. -/
example (big : ℝ) : ∃ v v' : ℝ, structuralSimilarity big { gaussian := false, winSize := some 3, k1 := 1 / 100, k2 := 3 / 100 } 1
      ⟨[3], fun i => [0, 1, 2].getD (i.getD 0 0) 0⟩ ⟨[3], fun i => [1, 2, 3].getD (i.getD 0 0) 0⟩ = .ok v ∧
    structuralSimilarity big { gaussian := false, winSize := some 3, k1 := 1 / 100, k2 := 3 / 100 } 10
      ⟨[3], fun i => [0, 1, 2].getD (i.getD 0 0) 0⟩ ⟨[3], fun i => [1, 2, 3].getD (i.getD 0 0) 0⟩ = .ok v' ∧ v < v' := by
  refine ⟨_, _, ssim_three big 1 _ _ (by norm_num) (by norm_num) _ _ rfl rfl, ssim_three big 10 _ _ (by norm_num) (by norm_num) _ _ rfl rfl, ?_⟩
  norm_num [luminanceTerm, contrastTerm, structureTerm, npDiv, nanToNum]

/-- Twice the data range adds 6 dB. -/
example (v : ℝ) (hv : psnr 255 ⟨[2], fun _ => 7⟩ ⟨[2], fun _ => 0⟩ = .ok (.finite v)) :
    psnr 510 ⟨[2], fun _ => 7⟩ ⟨[2], fun _ => 0⟩ = .ok (.finite (v + 20 * Real.logb 10 2)) := by
  have := (C183_psnr 255 510 (by norm_num) (by norm_num) _ _ v hv).1
  norm_num at this
  exact this

/-- Images that differ in structure and brightness. -/
example : ∃ v', gradientSimilarity floatOps 510 200 (1 / 10) (row [0, 10, 20]) (row [5, 17, 29]) = .ok v' ∧ 872228147 / 882267870 ≤ v' := by
  refine C183_gsm_partial 255 510 200 (1 / 10) (872228147 / 882267870) (by norm_num) (by norm_num) (by norm_num) (by norm_num) (row [0, 10, 20])
    (row [5, 17, 29]) rfl (by decide +kernel) (fun i hi => ?_) (by decide +kernel)
  obtain ⟨a, b, rfl, ha, hb⟩ : ∃ a b, i = [a, b] ∧ a < 1 ∧ b < 3 := by
    rcases i with _ | ⟨a, _ | ⟨b, _ | ⟨d, l⟩⟩⟩ <;> simp_all [InShape, row]
  interval_cases a
  interval_cases b <;> decide +kernel

end Viqa
