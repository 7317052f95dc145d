import Verif.Props.Infinite
import Verif.Props.Noise
import Verif.Props.Distance

/-!
**C195**, the other side: for images without infinite pixels the arithmetic with infinities of `Model/Infinite.lean` gives the scores of
`Model/Distance.lean` and `Model/Noise.lean`, so the rules for infinite pixels are an extension of the formulas used for all other images.
-/

namespace Viqa

open NF

/-- A score as a floating point number: no score is nan. -/
def Spec.scoreNF : Py ℝ → Py NF
  | .ok v => .ok (.fin v)
  | .error .notANumber => .ok .nan
  | .error e => .error e

/-- PSNR as a floating point number. -/
def Spec.psnrNF : Py Psnr → Py NF
  | .ok .infinite => .ok .pinf
  | .ok .minusInfinite => .ok .ninf
  | .ok (.finite v) => .ok (.fin v)
  | .error .notANumber => .ok .nan
  | .error e => .error e

/-- A finite image as an image that may contain infinite pixels. -/
def Spec.finiteImage (x : NDArray ℝ) : NDArray NF := ⟨x.shape, fun i => .fin (x.get i)⟩

theorem meanQ_real (l : List Rat) : ((meanQ l : Rat) : ℝ) = (l.map (fun q : Rat => (q : ℝ))).sum / l.length := by
  unfold meanQ
  rw [Rat.cast_div, Rat.cast_natCast]
  congr 1
  induction l with
  | nil => simp
  | cons a l ih => simp [ih]

theorem varQ_real (l : List Rat) :
    ((varQ l : Rat) : ℝ) = (l.map (fun q : Rat => ((q : ℝ) - (meanQ l : Rat)) * ((q : ℝ) - (meanQ l : Rat)))).sum / l.length := by
  unfold varQ
  rw [Rat.cast_div, Rat.cast_natCast]
  congr 1
  generalize meanQ l = m
  induction l with
  | nil => simp
  | cons a l ih => rw [List.map_cons, List.sum_cons, List.map_cons, List.sum_cons, Rat.cast_add, ih, sq, Rat.cast_mul, Rat.cast_sub]

theorem mean_pixels (l : List Rat) (hl : l ≠ []) : NF.mean (l.map (fun q : Rat => NF.fin q)) = .fin ((meanQ l : Rat) : ℝ) := by
  have hp := length_pos_real l hl
  unfold NF.mean
  rw [sum_fin l (fun q : Rat => NF.fin q) (fun q : Rat => (q : ℝ)) (fun _ _ => rfl), List.length_map, div_positive_fin _ _ hp, meanQ_real]

theorem std_pixels (l : List Rat) (hl : l ≠ []) : NF.std (l.map (fun q : Rat => NF.fin q)) = .fin (stdQ l) := by
  have hp := length_pos_real l hl
  unfold NF.std
  rw [mean_pixels l hl, List.map_map]
  unfold NF.mean
  rw [sum_fin l _ (fun q : Rat => ((q : ℝ) - (meanQ l : Rat)) * ((q : ℝ) - (meanQ l : Rat)))
    (fun v _ => by simp [sub, neg, add, mul, sub_eq_add_neg]), List.length_map, div_positive_fin _ _ hp, ← varQ_real]
  apply if_neg
  rw [not_lt, varQ_real]
  apply div_nonneg _ hp.le
  apply List.sum_nonneg
  intro v hv
  obtain ⟨w, -, rfl⟩ := List.mem_map.1 hv
  exact mul_self_nonneg _

theorem stdQ_zero_iff (l : List Rat) : stdQ l = 0 ↔ varQ l = 0 := by
  have h0 : (0 : ℝ) ≤ (varQ l : Rat) := by
    rw [varQ_real]
    apply div_nonneg _ (Nat.cast_nonneg _)
    apply List.sum_nonneg
    intro v hv
    obtain ⟨w, -, rfl⟩ := List.mem_map.1 hv
    exact mul_self_nonneg _
  unfold stdQ
  rw [Real.sqrt_eq_zero h0]
  exact_mod_cast Iff.rfl

theorem div_fin_nonzero (a b : ℝ) (h : b ≠ 0) : NF.div (.fin a) (.fin b) = .fin (a / b) := by
  simp [NF.div, npDiv, h]

/-- **C195.** Without infinite pixels SNR is that of `Model/Noise.lean`, also for no pixels and for uniform regions. -/
theorem C195_snr_finite (signal : List Rat) :
    snrOfX (signal.map (fun q : Rat => NF.fin q)) = Spec.scoreNF (snrOf signal) := by
  unfold snrOfX snrOf
  by_cases hl : signal = []
  · subst hl; rfl
  · rw [if_neg (by simpa using hl), if_neg hl, std_pixels _ hl, mean_pixels _ hl]
    by_cases hv : varQ signal = 0
    · rw [if_pos hv, if_pos (by rw [(stdQ_zero_iff _).2 hv])]; rfl
    · have hs : stdQ signal ≠ 0 := fun e => hv ((stdQ_zero_iff _).1 e)
      rw [if_neg hv, if_neg (by simpa using hs), div_fin_nonzero _ _ hs]; rfl

/-- **C195.** Without infinite pixels CNR is that of `Model/Noise.lean`. -/
theorem C195_cnr_finite (signal background : List Rat) :
    cnrOfX (signal.map (fun q : Rat => NF.fin q)) (background.map (fun q : Rat => NF.fin q)) = Spec.scoreNF (cnrOf signal background) := by
  unfold cnrOfX cnrOf
  by_cases hb : background = []
  · subst hb; rfl
  · rw [if_neg (by simpa using hb), if_neg hb, std_pixels _ hb, mean_pixels _ hb]
    by_cases hv : varQ background = 0
    · rw [if_pos hv, if_pos (by rw [(stdQ_zero_iff _).2 hv])]; rfl
    · have hs : stdQ background ≠ 0 := fun e => hv ((stdQ_zero_iff _).1 e)
      rw [if_neg hv, if_neg (by simpa using hs)]
      by_cases hl : signal = []
      · subst hl; rfl
      · rw [if_neg (by simpa using hl), if_neg hl, mean_pixels _ hl]
        show Except.ok (NF.div (.fin (_ + -_)) (.fin _)) = _
        rw [div_fin_nonzero _ _ hs, ← sub_eq_add_neg, ← Rat.cast_sub]; rfl

theorem mse_finite (x y : NDArray ℝ) :
    meanSquaredErrorX (Spec.finiteImage x) (Spec.finiteImage y) = Spec.scoreNF (meanSquaredError x y) := by
  unfold meanSquaredErrorX meanSquaredError
  by_cases hs : x.shape = y.shape
  · have h1 : ¬ ((Spec.finiteImage x).shape ≠ (Spec.finiteImage y).shape) := not_not.2 hs
    rw [if_neg h1, if_neg (not_not.2 hs)]
    have e : (Spec.finiteImage x).size = x.size := rfl
    rw [e]
    by_cases h0 : x.size = 0
    · rw [if_pos h0, if_pos h0]; rfl
    · rw [if_neg h0, if_neg h0]
      have hlen : (indices x.shape).length = x.size := by rw [length_indices]; rfl
      have hp : (0 : ℝ) < ((indices x.shape).length : ℕ) := by
        rw [hlen]; exact_mod_cast Nat.pos_of_ne_zero h0
      show Except.ok (NF.mean ((indices x.shape).map _)) = Except.ok _
      congr 1
      unfold NF.mean
      rw [sum_fin (indices x.shape) _ (fun i => (x.get i - y.get i) ^ 2)
        (fun i _ => by simp [Spec.finiteImage, sub, neg, add, mul, sub_eq_add_neg, sq]), List.length_map, div_positive_fin _ _ hp, hlen]
  · have h1 : (Spec.finiteImage x).shape ≠ (Spec.finiteImage y).shape := hs
    rw [if_pos h1, if_pos hs]; rfl

/-- **C195.** Without infinite pixels RMSE is that of `Model/Distance.lean`. -/
theorem C195_rmse_finite (x y : NDArray ℝ) : rmseX (Spec.finiteImage x) (Spec.finiteImage y) = Spec.scoreNF (rmse x y) := by
  unfold rmseX rmse
  rw [mse_finite]
  unfold meanSquaredError
  by_cases hs : x.shape = y.shape
  · rw [if_neg (not_not.2 hs)]
    by_cases h0 : x.size = 0
    · rw [if_pos h0]; rfl
    · rw [if_neg h0]
      show Except.ok (NF.sqrt (.fin _)) = Except.ok _
      rw [sqrt_fin _ (not_lt.2 (mse_nonneg x y))]
  · rw [if_pos hs]; rfl

/-- **C195.** Without infinite pixels PSNR is that of `Model/Distance.lean`. -/
theorem C195_psnr_finite (dr : ℝ) (x y : NDArray ℝ) :
    psnrX dr (Spec.finiteImage x) (Spec.finiteImage y) = Spec.psnrNF (psnr dr x y) := by
  unfold psnrX psnr
  have he : ((Spec.finiteImage x).shape = (Spec.finiteImage y).shape ∧ ∀ i ∈ indices (Spec.finiteImage x).shape,
      (Spec.finiteImage x).get i = (Spec.finiteImage y).get i ∧ (Spec.finiteImage x).get i ≠ .nan) ↔ arrayEqual x y := by
    unfold arrayEqual Spec.finiteImage
    simp
  by_cases hq : arrayEqual x y
  · rw [if_pos (he.2 hq), if_pos hq]; rfl
  · rw [if_neg (fun h => hq (he.1 h)), if_neg hq, mse_finite]
    unfold meanSquaredError
    by_cases hs : x.shape = y.shape
    · rw [if_neg (not_not.2 hs)]
      by_cases h0 : x.size = 0
      · rw [if_pos h0]; rfl
      · rw [if_neg h0]
        have hpos : 0 < ((indices x.shape).map (fun i => (x.get i - y.get i) ^ 2)).sum / x.size := by
          refine lt_of_le_of_ne (mse_nonneg x y) (fun e => hq ⟨hs, fun i hi => ?_⟩)
          have hz : ((indices x.shape).map (fun i => (x.get i - y.get i) ^ 2)).sum = 0 := by
            rcases div_eq_zero_iff.1 e.symm with h | h
            · exact h
            · exact absurd (by exact_mod_cast h) h0
          have := (List.all_zero_of_le_zero_le_of_sum_eq_zero (fun v hv => by
            obtain ⟨j, -, rfl⟩ := List.mem_map.1 hv; exact sq_nonneg _) hz) (List.mem_map.2 ⟨i, hi, rfl⟩)
          exact sub_eq_zero.1 (pow_eq_zero_iff (two_ne_zero) |>.1 this)
        generalize ((indices x.shape).map (fun i => (x.get i - y.get i) ^ 2)).sum / x.size = m at hpos
        show Except.ok (NF.mul (.fin 10) (log10X (NF.div (.fin (dr ^ 2)) (.fin m)))) = Spec.psnrNF (if dr ^ 2 / m = 0 then _ else _)
        rw [div_fin_nonzero _ _ hpos.ne']
        have hn : ¬ dr ^ 2 / m < 0 := not_lt.2 (div_nonneg (sq_nonneg _) hpos.le)
        show Except.ok (NF.mul (.fin 10) (if dr ^ 2 / m < 0 then .nan else if dr ^ 2 / m = 0 then .ninf else .fin (Real.logb 10 (dr ^ 2 / m)))) = _
        rw [if_neg hn]
        by_cases hz : dr ^ 2 / m = 0
        · rw [if_pos hz, if_pos hz]
          show Except.ok (NF.scale false 10) = _
          simp [NF.scale, Spec.psnrNF]
        · rw [if_neg hz, if_neg hz]; rfl
    · rw [if_pos hs]; rfl

example : snrOfX [.fin 2, .fin 4] = .ok (.fin 3) := by
  have h := C195_snr_finite [2, 4]
  have e : snrOf [2, 4] = .ok 3 := by
    have hv : varQ [2, 4] = 1 := by decide +kernel
    have hm : meanQ [2, 4] = 3 := by decide +kernel
    unfold snrOf stdQ
    rw [if_neg (by simp), hv, hm, if_neg (by norm_num)]
    norm_num
  rw [e] at h
  simpa [Spec.scoreNF] using h

end Viqa
