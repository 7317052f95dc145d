import Verif.Props.SsimAccuracy

/-! C199: SSIM is 1 only for identical images, as computed. -/

namespace Viqa

/-- **C199, partial**: if the computed SSIM (float32, default constants, pixels up to the data range) reaches 1, the exact
SSIM is at least 59/60, for every accurate filter and every order of the last additions, if at every position both windows
are nearly uniform or none is. Missing: images that are similar but not identical (`C199_refuted`). -/
theorem C199_partial {P Q : Type} [Fintype P] (k : P → ℝ) (hk : Weights k) (F : Q → (P → ℝ) → ℝ)
    (hF : ∀ q, Accurate k (F q)) (x y : Q → P → ℝ) (big norm dr : ℝ) (hn : 1 ≤ norm) (hn2 : norm ≤ 2)
    (hdr : 0 < dr) (hx : ∀ q i, |x q i| ≤ dr) (hy : ∀ q i, |y q i| ≤ dr)
    (rx : ∀ q i, Representable 24 (x q i)) (ry : ∀ q i, Representable 24 (y q i))
    (htx : ∀ q, SameTexture dr (norm * Spec.windowCov k (x q) (x q)) (norm * Spec.windowCov k (y q) (y q)))
    (pos : List Q) (hpos : pos.length ≤ 2 ^ 40) (t : Summation)
    (ht : t.leaves = pos.map (fun q => ssimRounded big norm (ssimConst (fl 53 (1 / 100)) dr) (ssimConst (fl 53 (3 / 100)) dr)
      (localStats (F q) (x q) (y q))))
    (h : 1 ≤ meanRounded 53 t) :
    59 / 60 ≤ Spec.mean (pos.map fun q => Spec.ssimIndex k norm (ssimConst (fl 53 (1 / 100)) dr)
      (ssimConst (fl 53 (3 / 100)) dr) (x q) (y q)) := by
  have := (abs_le.1 (C194_mean_partial k hk F hF x y big norm dr hn hn2 hdr hx hy rx ry htx pos hpos t ht)).2
  linarith

/-- A uniform image of 16 bits, and the same image with another pixel in the centre. -/
def uniformRef : Fin 7 × Fin 7 → ℚ := fun _ => 60000
def centreChanged : Fin 7 × Fin 7 → ℚ := fun q => if q = (3, 3) then 60049 else 60000

/-- The uniform filter of scipy: means of the columns, stored as float32, then the mean of these. -/
noncomputable def columnsThenRow (z : Fin 7 × Fin 7 → ℝ) : ℝ := ∑ j : Fin 7, 1 / 7 * fl 24 (∑ i : Fin 7, 1 / 7 * z (i, j))

theorem sum_seven_centre (a b : ℚ) (f : Fin 7 → ℝ) (hf : ∀ i, f i = ((if i = 3 then a else b : ℚ) : ℝ)) :
    ∑ i : Fin 7, 1 / 7 * f i = (((6 * b + a) / 7 : ℚ) : ℝ) := by
  simp only [Fin.sum_univ_seven, hf]
  norm_num [Fin.ext_iff]
  ring

theorem box_centre (a b : ℚ) (f : Fin 7 × Fin 7 → ℝ) (hf : ∀ q, f q = ((if q = (3, 3) then a else b : ℚ) : ℝ)) (v : ℚ)
    (hb : fl 24 ((6 * b + b) / 7) = b)
    (hv : fl 24 ((6 * b + fl 24 ((6 * b + a) / 7)) / 7) = v) : fl 24 (columnsThenRow f) = (v : ℝ) := by
  unfold columnsThenRow
  have hcol : ∀ j, fl 24 (∑ i : Fin 7, 1 / 7 * f (i, j)) = ((if j = 3 then fl 24 ((6 * b + a) / 7) else b : ℚ) : ℝ) := by
    intro j
    by_cases hj : j = 3
    · rw [if_pos hj, sum_seven_centre a b (fun i => f (i, j)) (fun i => by rw [hf]; simp [hj]), fl_ratCast]
    · rw [if_neg hj, sum_seven_centre b b (fun i => f (i, j)) (fun i => by rw [hf]; simp [hj]), ← fl_ratCast, hb]
  rw [sum_seven_centre _ _ _ hcol, ← hv, fl_ratCast]

theorem const_sixteen (k : ℚ) (v : ℚ) (h : fl 24 (fl 53 (fl 53 (fl 53 k * 65535) * fl 53 (fl 53 k * 65535))) = v) :
    ssimConst (fl 53 (k : ℝ)) 65535 = (v : ℝ) := by
  rw [← h]
  unfold ssimConst
  simp only [fl_ratCast, Rat.cast_mul, Rat.cast_ofNat]

theorem contrast_zero (big c : ℝ) (hc : 0 < c) : contrastRounded big c 0 0 = 1 := by
  unfold contrastRounded
  rw [if_neg (by simp), Real.sqrt_zero, fl_zero, mul_zero, fl_zero, zero_add, add_zero, fl_zero, zero_add,
    divRounded_ne _ _ (fl_pos (by norm_num : 1 ≤ 24) hc).ne', div_self (fl_pos (by norm_num : 1 ≤ 24) hc).ne', fl_one]
  rfl

theorem structure_zero (big c : ℝ) (hc : 0 < c) : structureRounded big c 0 0 0 = 1 := by
  unfold structureRounded
  rw [if_neg (by simp), Real.sqrt_zero, fl_zero, mul_zero, fl_zero, zero_add,
    divRounded_ne _ _ (fl_pos (by norm_num : 1 ≤ 24) hc).ne', div_self (fl_pos (by norm_num : 1 ≤ 24) hc).ne', fl_one]
  rfl

/-- The computed SSIM of the two images, which consist of one window, is exactly 1. -/
theorem C199_actual (big : ℝ) : ssimRounded big (fl 24 (49 / 48)) (ssimConst (fl 53 (1 / 100)) 65535)
    (ssimConst (fl 53 (3 / 100)) 65535)
    (localStats columnsThenRow (fun q => (uniformRef q : ℝ)) (fun q => (centreChanged q : ℝ))) = 1 := by
  have hn : fl 24 ((49 : ℝ) / 48) = ((8563371 / 8388608 : ℚ) : ℝ) := by
    rw [← fl_value 24 (49 / 48) _ (by decide +kernel)]; push_cast; rfl
  have hc1 : ssimConst (fl 53 ((1 : ℝ) / 100)) 65535 = ((fl 24 (fl 53 (fl 53 (fl 53 (1 / 100 : ℚ) * 65535) * fl 53 (fl 53 (1 / 100 : ℚ) * 65535))) : ℚ) : ℝ) := by
    have := const_sixteen (1 / 100) _ rfl
    push_cast at this ⊢
    exact this
  have hc2 : ssimConst (fl 53 ((3 : ℝ) / 100)) 65535 = ((fl 24 (fl 53 (fl 53 (fl 53 (3 / 100 : ℚ) * 65535) * fl 53 (fl 53 (3 / 100 : ℚ) * 65535))) : ℚ) : ℝ) := by
    have := const_sixteen (3 / 100) _ rfl
    push_cast at this ⊢
    exact this
  have hx : fl 24 (columnsThenRow (fun q => (uniformRef q : ℝ))) = ((60000 : ℚ) : ℝ) :=
    box_centre 60000 60000 _ (fun q => by unfold uniformRef; split <;> rfl) _ (by decide +kernel) (by decide +kernel)
  have hy : fl 24 (columnsThenRow (fun q => (centreChanged q : ℝ))) = ((60001 : ℚ) : ℝ) :=
    box_centre 60049 60000 _ (fun q => rfl) _ (by decide +kernel) (by decide +kernel)
  have hxx : fl 24 (columnsThenRow (fun q => fl 24 ((uniformRef q : ℝ) * (uniformRef q : ℝ)))) =
      ((fl 24 ((6 * fl 24 (60000 * 60000) + fl 24 ((6 * fl 24 (60000 * 60000) + fl 24 (60000 * 60000)) / 7)) / 7) : ℚ) : ℝ) :=
    box_centre (fl 24 (60000 * 60000)) (fl 24 (60000 * 60000)) _
      (fun q => by unfold uniformRef; rw [← Rat.cast_mul, ← fl_ratCast]; split <;> rfl) _ (by decide +kernel) rfl
  have hyy : fl 24 (columnsThenRow (fun q => fl 24 ((centreChanged q : ℝ) * (centreChanged q : ℝ)))) =
      ((fl 24 ((6 * fl 24 (60000 * 60000) + fl 24 ((6 * fl 24 (60000 * 60000) + fl 24 (60049 * 60049)) / 7)) / 7) : ℚ) : ℝ) :=
    box_centre (fl 24 (60049 * 60049)) (fl 24 (60000 * 60000)) _
      (fun q => by unfold centreChanged; rw [← Rat.cast_mul, ← fl_ratCast]; split <;> rfl) _ (by decide +kernel) rfl
  have hxy : fl 24 (columnsThenRow (fun q => fl 24 ((uniformRef q : ℝ) * (centreChanged q : ℝ)))) =
      ((fl 24 ((6 * fl 24 (60000 * 60000) + fl 24 ((6 * fl 24 (60000 * 60000) + fl 24 (60000 * 60049)) / 7)) / 7) : ℚ) : ℝ) :=
    box_centre (fl 24 (60000 * 60049)) (fl 24 (60000 * 60000)) _
      (fun q => by unfold uniformRef centreChanged; rw [← Rat.cast_mul, ← fl_ratCast]; split <;> rfl) _ (by decide +kernel) rfl
  have zero : ∀ a b c : ℚ, fl 24 ((8563371 / 8388608 : ℚ) * fl 24 (a - fl 24 (b * c))) = 0 →
      covRounded ((8563371 / 8388608 : ℚ) : ℝ) (a : ℝ) (b : ℝ) (c : ℝ) = 0 := by
    intro a b c h
    rw [covRounded_cast, h, Rat.cast_zero]
  rw [hn]
  unfold ssimRounded localStats
  simp only
  rw [hx, hy, hxx, hyy, hxy, zero _ _ _ (by decide +kernel), zero _ _ _ (by decide +kernel), zero _ _ _ (by decide +kernel), hc1, hc2]
  rw [luminance_cast _ _ _ _ (by decide +kernel)]
  have hlum : ∀ v : ℚ, v = 1 → (v : ℝ) = 1 := fun v hv => by rw [hv, Rat.cast_one]
  rw [hlum _ (by decide +kernel)]
  have hpos : (0 : ℝ) < ((fl 24 (fl 53 (fl 53 (fl 53 (3 / 100 : ℚ) * 65535) * fl 53 (fl 53 (3 / 100 : ℚ) * 65535))) : ℚ) : ℝ) := by
    rw [← Rat.cast_zero (α := ℝ), Rat.cast_lt]; decide +kernel
  rw [contrast_zero _ _ hpos, structure_zero _ _ (by linarith), one_mul, fl_one, one_mul, fl_one]

/-- What C199 asks for, for images of 16 bits with one window and the uniform filter. -/
def SeesDifferences : Prop := ∀ (x y : Fin 7 × Fin 7 → ℚ) (big : ℝ), (∀ q, ∃ n : ℕ, x q = n ∧ n < 2 ^ 16) →
  (∀ q, ∃ n : ℕ, y q = n ∧ n < 2 ^ 16) →
  meanRounded 53 (.leaf (ssimRounded big (fl 24 (49 / 48)) (ssimConst (fl 53 (1 / 100)) 65535) (ssimConst (fl 53 (3 / 100)) 65535)
    (localStats columnsThenRow (fun q => (x q : ℝ)) (fun q => (y q : ℝ))))) = 1 → x = y

/-- **C199, refuted**: a pixel that differs by 49 gray values in a bright image of 16 bits is not seen: SSIM is exactly 1. -/
theorem C199_refuted : ¬ SeesDifferences := by
  intro h
  have := h uniformRef centreChanged 0 (fun q => ⟨60000, by unfold uniformRef; norm_num, by norm_num⟩)
    (fun q => by
      unfold centreChanged
      split
      · exact ⟨60049, by norm_num, by norm_num⟩
      · exact ⟨60000, by norm_num, by norm_num⟩)
    (by
      rw [C199_actual]
      show viaDouble 53 ((1 : ℝ) / ((1 : ℕ) : ℝ)) = 1
      unfold viaDouble
      rw [Nat.cast_one, div_one, max_self, ← Int.cast_one, fl_int (by norm_num) 1 (by norm_num), fl_int (by norm_num) 1 (by norm_num)])
  have := congrFun this (3, 3)
  unfold uniformRef centreChanged at this
  norm_num at this

/-- The exact SSIM of the same two images is less than 1. -/
example : Spec.ssimIndex (fun _ : Fin 7 × Fin 7 => (1 : ℝ) / 49) (49 / 48) ((65535 / 100) ^ 2) ((3 * 65535 / 100) ^ 2)
    (fun q => (uniformRef q : ℝ)) (fun q => (centreChanged q : ℝ)) < 1 := by
  unfold Spec.ssimIndex
  rw [windowCov_eq _ _ _ box_weights, windowCov_eq _ _ _ box_weights, windowCov_eq _ _ _ box_weights]
  have hy : ∀ q : Fin 7 × Fin 7, (centreChanged q : ℝ) = if q = (3, 3) then 60049 else 60000 := by
    intro q; unfold centreChanged; split <;> norm_num
  unfold Spec.windowMean
  simp only [hy, uniformRef, Fintype.sum_prod_type, Fin.sum_univ_seven, Prod.mk.injEq]
  norm_num [Fin.ext_iff]

end Viqa
