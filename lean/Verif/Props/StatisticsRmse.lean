import Verif.Props.PixelStatistics
import Verif.Props.Distance

/-!
**C212** RMSE and the statistics of the two images.
-/

namespace Viqa

/-- Average over a list of positions. -/
noncomputable def avgOn {ι : Type} (l : List ι) (f : ι → ℝ) : ℝ := (l.map f).sum / l.length

section
variable {ι : Type} (l : List ι)

theorem avgOn_add (f g : ι → ℝ) : avgOn l (fun i => f i + g i) = avgOn l f + avgOn l g := by
  unfold avgOn
  rw [List.sum_map_add, add_div]

theorem avgOn_mul (c : ℝ) (f : ι → ℝ) : avgOn l (fun i => c * f i) = c * avgOn l f := by
  unfold avgOn
  rw [List.sum_map_mul_left, mul_div_assoc]

theorem avgOn_const (h : l ≠ []) (c : ℝ) : avgOn l (fun _ => c) = c := by
  unfold avgOn
  have : (l.length : ℝ) ≠ 0 := by simpa using h
  rw [List.map_const', List.sum_replicate, nsmul_eq_mul]
  field_simp

theorem avgOn_nonneg (f : ι → ℝ) (h : ∀ i ∈ l, 0 ≤ f i) : 0 ≤ avgOn l f := by
  unfold avgOn
  refine div_nonneg (List.sum_nonneg ?_) (Nat.cast_nonneg _)
  intro v hv
  obtain ⟨i, hi, rfl⟩ := List.mem_map.1 hv
  exact h i hi

theorem avgOn_cauchy (f g : ι → ℝ) :
    avgOn l (fun i => f i * g i) ^ 2 ≤ avgOn l (fun i => f i ^ 2) * avgOn l (fun i => g i ^ 2) := by
  have h : ∀ t : ℝ, 0 ≤ avgOn l (fun i => g i ^ 2) * (t * t) + (2 * avgOn l (fun i => f i * g i)) * t + avgOn l (fun i => f i ^ 2) := by
    intro t
    have e : avgOn l (fun i => (f i + t * g i) ^ 2) =
        avgOn l (fun i => g i ^ 2) * (t * t) + (2 * avgOn l (fun i => f i * g i)) * t + avgOn l (fun i => f i ^ 2) := by
      have e1 : (fun i => (f i + t * g i) ^ 2) = fun i => ((t * t) * g i ^ 2 + (2 * t) * (f i * g i)) + f i ^ 2 := by
        funext i; ring
      rw [e1, avgOn_add, avgOn_add, avgOn_mul, avgOn_mul]; ring
    rw [← e]
    exact avgOn_nonneg l _ (fun i _ => sq_nonneg _)
  have := discrim_le_zero h
  unfold discrim at this
  nlinarith [this]

/-- The mean square of a difference, split into offset and spread. -/
theorem avgOn_split (h : l ≠ []) (f g : ι → ℝ) :
    (avgOn l f - avgOn l g) ^ 2 +
        (Real.sqrt (avgOn l (fun i => (f i - avgOn l f) ^ 2)) - Real.sqrt (avgOn l (fun i => (g i - avgOn l g) ^ 2))) ^ 2
      ≤ avgOn l (fun i => (f i - g i) ^ 2) ∧
    avgOn l (fun i => (f i - g i) ^ 2) = (avgOn l f - avgOn l g) ^ 2 +
      avgOn l (fun i => ((f i - g i) - (avgOn l f - avgOn l g)) ^ 2) := by
  set a := avgOn l f with ha
  set b := avgOn l g with hb
  have hu : avgOn l (fun i => f i - a) = 0 := by
    have : (fun i => f i - a) = fun i => f i + (fun _ => -a) i := by funext i; ring
    rw [this, avgOn_add, avgOn_const l h, ← ha]; ring
  have hv : avgOn l (fun i => g i - b) = 0 := by
    have : (fun i => g i - b) = fun i => g i + (fun _ => -b) i := by funext i; ring
    rw [this, avgOn_add, avgOn_const l h, ← hb]; ring
  have e2 : avgOn l (fun i => (f i - g i) ^ 2) = (a - b) ^ 2 + avgOn l (fun i => ((f i - g i) - (a - b)) ^ 2) := by
    have : (fun i => (f i - g i) ^ 2) = fun i => (((f i - g i) - (a - b)) ^ 2 + (2 * (a - b)) * (f i - a)) +
        ((-(2 * (a - b))) * (g i - b) + (a - b) ^ 2) := by funext i; ring
    rw [this, avgOn_add, avgOn_add, avgOn_add, avgOn_mul, avgOn_mul, avgOn_const l h, hu, hv]; ring
  refine ⟨?_, e2⟩
  rw [e2]
  have e3 : avgOn l (fun i => ((f i - g i) - (a - b)) ^ 2) =
      avgOn l (fun i => (f i - a) ^ 2) + avgOn l (fun i => (g i - b) ^ 2) - 2 * avgOn l (fun i => (f i - a) * (g i - b)) := by
    have : (fun i => ((f i - g i) - (a - b)) ^ 2) = fun i => ((f i - a) ^ 2 + (g i - b) ^ 2) + (-2) * ((f i - a) * (g i - b)) := by
      funext i; ring
    rw [this, avgOn_add, avgOn_add, avgOn_mul]; ring
  rw [e3]
  have hc := avgOn_cauchy l (fun i => f i - a) (fun i => g i - b)
  have n1 : 0 ≤ avgOn l (fun i => (f i - a) ^ 2) := avgOn_nonneg l _ (fun i _ => sq_nonneg _)
  have n2 : 0 ≤ avgOn l (fun i => (g i - b) ^ 2) := avgOn_nonneg l _ (fun i _ => sq_nonneg _)
  generalize avgOn l (fun i => (f i - a) ^ 2) = vx at *
  generalize avgOn l (fun i => (g i - b) ^ 2) = vy at *
  generalize avgOn l (fun i => (f i - a) * (g i - b)) = c at *
  have s1 := Real.sq_sqrt n1
  have s2 := Real.sq_sqrt n2
  have hle : c ≤ Real.sqrt vx * Real.sqrt vy := by
    refine le_of_abs_le (abs_le_of_sq_le_sq ?_ (mul_nonneg (Real.sqrt_nonneg _) (Real.sqrt_nonneg _)))
    rw [mul_pow, s1, s2]; exact hc
  nlinarith

/-- No single difference exceeds the root of the number of positions times the root mean square. -/
theorem avgOn_single (f : ι → ℝ) (i : ι) (hi : i ∈ l) : |f i| ≤ Real.sqrt l.length * Real.sqrt (avgOn l (fun i => f i ^ 2)) := by
  have hp : (0 : ℝ) < l.length := by
    have := List.length_pos_of_mem hi
    exact_mod_cast this
  rw [← Real.sqrt_mul hp.le]
  refine Real.abs_le_sqrt ?_
  unfold avgOn
  rw [mul_div_cancel₀ _ hp.ne']
  refine List.single_le_sum ?_ _ (List.mem_map.2 ⟨i, hi, rfl⟩)
  intro v hv
  obtain ⟨j, -, rfl⟩ := List.mem_map.1 hv
  exact sq_nonneg _

end

theorem pixMean_image (x : NDArray ℝ) : pixMean x.toList = avgOn (indices x.shape) x.get := by
  unfold pixMean avgOn NDArray.toList
  rw [List.length_map]

theorem pixStd_image (x : NDArray ℝ) :
    pixStd x.toList = Real.sqrt (avgOn (indices x.shape) (fun i => (x.get i - avgOn (indices x.shape) x.get) ^ 2)) := by
  unfold pixStd pixVar pixMoment
  rw [pixMean_image]
  unfold pixMean avgOn NDArray.toList
  rw [List.map_map, List.length_map]
  rfl

theorem rmse_avgOn {x y : NDArray ℝ} {r : ℝ} (h : rmse x y = .ok r) :
    x.shape = y.shape ∧ indices x.shape ≠ [] ∧ r = Real.sqrt (avgOn (indices x.shape) (fun i => (x.get i - y.get i) ^ 2)) := by
  unfold rmse meanSquaredError at h
  split_ifs at h with h1 h2
  have hl : (indices x.shape).length = x.size := by rw [length_indices]; rfl
  refine ⟨not_not.1 h1, fun e => h2 (by rw [← hl, e]; rfl), ?_⟩
  cases h
  unfold avgOn
  rw [hl]

/-- **C212.** The means and the standard deviations of two images tell at least how far they are apart: RMSE is at least the length of the
vector of both differences. -/
theorem C212_statistics (x y : NDArray ℝ) (r : ℝ) (h : rmse x y = .ok r) :
    (pixMean x.toList - pixMean y.toList) ^ 2 + (pixStd x.toList - pixStd y.toList) ^ 2 ≤ r ^ 2 ∧
    |pixMean x.toList - pixMean y.toList| ≤ r ∧ |pixStd x.toList - pixStd y.toList| ≤ r := by
  obtain ⟨hs, hne, rfl⟩ := rmse_avgOn h
  have key := (avgOn_split (indices x.shape) hne x.get y.get).1
  rw [pixMean_image, pixMean_image, pixStd_image, pixStd_image, ← hs]
  have n0 : 0 ≤ avgOn (indices x.shape) (fun i => (x.get i - y.get i) ^ 2) := avgOn_nonneg _ _ (fun i _ => sq_nonneg _)
  rw [Real.sq_sqrt n0]
  refine ⟨key, Real.abs_le_sqrt ?_, Real.abs_le_sqrt ?_⟩ <;> nlinarith [sq_nonneg (avgOn (indices x.shape) x.get - avgOn (indices x.shape) y.get),
    sq_nonneg (Real.sqrt (avgOn (indices x.shape) (fun i => (x.get i - avgOn (indices x.shape) x.get) ^ 2)) -
      Real.sqrt (avgOn (indices x.shape) (fun i => (y.get i - avgOn (indices x.shape) y.get) ^ 2)))]

/-- **C212.** The square of RMSE is the square of the offset plus the variance of the difference image: after removing the offset,
RMSE is the standard deviation of the difference image. -/
theorem C212_offset (x y : NDArray ℝ) (r : ℝ) (h : rmse x y = .ok r) :
    r ^ 2 = (pixMean x.toList - pixMean y.toList) ^ 2 + pixVar (NDArray.zip (· - ·) x y).toList ∧
    (pixMean x.toList = pixMean y.toList → r = pixStd (NDArray.zip (· - ·) x y).toList) := by
  obtain ⟨hs, hne, rfl⟩ := rmse_avgOn h
  have key := (avgOn_split (indices x.shape) hne x.get y.get).2
  have n0 : 0 ≤ avgOn (indices x.shape) (fun i => (x.get i - y.get i) ^ 2) := avgOn_nonneg _ _ (fun i _ => sq_nonneg _)
  have hd : avgOn (indices x.shape) (NDArray.zip (· - ·) x y).get = avgOn (indices x.shape) x.get - avgOn (indices x.shape) y.get := by
    have : (NDArray.zip (· - ·) x y).get = fun i => x.get i + (-1) * y.get i := by
      funext i; show x.get i - y.get i = _; ring
    rw [this, avgOn_add, avgOn_mul]; ring
  have hv : pixVar (NDArray.zip (· - ·) x y).toList =
      avgOn (indices x.shape) (fun i => ((x.get i - y.get i) - (avgOn (indices x.shape) x.get - avgOn (indices x.shape) y.get)) ^ 2) := by
    unfold pixVar pixMoment
    have e : pixMean (NDArray.zip (· - ·) x y).toList = avgOn (indices x.shape) x.get - avgOn (indices x.shape) y.get :=
      (pixMean_image _).trans hd
    rw [e]
    unfold pixMean avgOn NDArray.toList
    rw [List.map_map, List.length_map]
    rfl
  have e1 : Real.sqrt (avgOn (indices x.shape) (fun i => (x.get i - y.get i) ^ 2)) ^ 2 =
      (pixMean x.toList - pixMean y.toList) ^ 2 + pixVar (NDArray.zip (· - ·) x y).toList := by
    rw [Real.sq_sqrt n0, key, hv, pixMean_image, pixMean_image, ← hs]
  refine ⟨e1, fun hm => ?_⟩
  rw [hm, sub_self] at e1
  unfold pixStd
  rw [show pixVar (NDArray.zip (· - ·) x y).toList = Real.sqrt (avgOn (indices x.shape) (fun i => (x.get i - y.get i) ^ 2)) ^ 2 by
    rw [e1]; ring, Real.sqrt_sq (Real.sqrt_nonneg _)]

/-- **C212 (partial).** For smallest and largest pixel only the square root of the number of pixels times RMSE is a bound. -/
theorem C212_extrema_partial (x y : NDArray ℝ) (r lo lo' hi hi' : ℝ) (h : rmse x y = .ok r) (h1 : pixMin x.toList = .ok lo)
    (h2 : pixMin y.toList = .ok lo') (h3 : pixMax x.toList = .ok hi) (h4 : pixMax y.toList = .ok hi') :
    |lo - lo'| ≤ Real.sqrt x.size * r ∧ |hi - hi'| ≤ Real.sqrt x.size * r := by
  obtain ⟨hs, hne, rfl⟩ := rmse_avgOn h
  have hl : (indices x.shape).length = x.size := by rw [length_indices]; rfl
  have key := avgOn_single (indices x.shape) (fun i => x.get i - y.get i)
  rw [hl] at key
  generalize Real.sqrt x.size * Real.sqrt (avgOn (indices x.shape) (fun i => (x.get i - y.get i) ^ 2)) = B at key ⊢
  obtain ⟨a1, b1⟩ := (pixMin_ok_iff _ _).1 h1
  obtain ⟨a2, b2⟩ := (pixMin_ok_iff _ _).1 h2
  obtain ⟨a3, b3⟩ := (pixMax_ok_iff _ _).1 h3
  obtain ⟨a4, b4⟩ := (pixMax_ok_iff _ _).1 h4
  have mx : ∀ i ∈ indices x.shape, x.get i ∈ x.toList := fun i hi => List.mem_map.2 ⟨i, hi, rfl⟩
  have my : ∀ i ∈ indices x.shape, y.get i ∈ y.toList := fun i hi => List.mem_map.2 ⟨i, by rw [← hs]; exact hi, rfl⟩
  obtain ⟨i1, m1, rfl⟩ := List.mem_map.1 a1
  obtain ⟨i2, m2, rfl⟩ := List.mem_map.1 a2
  obtain ⟨i3, m3, rfl⟩ := List.mem_map.1 a3
  obtain ⟨i4, m4, rfl⟩ := List.mem_map.1 a4
  rw [← hs] at m2 m4
  have k1 := abs_le.1 (key i1 m1)
  have k2 := abs_le.1 (key i2 m2)
  have k3 := abs_le.1 (key i3 m3)
  have k4 := abs_le.1 (key i4 m4)
  have c1 := b1 _ (mx i2 m2)
  have c2 := b2 _ (my i1 m1)
  have c3 := b3 _ (mx i4 m4)
  have c4 := b4 _ (my i3 m3)
  exact ⟨abs_le.2 ⟨by linarith, by linarith⟩, abs_le.2 ⟨by linarith, by linarith⟩⟩

theorem sorted_shift (l : List (List Nat)) (f g : List Nat → ℝ) (B : ℝ) (hB : ∀ i ∈ l, g i ≤ f i + B) (k : Nat) (hk : k < l.length) :
    (pixSorted (l.map g)).getD k 0 ≤ (pixSorted (l.map f)).getD k 0 + B := by
  by_contra hc
  rw [not_le] at hc
  set c := (pixSorted (l.map f)).getD k 0 with hcdef
  have h1 := pixSorted_count_le (l.map f) k (by simpa using hk) c le_rfl
  have h2 := pixSorted_count_ge (l.map g) k (by simpa using hk) _ le_rfl
  rw [List.length_map] at h2
  rw [List.countP_map] at h1 h2
  have h3 : l.countP ((fun x => decide (x ≤ c)) ∘ f) ≤ l.countP (fun i => decide (g i ≤ c + B)) := by
    refine List.countP_mono_left (fun i hi h => ?_)
    simp only [Function.comp_apply, decide_eq_true_eq] at h ⊢
    have := hB i hi
    linarith
  have h4 : l.countP ((fun x => decide ((pixSorted (l.map g)).getD k 0 ≤ x)) ∘ g) ≤ l.countP (fun i => ! decide (g i ≤ c + B)) := by
    refine List.countP_mono_left (fun i _ h => ?_)
    simp only [Function.comp_apply, decide_eq_true_eq, Bool.not_eq_true', decide_eq_false_iff_not] at h ⊢
    linarith
  have h5 : l.length = l.countP (fun i => decide (g i ≤ c + B)) + l.countP (fun i => ! decide (g i ≤ c + B)) := by
    have := List.length_eq_countP_add_countP (fun i => decide (g i ≤ c + B)) (l := l)
    have e : (fun i => ! decide (g i ≤ c + B)) = fun a => decide (c + B < g a) := by
      funext a
      rw [← decide_not, decide_eq_decide, not_le]
    rw [e]
    simpa using this
  omega

theorem median_shift (l : List (List Nat)) (hl : l ≠ []) (f g : List Nat → ℝ) (B : ℝ) (hB : ∀ i ∈ l, g i ≤ f i + B) :
    pixMedian (l.map g) ≤ pixMedian (l.map f) + B := by
  have hp : 0 < l.length := List.length_pos_iff.2 hl
  have k1 := sorted_shift l f g B hB (l.length / 2) (by omega)
  have k2 := sorted_shift l f g B hB (l.length / 2 - 1) (by omega)
  unfold pixMedian
  simp only [List.length_map]
  split_ifs
  · exact k1
  · linarith

/-- **C212 (partial).** The same for the median. -/
theorem C212_median_partial (x y : NDArray ℝ) (r : ℝ) (h : rmse x y = .ok r) :
    |pixMedian x.toList - pixMedian y.toList| ≤ Real.sqrt x.size * r := by
  obtain ⟨hs, hne, rfl⟩ := rmse_avgOn h
  have hl : (indices x.shape).length = x.size := by rw [length_indices]; rfl
  have key := avgOn_single (indices x.shape) (fun i => x.get i - y.get i)
  rw [hl] at key
  generalize Real.sqrt x.size * Real.sqrt (avgOn (indices x.shape) (fun i => (x.get i - y.get i) ^ 2)) = B at key ⊢
  have a := median_shift (indices x.shape) hne x.get y.get B (fun i hi => by have := abs_le.1 (key i hi); linarith)
  have b := median_shift (indices x.shape) hne y.get x.get B (fun i hi => by have := abs_le.1 (key i hi); linarith)
  have e : y.toList = (indices x.shape).map y.get := by unfold NDArray.toList; rw [← hs]
  rw [e]
  show |pixMedian ((indices x.shape).map x.get) - _| ≤ B
  exact abs_le.2 ⟨by linarith, by linarith⟩

/-- Three pixels. -/
def threePixels (a b c : ℝ) : NDArray ℝ := ⟨[3], fun i => match i with | [0] => a | [1] => b | _ => c⟩

theorem threePixels_list (a b c : ℝ) : (threePixels a b c).toList = [a, b, c] := rfl

theorem threePixels_rmse (a b c a' b' c' : ℝ) :
    rmse (threePixels a b c) (threePixels a' b' c') = .ok (Real.sqrt (((a - a') ^ 2 + (b - b') ^ 2 + (c - c') ^ 2) / 3)) := by
  unfold rmse meanSquaredError
  have e1 : (threePixels a b c).shape = (threePixels a' b' c').shape := rfl
  have e2 : (threePixels a b c).size = 3 := rfl
  rw [if_neg (not_not.2 e1), e2, if_neg (by norm_num)]
  have e3 : indices (threePixels a b c).shape = [[0], [1], [2]] := (by decide : indices [3] = [[0], [1], [2]])
  rw [e3]
  simp only [threePixels, List.map_cons, List.map_nil, List.sum_cons, List.sum_nil]
  norm_num [add_assoc]

theorem median_three (a b c : ℝ) (h : a ≤ b) (h' : b ≤ c) : pixMedian [a, b, c] = b := by
  have e : pixSorted [a, b, c] = [a, b, c] := by
    refine pixSorted_unique _ _ (List.Perm.refl _) ?_
    simp [h, h', h.trans h']
  unfold pixMedian
  rw [e]
  simp

/-- **C212 is false** for the median and for the largest pixel: they can differ by more than RMSE, here by the square root of the
number of pixels times RMSE, so the bound of the partial theorems cannot be improved. -/
theorem C212_refuted : rmse (threePixels 0 0 3) (threePixels 0 3 3) = .ok (Real.sqrt 3) ∧ Real.sqrt 3 < 3 ∧
    |pixMedian (threePixels 0 0 3).toList - pixMedian (threePixels 0 3 3).toList| = 3 ∧
    rmse (threePixels 0 0 3) (threePixels 0 0 0) = .ok (Real.sqrt 3) ∧
    pixMax (threePixels 0 0 3).toList = .ok 3 ∧ pixMax (threePixels 0 0 0).toList = .ok 0 := by
  refine ⟨?_, ?_, ?_, ?_, ?_, ?_⟩
  · rw [threePixels_rmse]; norm_num
  · rw [Real.sqrt_lt' (by norm_num)]; norm_num
  · rw [threePixels_list, threePixels_list, median_three _ _ _ le_rfl (by norm_num), median_three _ _ _ (by norm_num) le_rfl]
    norm_num
  · rw [threePixels_rmse]; norm_num
  · rw [threePixels_list, pixMax_ok_iff]; norm_num
  · rw [threePixels_list, pixMax_ok_iff]; norm_num

/-- The bounds can be attained: an offset of 2 with the same spread. -/
example : rmse (threePixels 0 1 5) (threePixels 2 3 7) = .ok 2 ∧
    |pixMean (threePixels 0 1 5).toList - pixMean (threePixels 2 3 7).toList| = 2 := by
  constructor
  · rw [threePixels_rmse]
    congr 1
    rw [show (((0 : ℝ) - 2) ^ 2 + (1 - 3) ^ 2 + (5 - 7) ^ 2) / 3 = 2 ^ 2 by norm_num, Real.sqrt_sq (by norm_num)]
  · rw [threePixels_list, threePixels_list]
    norm_num [pixMean]

end Viqa
