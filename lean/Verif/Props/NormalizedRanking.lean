import Verif.Props.BitDepth
import Verif.Props.Stability
import Verif.Props.Unit

/-! C205: normalization and the ranking of images. -/

namespace Viqa
open Spec

/-- A float32, float64 or unsigned integer image with the range `(m, M)` of gray values, not uniform. -/
structure PlainImage (img : Image Rat) (m M : Rat) : Prop where
  type : (img.dtype = .f32 ∨ img.dtype = .f64) ∨ img.dtype.isUnsigned = true ∧ IntegerPixels img.arr 0 (2 ^ img.dtype.bits - 1)
  range : HasRange img.arr m M
  lt : m < M

/-- How far the range of gray values of a modified image is from that of the reference. -/
def Spec.rangeShift (m M m' M' : Rat) : Rat := max |m' - m| |M' - M|

theorem PlainImage.unit {img : Image Rat} {m M : Rat} (h : PlainImage img m M) (ident : Bool) (inp : Option (Int × Int)) :
    ∃ r, normalizeData ident img (0, 1) inp true = ⟨[], .ok ⟨.f32, r⟩⟩ ∧ r.shape = img.arr.shape ∧
      ∀ i, InShape img.arr.shape i → r.get i = (img.arr.get i - m) / (M - m) := by
  rcases h.type with ht | ⟨hu, hp⟩
  · have hfl : img.dtype.isFloating = true := by rcases ht with h | h <;> rw [h] <;> rfl
    obtain ⟨r, e, p⟩ := C11_linear_map_partial ident img 1 inp m M h.range h.lt hfl (.inl rfl) (by
      intro h'
      rcases ht with h | h <;> rw [h] at h' <;> cases h')
    refine ⟨r, e, p.1, fun i hi => ?_⟩
    rw [p.2 i hi]
    simp [quantize, linearTo]
  · obtain ⟨a, ha, ha0, ha1⟩ := hp _ h.range.1.1
    obtain ⟨b, hb, hb0, hb1⟩ := hp _ h.range.2.1
    have hr := h.range
    have hl := h.lt
    rw [ha, hb] at hr hl
    obtain ⟨r, e, p⟩ := C13_documented_formula_partial ident img 1 inp a b hr (by exact_mod_cast hl) hu hp (.inl rfl) (fun _ => by decide)
      (fun _ h => by cases h) (by
        have : (2 : Int) ^ img.dtype.bits ≤ 2 ^ productBits img.dtype.bits 1 := pow_le_pow_right₀ (by norm_num) (le_max_left _ _)
        omega)
    refine ⟨r, e, p.1, fun i hi => ?_⟩
    rw [p.2 i hi, ha, hb]
    simp [quantize, linearTo]

theorem PlainImage.size {img : Image Rat} {m M : Rat} (h : PlainImage img m M) : img.arr.size ≠ 0 := by
  obtain ⟨i, hi, -⟩ := h.range.1.1
  intro h
  have h1 := (mem_indices _ _).2 hi
  have h2 : (indices img.arr.shape).length = img.arr.size := length_indices _
  rw [h] at h2
  rw [List.length_eq_zero_iff.1 h2] at h1
  simp at h1

/-- The gray value of a pixel relative to the range of its own image and relative to that of the reference. -/
theorem unit_near (m M m' M' p : ℝ) (hlt : m < M) (hlt' : m' < M') (h0 : m' ≤ p) (h1 : p ≤ M') :
    |(p - m') / (M' - m') - (1 / (M - m) * p + -m / (M - m))| ≤ max |m' - m| |M' - M| / (M - m) := by
  have hd : 0 < M - m := by linarith
  have hd' : 0 < M' - m' := by linarith
  set t := (p - m') / (M' - m') with ht
  have t0 : 0 ≤ t := div_nonneg (by linarith) hd'.le
  have t1 : t ≤ 1 := (div_le_one hd').2 (by linarith)
  have hp : p = m' + t * (M' - m') := by
    rw [ht]; field_simp; ring
  have e : t - (1 / (M - m) * p + -m / (M - m)) = -((1 - t) * (m' - m) + t * (M' - M)) / (M - m) := by
    rw [hp]; field_simp; ring
  rw [e, abs_div, abs_neg, abs_of_pos hd]
  refine div_le_div_of_nonneg_right ?_ hd.le
  calc |(1 - t) * (m' - m) + t * (M' - M)| ≤ |(1 - t) * (m' - m)| + |t * (M' - M)| := abs_add_le _ _
    _ = (1 - t) * |m' - m| + t * |M' - M| := by rw [abs_mul, abs_mul, abs_of_nonneg t0, abs_of_nonneg (by linarith : 0 ≤ 1 - t)]
    _ ≤ (1 - t) * max |m' - m| |M' - M| + t * max |m' - m| |M' - M| :=
        add_le_add (mul_le_mul_of_nonneg_left (le_max_left _ _) (by linarith)) (mul_le_mul_of_nonneg_left (le_max_right _ _) t0)
    _ = max |m' - m| |M' - M| := by ring

theorem range_bounds {a : NDArray Rat} {m M : Rat} (h : HasRange a m M) (i : List Nat) (hi : InShape a.shape i) : m ≤ a.get i ∧ a.get i ≤ M :=
  ⟨h.1.2 ⟨i, hi, rfl⟩, h.2.2 ⟨i, hi, rfl⟩⟩

/-- **C205.** RMSE of normalized images, measured in gray values of the reference, differs from that of the images by at most
the shift of the range of gray values. -/
theorem C205_rmse (ident : Bool) (inp : Option (Int × Int)) (x y : Image Rat) (m M m' M' : Rat) (hx : PlainImage x m M) (hy : PlainImage y m' M')
    (hs : y.arr.shape = x.arr.shape) :
    ∃ (x1 y1 : NDArray Rat) (r r1 : ℝ), normalizeData ident x (0, 1) inp true = ⟨[], .ok ⟨.f32, x1⟩⟩ ∧
      normalizeData ident y (0, 1) inp true = ⟨[], .ok ⟨.f32, y1⟩⟩ ∧ rmse (realImage x.arr) (realImage y.arr) = .ok r ∧
      rmse (realImage x1) (realImage y1) = .ok r1 ∧ |(M - m) * r1 - r| ≤ rangeShift m M m' M' := by
  obtain ⟨x1, ex, sx, px⟩ := hx.unit ident inp
  obtain ⟨y1, ey, sy, py⟩ := hy.unit ident inp
  have hd : (0 : ℝ) < M - m := by exact_mod_cast sub_pos.2 hx.lt
  have hc : Comparable (realImage x.arr) (realImage y.arr) := ⟨hs.symm, hx.size⟩
  obtain ⟨r, hr, -⟩ := C28_nonneg _ _ hc
  have ha := C28_affine _ _ hc (1 / (M - m)) (-m / (M - m)) r hr
  rw [abs_of_pos (by positivity)] at ha
  have hc' : Comparable (affine (1 / (M - m)) (-m / (M - m)) (realImage x.arr)) (affine (1 / (M - m)) (-m / (M - m)) (realImage y.arr)) := hc
  have hc1 : Comparable (realImage x1) (realImage y1) := ⟨by show x1.shape = y1.shape; rw [sx, sy, hs], by
    show NDArray.size ⟨x1.shape, _⟩ ≠ 0; unfold NDArray.size; simp only; rw [sx]; exact hx.size⟩
  obtain ⟨r1, hr1, -⟩ := C28_nonneg _ _ hc1
  refine ⟨x1, y1, r, r1, ex, ey, hr, hr1, ?_⟩
  have hsx : ∀ ε > 0, Near ε (affine (1 / (M - m)) (-m / (M - m)) (realImage x.arr)) (realImage x1) := by
    intro ε hε
    refine ⟨sx, fun i hi => ?_⟩
    simp only [realImage, affine, NDArray.map]
    rw [px i hi]
    push_cast
    rw [show ((x.arr.get i : ℝ) - m) / (M - m) - (1 / (M - m) * x.arr.get i + -m / (M - m)) = 0 by field_simp; ring, abs_zero]
    exact hε
  have hsy : ∀ ε > 0, Near (rangeShift m M m' M' / (M - m) + ε) (affine (1 / (M - m)) (-m / (M - m)) (realImage y.arr)) (realImage y1) := by
    intro ε hε
    refine ⟨sy, fun i hi => ?_⟩
    simp only [realImage, affine, NDArray.map]
    rw [py i hi]
    obtain ⟨b0, b1⟩ := range_bounds hy.range i hi
    have k := unit_near m M m' M' (y.arr.get i) (by exact_mod_cast hx.lt) (by exact_mod_cast hy.lt) (by exact_mod_cast b0) (by exact_mod_cast b1)
    unfold rangeShift
    push_cast
    linarith
  have key : |r1 - 1 / (M - m) * r| ≤ rangeShift m M m' M' / (M - m) := by
    refine le_of_forall_pos_le_add fun ε hε => ?_
    obtain ⟨v, hv, hle⟩ := C154_rmse _ _ _ _ (ε / 2) _ hc' (hsx (ε / 2) (by linarith)) (hsy (ε / 2) (by linarith)) _ ha
    rw [hr1] at hv
    cases hv
    linarith
  have e : ((M : ℝ) - m) * r1 - r = (M - m) * (r1 - 1 / (M - m) * r) := by field_simp
  rw [e, abs_mul, abs_of_pos hd]
  calc ((M : ℝ) - m) * |r1 - 1 / (M - m) * r| ≤ (M - m) * (rangeShift m M m' M' / (M - m)) := mul_le_mul_of_nonneg_left key hd.le
    _ = rangeShift m M m' M' := by field_simp

/-- RMSE of two images and of the normalized images. -/
def RmseBoth (x y : Image Rat) (r r1 : ℝ) : Prop :=
  ∃ x1 y1 : NDArray Rat, normalizeData false x (0, 1) none true = ⟨[], .ok ⟨.f32, x1⟩⟩ ∧ normalizeData false y (0, 1) none true = ⟨[], .ok ⟨.f32, y1⟩⟩ ∧
    rmse (realImage x.arr) (realImage y.arr) = .ok r ∧ rmse (realImage x1) (realImage y1) = .ok r1

theorem rmseBoth_bound {x y : Image Rat} {m M m' M' : Rat} (hx : PlainImage x m M) (hy : PlainImage y m' M') (hs : y.arr.shape = x.arr.shape) {r r1 : ℝ}
    (h : RmseBoth x y r r1) : |(M - m) * r1 - r| ≤ rangeShift m M m' M' := by
  obtain ⟨x1, y1, ex, ey, er, er1⟩ := h
  obtain ⟨x2, y2, r2, r3, ex', ey', er', er1', hle⟩ := C205_rmse false none x y m M m' M' hx hy hs
  rw [ex] at ex'
  cases ex'
  rw [ey] at ey'
  cases ey'
  rw [er] at er'
  cases er'
  rw [er1] at er1'
  cases er1'
  exact hle

/-- What C205 asks for: the better one of two images is the better one after normalization. `ok` is a condition on the ranges of gray
values of the reference and the two images, and on the two scores. -/
def KeepsRanking (ok : Rat × Rat → Rat × Rat → Rat × Rat → ℝ → ℝ → Prop) : Prop :=
  ∀ (x y z : Image Rat) (m M m' M' m'' M'' : Rat), PlainImage x m M → PlainImage y m' M' → PlainImage z m'' M'' →
    y.arr.shape = x.arr.shape → z.arr.shape = x.arr.shape → ∀ r s r1 s1 : ℝ, RmseBoth x y r r1 → RmseBoth x z s s1 →
    ok (m, M) (m', M') (m'', M'') r s → r < s → r1 ≤ s1

/-- **C205 (partial).** The ranking is kept if the scores differ by more than the shifts of the ranges of gray values. Missing: other images, see
`C205_refuted`. -/
theorem C205_ranking_partial :
    KeepsRanking (fun a b c r s => r + rangeShift a.1 a.2 b.1 b.2 + rangeShift a.1 a.2 c.1 c.2 ≤ s) := by
  intro x y z m M m' M' m'' M'' hx hy hz hs hs' r s r1 s1 h1 h2 hok hlt
  have b1 := abs_le.1 (rmseBoth_bound hx hy hs h1)
  have b2 := abs_le.1 (rmseBoth_bound hx hz hs' h2)
  have hd : (0 : ℝ) < M - m := by exact_mod_cast sub_pos.2 hx.lt
  simp only at hok
  have : ((M : ℝ) - m) * r1 ≤ (M - m) * s1 := by linarith [b1.2, b2.1]
  exact le_of_mul_le_mul_left this hd

/-- **C205 (partial).** For images with the darkest and the brightest gray value of the reference normalization divides RMSE by the difference of these
gray values. -/
theorem C205_same_range_partial (x y : Image Rat) (m M : Rat) (hx : PlainImage x m M) (hy : PlainImage y m M) (hs : y.arr.shape = x.arr.shape) (r r1 : ℝ)
    (h : RmseBoth x y r r1) : r1 = r / (M - m) := by
  have hd : (0 : ℝ) < M - m := by exact_mod_cast sub_pos.2 hx.lt
  have b := rmseBoth_bound hx hy hs h
  rw [rangeShift, sub_self, sub_self, max_self, abs_zero, Rat.cast_zero] at b
  have := abs_eq_zero.1 (le_antisymm b (abs_nonneg _))
  rw [eq_div_iff hd.ne']
  linarith

/-- **C205 (partial).** PSNR of such images with the data range 1 is that of the original images with this difference as data range, and SSIM
alike if the darkest gray value is 0. -/
theorem C205_psnr_ssim_partial (ident : Bool) (inp : Option (Int × Int)) (x y : Image Rat) (m M : Rat) (hx : PlainImage x m M) (hy : PlainImage y m M)
    (hs : y.arr.shape = x.arr.shape) :
    ∃ x1 y1 : NDArray Rat, normalizeData ident x (0, 1) inp true = ⟨[], .ok ⟨.f32, x1⟩⟩ ∧
      normalizeData ident y (0, 1) inp true = ⟨[], .ok ⟨.f32, y1⟩⟩ ∧
      psnr 1 (realImage x1) (realImage y1) = psnr (M - m) (realImage x.arr) (realImage y.arr) ∧
      (m = 0 → ∀ (big : ℝ) (a : SsimArgs), BorderHarmless a →
        structuralSimilarity big a 1 (realImage x1) (realImage y1) = structuralSimilarity big a M (realImage x.arr) (realImage y.arr)) := by
  obtain ⟨x1, ex, sx, px⟩ := hx.unit ident inp
  obtain ⟨y1, ey, sy, py⟩ := hy.unit ident inp
  have hd : (0 : ℝ) < M - m := by exact_mod_cast sub_pos.2 hx.lt
  have hc : Comparable (realImage x.arr) (realImage y.arr) := ⟨hs.symm, hx.size⟩
  refine ⟨x1, y1, ex, ey, ?_, ?_⟩
  · have k := C29_scale (M - m) (1 / (M - m)) (-m / (M - m)) (by positivity) _ _ hc
    rw [one_div_mul_cancel hd.ne'] at k
    rw [← k]
    refine psnr_same _ _ _ _ _ (by show x1.shape = y1.shape; rw [sx, sy, hs]) ⟨sx, fun i hi => ?_⟩ ⟨sy, fun i hi => ?_⟩
    · simp only [realImage, affine, NDArray.map] at hi ⊢
      rw [px i (sx ▸ hi)]
      push_cast
      field_simp
      ring
    · simp only [realImage, affine, NDArray.map] at hi ⊢
      rw [py i (sy ▸ hi)]
      push_cast
      field_simp
      ring
  · rintro rfl big a ha
    have hM : (M : ℝ) ≠ 0 := by
      have := hd.ne'
      simpa using this
    have k := C128_ssim big M (1 / M) (by positivity) a ha (realImage x.arr) (realImage y.arr) hs.symm
    rw [one_div_mul_cancel hM] at k
    rw [← k]
    have gx : (realImage x1).Same (scaled (1 / (M : ℝ)) (realImage x.arr)) := ⟨sx, fun i hi => by
      simp only [realImage, scaled] at hi ⊢
      rw [px i (sx ▸ hi)]
      push_cast
      rw [sub_zero, sub_zero]
      ring⟩
    have gy : (realImage y1).Same (scaled (1 / (M : ℝ)) (realImage y.arr)) := ⟨sy, fun i hi => by
      simp only [realImage, scaled] at hi ⊢
      rw [py i (sy ▸ hi)]
      push_cast
      rw [sub_zero, sub_zero]
      ring⟩
    have s1 : (realImage x1).shape = (realImage y1).shape := by show x1.shape = y1.shape; rw [sx, sy, hs]
    rw [ssim_same big 1 a (realImage x1) (realImage y1) _ s1 gy]
    have s2 : (realImage x1).shape = (scaled (1 / (M : ℝ)) (realImage y.arr)).shape := s1.trans gy.1
    rw [C30_symm big 1 a _ _ s2, ssim_same big 1 a _ (realImage x1) _ s2.symm gx, C30_symm big 1 a _ _ (s2.symm.trans gx.1)]

/-- The reference: 3 × 3 pixels, the first dark, the others of brightness 30. -/
def plainNine : Image Rat := ⟨.f32, ⟨[3, 3], fun i => if i = [0, 0] then 0 else 30⟩⟩
/-- The reference with one hot pixel of brightness 60. -/
def hotNine : Image Rat := ⟨.f32, ⟨[3, 3], fun i => if i = [0, 0] then 0 else if i = [2, 2] then 60 else 30⟩⟩
/-- The reference with two pixels of brightness 5. -/
def speckledNine : Image Rat := ⟨.f32, ⟨[3, 3], fun i => if i = [0, 0] then 0 else if i = [1, 0] ∨ i = [1, 2] then 5 else 30⟩⟩

theorem plainNine_float : PlainImage plainNine 0 30 := by
  refine ⟨.inl (.inl rfl), ?_, by norm_num⟩
  rw [HasRange, ← toList_set]
  constructor <;> constructor <;> simp [NDArray.toList, plainNine, indices, List.range_succ, lowerBounds, upperBounds]

theorem hotNine_float : PlainImage hotNine 0 60 := by
  refine ⟨.inl (.inl rfl), ?_, by norm_num⟩
  rw [HasRange, ← toList_set]
  constructor <;> constructor <;> simp [NDArray.toList, hotNine, indices, List.range_succ, lowerBounds, upperBounds] <;> norm_num

theorem speckledNine_float : PlainImage speckledNine 0 30 := by
  refine ⟨.inl (.inl rfl), ?_, by norm_num⟩
  rw [HasRange, ← toList_set]
  constructor <;> constructor <;> simp [NDArray.toList, speckledNine, indices, List.range_succ, lowerBounds, upperBounds] <;> norm_num

theorem indices_nine : indices [3, 3] = [[0, 0], [0, 1], [0, 2], [1, 0], [1, 1], [1, 2], [2, 0], [2, 1], [2, 2]] := by decide

/-- RMSE of images of 3 × 3 pixels. -/
theorem rmse_nine (a b : NDArray Rat) (ha : a.shape = [3, 3]) (hb : b.shape = [3, 3]) (q : Rat)
    (h : ((indices [3, 3]).map (fun i => (a.get i - b.get i) ^ 2)).sum / 9 = q) : rmse (realImage a) (realImage b) = .ok (Real.sqrt q) := by
  have hc : Comparable (realImage a) (realImage b) := ⟨by show a.shape = b.shape; rw [ha, hb], by
    show NDArray.size ⟨a.shape, _⟩ ≠ 0; rw [ha]; exact Nat.succ_ne_zero _⟩
  rw [rmse_eq hc, show (realImage a).shape = [3, 3] from ha]
  have hsz : (realImage a).size = 9 := by show NDArray.size ⟨a.shape, _⟩ = 9; rw [ha]; rfl
  rw [hsz, ← h]
  simp only [realImage, indices_nine, List.map_cons, List.map_nil, List.sum_cons, List.sum_nil]
  push_cast
  rfl

/-- The hot pixel: RMSE 10, after normalization the root of 7/36. -/
theorem hot_both : RmseBoth plainNine hotNine (Real.sqrt (100 : Rat)) (Real.sqrt (7 / 36 : Rat)) := by
  obtain ⟨x1, ex, sx, px⟩ := plainNine_float.unit false none
  obtain ⟨y1, ey, sy, py⟩ := hotNine_float.unit false none
  refine ⟨x1, y1, ex, ey, rmse_nine _ _ rfl rfl 100 (by decide +kernel), rmse_nine _ _ sx sy (7 / 36) ?_⟩
  rw [show ((indices [3, 3]).map (fun i => (x1.get i - y1.get i) ^ 2)) =
    (indices [3, 3]).map (fun i => ((plainNine.arr.get i - 0) / (30 - 0) - (hotNine.arr.get i - 0) / (60 - 0)) ^ 2) from
    List.map_congr_left (fun i hi => by rw [px i ((mem_indices _ _).1 hi), py i ((mem_indices _ _).1 hi)])]
  decide +kernel

/-- The two dark pixels: RMSE the root of 1250/9, after normalization that of 25/162. -/
theorem speckled_both : RmseBoth plainNine speckledNine (Real.sqrt (1250 / 9 : Rat)) (Real.sqrt (25 / 162 : Rat)) := by
  obtain ⟨x1, ex, sx, px⟩ := plainNine_float.unit false none
  obtain ⟨y1, ey, sy, py⟩ := speckledNine_float.unit false none
  refine ⟨x1, y1, ex, ey, rmse_nine _ _ rfl rfl (1250 / 9) (by decide +kernel), rmse_nine _ _ sx sy (25 / 162) ?_⟩
  rw [show ((indices [3, 3]).map (fun i => (x1.get i - y1.get i) ^ 2)) =
    (indices [3, 3]).map (fun i => ((plainNine.arr.get i - 0) / (30 - 0) - (speckledNine.arr.get i - 0) / (30 - 0)) ^ 2) from
    List.map_congr_left (fun i hi => by rw [px i ((mem_indices _ _).1 hi), py i ((mem_indices _ _).1 hi)])]
  decide +kernel

/-- **C205, refuted**: one hot pixel stretches the range of gray values. The image with it is the better one of two images, after
normalization the worse one. -/
theorem C205_refuted : ¬ KeepsRanking (fun _ _ _ _ _ => True) := by
  intro h
  have k := h _ _ _ _ _ _ _ _ _ plainNine_float hotNine_float speckledNine_float rfl rfl _ _ _ _ hot_both speckled_both trivial
    (Real.sqrt_lt_sqrt (by norm_num) (by norm_num))
  rw [Real.sqrt_le_sqrt_iff (by norm_num)] at k
  norm_num at k

/-- The partial result applied: the reference and the image with two dark pixels have the same range of gray values. -/
example (r r1 : ℝ) (h : RmseBoth plainNine speckledNine r r1) : r1 = r / ((30 : Rat) - (0 : Rat)) :=
  C205_same_range_partial plainNine speckledNine 0 30 plainNine_float speckledNine_float rfl r r1 h

/-- RMSE changes by at most the shift of 30. -/
example : ∃ r r1 : ℝ, RmseBoth plainNine hotNine r r1 ∧ |(((30 : Rat) : ℝ) - ((0 : Rat) : ℝ)) * r1 - r| ≤ 30 := by
  refine ⟨_, _, hot_both, (rmseBoth_bound plainNine_float hotNine_float rfl hot_both).trans ?_⟩
  norm_num [rangeShift]

/-- 16 bit images. -/
example : ∃ (x1 y1 : NDArray Rat) (r r1 : ℝ), normalizeData true (twoPixels .u16 (200 : Int)) (0, 1) none true = ⟨[], .ok ⟨.f32, x1⟩⟩ ∧
    normalizeData true (twoPixels .u16 (100 : Int)) (0, 1) none true = ⟨[], .ok ⟨.f32, y1⟩⟩ ∧
    rmse (realImage (twoPixels .u16 (200 : Int)).arr) (realImage (twoPixels .u16 (100 : Int)).arr) = .ok r ∧
    rmse (realImage x1) (realImage y1) = .ok r1 ∧ |(((200 : Int) : Rat) - ((0 : Int) : Rat) : ℝ) * r1 - r| ≤ rangeShift ((0 : Int) : Rat) ((200 : Int) : Rat) ((0 : Int) : Rat) ((100 : Int) : Rat) :=
  C205_rmse true none (twoPixels .u16 (200 : Int)) (twoPixels .u16 (100 : Int)) _ _ _ _
    ⟨.inr ⟨rfl, integer_two .u16 200 _ (by decide) (by decide)⟩, range_two .u16 200 (by decide), by norm_num⟩
    ⟨.inr ⟨rfl, integer_two .u16 100 _ (by decide) (by decide)⟩, range_two .u16 100 (by decide), by norm_num⟩ rfl

end Viqa
