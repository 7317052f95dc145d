import Verif.Props.Normalize
import Verif.Props.Distance

/-! C191: the bit depth of the normalization and RMSE. -/

namespace Viqa
open Spec

/-- The gray values as real numbers, as RMSE sees them. -/
def Spec.realImage (a : NDArray Rat) : NDArray ℝ := ⟨a.shape, fun i => (a.get i : ℝ)⟩

/-- RMSE of errors that differ by at most 1 differs by at most 1. -/
theorem rmse_errors (x y x' y' : NDArray ℝ) (c : ℝ) (hc : 0 ≤ c) (h : Comparable x y) (hx : x'.shape = x.shape) (hy : y'.shape = x.shape)
    (he : ∀ i, InShape x.shape i → |(x'.get i - y'.get i) - c * (x.get i - y.get i)| ≤ 1) (r : ℝ) (hr : rmse x y = .ok r) :
    ∃ r', rmse x' y' = .ok r' ∧ |r' - c * r| ≤ 1 := by
  have hn : (0 : ℝ) < x.size := by exact_mod_cast Nat.pos_of_ne_zero h.2
  have h' : Comparable x' y' := ⟨hx.trans hy.symm, by unfold NDArray.size; rw [hx]; exact h.2⟩
  have hsz : x'.size = x.size := by unfold NDArray.size; rw [hx]
  refine ⟨_, rmse_eq h', ?_⟩
  rw [rmse_eq h] at hr
  cases hr
  rw [hsz, hx]
  generalize hl : indices x.shape = l at *
  have hin : ∀ i ∈ l, |(x'.get i - y'.get i) - c * (x.get i - y.get i)| ≤ 1 := by
    intro i hi
    rw [← hl] at hi
    exact he i ((mem_indices _ _).1 hi)
  have hlen : (l.length : ℝ) = x.size := by
    rw [← hl, length_indices]
    rfl
  have hroot : 0 < Real.sqrt (x.size : ℝ) := Real.sqrt_pos.2 hn
  set A := fun i => x'.get i - y'.get i
  set B := fun i => c * (x.get i - y.get i)
  have hB : c * Real.sqrt ((l.map (fun i => (x.get i - y.get i) ^ 2)).sum / x.size) = Real.sqrt ((l.map (fun i => B i ^ 2)).sum) / Real.sqrt x.size := by
    have : (fun i => B i ^ 2) = fun i => c ^ 2 * (x.get i - y.get i) ^ 2 := by
      funext i
      simp only [B]
      ring
    rw [this, sum_map_mul, Real.sqrt_mul (sq_nonneg _), Real.sqrt_sq hc, Real.sqrt_div' _ (Nat.cast_nonneg _)]
    ring
  have hD : Real.sqrt ((l.map (fun i => (A i - B i) ^ 2)).sum) ≤ Real.sqrt x.size := by
    apply Real.sqrt_le_sqrt
    calc (l.map (fun i => (A i - B i) ^ 2)).sum ≤ (l.map (fun _ => (1 : ℝ))).sum := sum_le _ _ _ (fun i hi => by
            have := hin i hi
            rw [← sq_abs]
            exact pow_le_one₀ (abs_nonneg _) this)
      _ = x.size := by rw [sum_const, hlen, mul_one]
  have hD' : Real.sqrt ((l.map (fun i => (B i - A i) ^ 2)).sum) ≤ Real.sqrt x.size := by
    have : (fun i => (B i - A i) ^ 2) = fun i => (A i - B i) ^ 2 := by
      funext i
      ring
    rw [this]
    exact hD
  have m1 := minkowski l (fun i => A i - B i) B
  have m2 := minkowski l (fun i => B i - A i) A
  simp only [sub_add_cancel] at m1 m2
  show |Real.sqrt ((l.map (fun i => A i ^ 2)).sum / x.size) - _| ≤ 1
  rw [hB, Real.sqrt_div' _ (Nat.cast_nonneg _), ← sub_div, abs_div, abs_of_pos hroot, div_le_one hroot, abs_le]
  constructor <;> linarith

/-- RMSE of two images that are linear maps to `(0, 1)` and integer parts of linear maps to `(0, hi)`. -/
theorem rmse_quantized (x y x1 y1 xb yb : NDArray Rat) (hs : y.shape = x.shape) (m M m' M' : Rat) (hx : HasRange x m M) (hi : Int)
    (hhi : hi = 255 ∨ hi = 65535) (px1 : PixelMap (fun p => quantize 1 (linearTo 1 m M p)) x x1)
    (py1 : PixelMap (fun p => quantize 1 (linearTo 1 m' M' p)) y y1) (pxb : PixelMap (fun p => quantize hi (linearTo hi m M p)) x xb)
    (pyb : PixelMap (fun p => quantize hi (linearTo hi m' M' p)) y yb) :
    ∃ r rb : ℝ, rmse (realImage x1) (realImage y1) = .ok r ∧ rmse (realImage xb) (realImage yb) = .ok rb ∧ |rb / hi - r| ≤ 1 / hi := by
  have hsize : x.size ≠ 0 := by
    obtain ⟨i, hi, -⟩ := hx.1.1
    intro h
    have h1 := (mem_indices _ _).2 hi
    have h2 : (indices x.shape).length = x.size := length_indices _
    rw [h] at h2
    rw [List.length_eq_zero_iff.1 h2] at h1
    simp at h1
  have hcomp : Comparable (realImage x1) (realImage y1) :=
    ⟨by show x1.shape = y1.shape; rw [px1.1, py1.1, hs], by show NDArray.size ⟨x1.shape, _⟩ ≠ 0; unfold NDArray.size at hsize ⊢; simp only; rw [px1.1]; exact hsize⟩
  have hhi0 : (0 : ℝ) < hi := by rcases hhi with h | h <;> subst h <;> norm_num
  have hhi1 : hi ≠ 1 := by rcases hhi with h | h <;> subst h <;> norm_num
  obtain ⟨rb, hrb, hle⟩ := rmse_errors (realImage x1) (realImage y1) (realImage xb) (realImage yb) hi hhi0.le hcomp
    (by show xb.shape = x1.shape; rw [pxb.1, px1.1]) (by show yb.shape = x1.shape; rw [pyb.1, px1.1, hs]) (fun i hin => by
      have hin' : InShape x.shape i := by
        rw [← px1.1]
        exact hin
      simp only [realImage, px1.2 i hin', py1.2 i (hs ▸ hin'), pxb.2 i hin', pyb.2 i (hs ▸ hin'), quantize, if_true, if_neg hhi1, linearTo]
      have f1 := Int.floor_le ((x.get i - m) * hi / (M - m))
      have f2 := Int.lt_floor_add_one ((x.get i - m) * hi / (M - m))
      have f3 := Int.floor_le ((y.get i - m') * hi / (M' - m'))
      have f4 := Int.lt_floor_add_one ((y.get i - m') * hi / (M' - m'))
      have key : |((⌊(x.get i - m) * hi / (M - m)⌋ : Int) : Rat) - ((⌊(y.get i - m') * hi / (M' - m')⌋ : Int) : Rat) -
          hi * ((x.get i - m) * ((1 : Int) : Rat) / (M - m) - (y.get i - m') * ((1 : Int) : Rat) / (M' - m'))| ≤ 1 := by
        have e1 : hi * ((x.get i - m) * ((1 : Int) : Rat) / (M - m) - (y.get i - m') * ((1 : Int) : Rat) / (M' - m')) =
            (x.get i - m) * hi / (M - m) - (y.get i - m') * hi / (M' - m') := by
          push_cast
          ring
        rw [e1, abs_le]
        constructor <;> linarith
      exact_mod_cast key) _ (rmse_eq hcomp)
  refine ⟨_, rb, rmse_eq hcomp, hrb, ?_⟩
  rw [show rb / hi - Real.sqrt (((indices (realImage x1).shape).map (fun i => ((realImage x1).get i - (realImage y1).get i) ^ 2)).sum / (realImage x1).size) =
    (rb - hi * Real.sqrt (((indices (realImage x1).shape).map (fun i => ((realImage x1).get i - (realImage y1).get i) ^ 2)).sum / (realImage x1).size)) / hi by
      field_simp, abs_div, abs_of_pos hhi0]
  exact div_le_div_of_nonneg_right hle hhi0.le

/-- **C191 (partial).** Floating point images normalized to 8 or 16 bit: RMSE relative to the data range differs from that of the images
normalized to `(0, 1)` by at most one gray value. Missing: float16 images (C11) and integer images, for which see below. -/
theorem C191_partial (ident ident' : Bool) (x y : Image Rat) (hs : y.arr.shape = x.arr.shape) (inp : Option (Int × Int)) (m M m' M' : Rat)
    (hx : HasRange x.arr m M) (hy : HasRange y.arr m' M') (hxl : m < M) (hyl : m' < M') (hxf : x.dtype = .f32 ∨ x.dtype = .f64)
    (hyf : y.dtype = .f32 ∨ y.dtype = .f64) (hi : Int) (hhi : hi = 255 ∨ hi = 65535) :
    ∃ (x1 y1 xb yb : NDArray Rat) (r rb : ℝ), normalizeData ident x (0, 1) inp true = ⟨[], .ok ⟨.f32, x1⟩⟩ ∧
      normalizeData ident y (0, 1) inp true = ⟨[], .ok ⟨.f32, y1⟩⟩ ∧
      normalizeData ident' x (0, hi) inp true = ⟨[], .ok ⟨rangeType hi, xb⟩⟩ ∧ normalizeData ident' y (0, hi) inp true = ⟨[], .ok ⟨rangeType hi, yb⟩⟩ ∧
      rmse (realImage x1) (realImage y1) = .ok r ∧ rmse (realImage xb) (realImage yb) = .ok rb ∧ |rb / hi - r| ≤ 1 / hi := by
  have hfl : ∀ {z : Image Rat}, z.dtype = .f32 ∨ z.dtype = .f64 → z.dtype.isFloating = true := by
    rintro z (h | h) <;> rw [h] <;> rfl
  have h16 : ∀ {z : Image Rat} {P : Prop}, z.dtype = .f32 ∨ z.dtype = .f64 → z.dtype = .f16 → P := by
    rintro z P (h | h) h' <;> rw [h] at h' <;> cases h'
  have hsup : Supported hi := .inr hhi
  obtain ⟨x1, ex1, px1⟩ := C11_linear_map_partial ident x 1 inp m M hx hxl (hfl hxf) (.inl rfl) (h16 hxf)
  obtain ⟨y1, ey1, py1⟩ := C11_linear_map_partial ident y 1 inp m' M' hy hyl (hfl hyf) (.inl rfl) (h16 hyf)
  obtain ⟨xb, exb, pxb⟩ := C11_linear_map_partial ident' x hi inp m M hx hxl (hfl hxf) hsup (h16 hxf)
  obtain ⟨yb, eyb, pyb⟩ := C11_linear_map_partial ident' y hi inp m' M' hy hyl (hfl hyf) hsup (h16 hyf)
  obtain ⟨r, rb, h⟩ := rmse_quantized x.arr y.arr x1 y1 xb yb hs m M m' M' hx hi hhi px1 py1 pxb pyb
  exact ⟨x1, y1, xb, yb, r, rb, ex1, ey1, exb, eyb, h⟩

/-- **C191 (partial)** for unsigned images as long as `(max - min) * hi` fits the type of the product. -/
theorem C191_unsigned_partial (ident ident' : Bool) (x y : Image Rat) (hs : y.arr.shape = x.arr.shape) (inp : Option (Int × Int)) (m M m' M' : Int)
    (hx : HasRange x.arr m M) (hy : HasRange y.arr m' M') (hxl : m < M) (hyl : m' < M') (hxu : x.dtype.isUnsigned = true) (hyu : y.dtype.isUnsigned = true)
    (hxp : IntegerPixels x.arr 0 (2 ^ x.dtype.bits - 1)) (hyp : IntegerPixels y.arr 0 (2 ^ y.dtype.bits - 1)) (hi : Int) (hhi : hi = 255 ∨ hi = 65535)
    (hx8 : x.dtype = .u8 → hi ≠ 255) (hy8 : y.dtype = .u8 → hi ≠ 255) (hx16 : x.dtype = .u16 → hi = 65535 → ident' = false)
    (hy16 : y.dtype = .u16 → hi = 65535 → ident' = false)
    (hxfit : (M - m) * hi < 2 ^ productBits x.dtype.bits hi) (hyfit : (M' - m') * hi < 2 ^ productBits y.dtype.bits hi) :
    ∃ (x1 y1 xb yb : NDArray Rat) (r rb : ℝ), normalizeData ident x (0, 1) inp true = ⟨[], .ok ⟨.f32, x1⟩⟩ ∧
      normalizeData ident y (0, 1) inp true = ⟨[], .ok ⟨.f32, y1⟩⟩ ∧
      normalizeData ident' x (0, hi) inp true = ⟨[], .ok ⟨rangeType hi, xb⟩⟩ ∧ normalizeData ident' y (0, hi) inp true = ⟨[], .ok ⟨rangeType hi, yb⟩⟩ ∧
      rmse (realImage x1) (realImage y1) = .ok r ∧ rmse (realImage xb) (realImage yb) = .ok rb ∧ |rb / hi - r| ≤ 1 / hi := by
  have hsup : Supported hi := .inr hhi
  have hfit1 : ∀ {z : Image Rat} {a b : Int}, HasRange z.arr a b → IntegerPixels z.arr 0 (2 ^ z.dtype.bits - 1) → (b - a) * 1 < 2 ^ productBits z.dtype.bits 1 := by
    intro z a b hz hp
    obtain ⟨n, hn, hn0, hn1⟩ := hp _ hz.1.1
    obtain ⟨k, hk, hk0, hk1⟩ := hp _ hz.2.1
    have e1 : a = n := by exact_mod_cast hn
    have e2 : b = k := by exact_mod_cast hk
    have : (2 : Int) ^ z.dtype.bits ≤ 2 ^ productBits z.dtype.bits 1 := pow_le_pow_right₀ (by norm_num) (le_max_left _ _)
    omega
  obtain ⟨x1, ex1, px1⟩ := C13_documented_formula_partial ident x 1 inp m M hx hxl hxu hxp (.inl rfl) (fun _ => by decide) (fun _ h => by cases h) (hfit1 hx hxp)
  obtain ⟨y1, ey1, py1⟩ := C13_documented_formula_partial ident y 1 inp m' M' hy hyl hyu hyp (.inl rfl) (fun _ => by decide) (fun _ h => by cases h) (hfit1 hy hyp)
  obtain ⟨xb, exb, pxb⟩ := C13_documented_formula_partial ident' x hi inp m M hx hxl hxu hxp hsup hx8 hx16 hxfit
  obtain ⟨yb, eyb, pyb⟩ := C13_documented_formula_partial ident' y hi inp m' M' hy hyl hyu hyp hsup hy8 hy16 hyfit
  obtain ⟨r, rb, h⟩ := rmse_quantized x.arr y.arr x1 y1 xb yb hs m M m' M' hx hi hhi px1 py1 pxb pyb
  exact ⟨x1, y1, xb, yb, r, rb, ex1, ey1, exb, eyb, h⟩

/-- 16 bit images of small range. -/
example : ∃ (x1 y1 xb yb : NDArray Rat) (r rb : ℝ), normalizeData true (twoPixels .u16 (200 : Int)) (0, 1) none true = ⟨[], .ok ⟨.f32, x1⟩⟩ ∧
    normalizeData true (twoPixels .u16 (100 : Int)) (0, 1) none true = ⟨[], .ok ⟨.f32, y1⟩⟩ ∧
    normalizeData true (twoPixels .u16 (200 : Int)) (0, 255) none true = ⟨[], .ok ⟨.u8, xb⟩⟩ ∧
    normalizeData true (twoPixels .u16 (100 : Int)) (0, 255) none true = ⟨[], .ok ⟨.u8, yb⟩⟩ ∧
    rmse (realImage x1) (realImage y1) = .ok r ∧ rmse (realImage xb) (realImage yb) = .ok rb ∧ |rb / (255 : Int) - r| ≤ 1 / (255 : Int) :=
  C191_unsigned_partial true true (twoPixels .u16 (200 : Int)) (twoPixels .u16 (100 : Int)) rfl none 0 200 0 100 (range_two .u16 200 (by decide))
    (range_two .u16 100 (by decide)) (by decide) (by decide) rfl rfl
    (integer_two .u16 200 _ (by decide) (by decide)) (integer_two .u16 100 _ (by decide) (by decide)) 255 (.inl rfl) (by simp [twoPixels]) (by simp [twoPixels])
    (by simp) (by simp) (by decide) (by decide)

/-- The image with pixels 2, 3, 6 and one with a slightly brighter pixel: at 8 bit the difference is at most one gray value per pixel. -/
def nearImg : Image Rat := ⟨.f32, ⟨[1, 3], fun i => if i = [0, 0] then 2 else if i = [0, 1] then 3001 / 1000 else 6⟩⟩

theorem nearImg_range : HasRange nearImg.arr 2 6 := by
  rw [HasRange, ← toList_set]
  constructor <;> constructor <;> simp [NDArray.toList, nearImg, indices, List.range_succ, lowerBounds, upperBounds] <;> norm_num

example : ∃ (x1 y1 xb yb : NDArray Rat) (r rb : ℝ), normalizeData false exampleImg (0, 1) none true = ⟨[], .ok ⟨.f32, x1⟩⟩ ∧
    normalizeData false nearImg (0, 1) none true = ⟨[], .ok ⟨.f32, y1⟩⟩ ∧ normalizeData false exampleImg (0, 255) none true = ⟨[], .ok ⟨.u8, xb⟩⟩ ∧
    normalizeData false nearImg (0, 255) none true = ⟨[], .ok ⟨.u8, yb⟩⟩ ∧
    rmse (realImage x1) (realImage y1) = .ok r ∧ rmse (realImage xb) (realImage yb) = .ok rb ∧ |rb / (255 : Int) - r| ≤ 1 / (255 : Int) :=
  C191_partial false false exampleImg nearImg rfl none 2 6 2 6 exampleImg_range nearImg_range (by norm_num) (by norm_num) (.inr rfl) (.inl rfl) 255 (.inl rfl)

/-- Different images can become identical at 8 bit: RMSE 0 there, though not for `(0, 1)`. -/
theorem C191_lost : ∃ x1 y1 xb yb : NDArray Rat, normalizeData false exampleImg (0, 1) none true = ⟨[], .ok ⟨.f32, x1⟩⟩ ∧
    normalizeData false nearImg (0, 1) none true = ⟨[], .ok ⟨.f32, y1⟩⟩ ∧ normalizeData false exampleImg (0, 255) none true = ⟨[], .ok ⟨.u8, xb⟩⟩ ∧
    normalizeData false nearImg (0, 255) none true = ⟨[], .ok ⟨.u8, yb⟩⟩ ∧
    rmse (realImage x1) (realImage y1) ≠ .ok 0 ∧ rmse (realImage xb) (realImage yb) = .ok 0 := by
  obtain ⟨x1, ex1, px1⟩ := C11_linear_map_partial false exampleImg 1 none 2 6 exampleImg_range (by norm_num) rfl (.inl rfl) (by simp [exampleImg])
  obtain ⟨y1, ey1, py1⟩ := C11_linear_map_partial false nearImg 1 none 2 6 nearImg_range (by norm_num) rfl (.inl rfl) (by simp [nearImg])
  obtain ⟨xb, exb, pxb⟩ := C11_linear_map_partial false exampleImg 255 none 2 6 exampleImg_range (by norm_num) rfl (.inr (.inl rfl)) (by simp [exampleImg])
  obtain ⟨yb, eyb, pyb⟩ := C11_linear_map_partial false nearImg 255 none 2 6 nearImg_range (by norm_num) rfl (.inr (.inl rfl)) (by simp [nearImg])
  have sx1 : x1.shape = [1, 3] := px1.1
  have sy1 : y1.shape = [1, 3] := py1.1
  have sxb : xb.shape = [1, 3] := pxb.1
  have syb : yb.shape = [1, 3] := pyb.1
  refine ⟨x1, y1, xb, yb, ex1, ey1, exb, eyb, ?_, ?_⟩
  · rw [ne_eq, C28_zero_iff (realImage x1) (realImage y1) ⟨sx1.trans sy1.symm, by show NDArray.size ⟨x1.shape, _⟩ ≠ 0; rw [sx1]; exact Nat.succ_ne_zero _⟩]
    intro h
    have h1 := h.2 [0, 1] (by show InShape x1.shape _; rw [sx1]; decide)
    simp only [realImage] at h1
    rw [px1.2 [0, 1] (by decide), py1.2 [0, 1] (by decide)] at h1
    norm_num [quantize, linearTo, exampleImg, nearImg] at h1
  · rw [C28_zero_iff (realImage xb) (realImage yb) ⟨sxb.trans syb.symm, by show NDArray.size ⟨xb.shape, _⟩ ≠ 0; rw [sxb]; exact Nat.succ_ne_zero _⟩]
    refine ⟨sxb.trans syb.symm, fun i hi => ?_⟩
    have hi' : i ∈ indices [1, 3] := (mem_indices _ _).2 (sxb ▸ hi)
    have hl : indices [1, 3] = [[0, 0], [0, 1], [0, 2]] := by decide
    rw [hl] at hi'
    have e : xb.get i = yb.get i := by
      simp only [List.mem_cons, List.not_mem_nil, or_false] at hi'
      rcases hi' with rfl | rfl | rfl
      · rw [pxb.2 _ (by decide), pyb.2 _ (by decide)]
        rfl
      · rw [pxb.2 _ (by decide), pyb.2 _ (by decide)]
        norm_num [quantize, linearTo, exampleImg, nearImg]
      · rw [pxb.2 _ (by decide), pyb.2 _ (by decide)]
        rfl
    simp only [realImage, e]

/-- A 16 bit image with the pixels `65535` and `0`. -/
def fallingImg : Image Rat := ⟨.u16, ⟨[1, 2], fun i => if i = [0, 0] then 65535 else 0⟩⟩

theorem fallingImg_pixels : pixels fallingImg.arr = {65535, 0} := by
  rw [← toList_set]
  simp [NDArray.toList, fallingImg, indices, List.range_succ]
  ext x; simp

theorem fallingImg_range : HasRange fallingImg.arr (0 : Int) (65535 : Int) := by
  rw [HasRange, fallingImg_pixels]
  constructor <;> constructor <;> simp [lowerBounds, upperBounds]

theorem fallingImg_integer : IntegerPixels fallingImg.arr 0 (2 ^ 16 - 1) := by
  rw [IntegerPixels, fallingImg_pixels]
  intro q hq
  simp only [Set.mem_insert_iff, Set.mem_singleton_iff] at hq
  rcases hq with rfl | rfl
  · exact ⟨65535, by simp, by norm_num, by norm_num⟩
  · exact ⟨0, by simp, le_refl _, by norm_num⟩

/-- **C191, refuted** for 16 bit images of full range: at 8 bit the product overflows, an image and its negative both become black and RMSE is 0
instead of 1. -/
theorem C191_refuted : ¬ ∀ (x y : Image Rat) (m M : Int) (x1 y1 xb yb : NDArray Rat) (r rb : ℝ), y.arr.shape = x.arr.shape → HasRange x.arr m M →
    HasRange y.arr m M → m < M → x.dtype = .u16 → y.dtype = .u16 → IntegerPixels x.arr 0 (2 ^ 16 - 1) → IntegerPixels y.arr 0 (2 ^ 16 - 1) →
    normalizeData false x (0, 1) none true = ⟨[], .ok ⟨.f32, x1⟩⟩ → normalizeData false y (0, 1) none true = ⟨[], .ok ⟨.f32, y1⟩⟩ →
    normalizeData false x (0, 255) none true = ⟨[], .ok ⟨.u8, xb⟩⟩ → normalizeData false y (0, 255) none true = ⟨[], .ok ⟨.u8, yb⟩⟩ →
    rmse (realImage x1) (realImage y1) = .ok r → rmse (realImage xb) (realImage yb) = .ok rb → |rb / 255 - r| ≤ 1 / 255 := by
  intro h
  have hr := range_two .u16 65535 (by decide)
  have hp := integer_two .u16 65535 (2 ^ 16 - 1) (by decide) (by decide)
  obtain ⟨x1, ex1, sx1, px1⟩ := C13_actual_formula false (twoPixels .u16 (65535 : Int)) 1 none 0 65535 hr (by decide) rfl hp (.inl rfl) (by simp [twoPixels]) (by simp)
  obtain ⟨y1, ey1, sy1, py1⟩ := C13_actual_formula false fallingImg 1 none 0 65535 fallingImg_range (by decide) rfl fallingImg_integer (.inl rfl) (by simp [fallingImg]) (by simp)
  obtain ⟨xb, exb, sxb, pxb⟩ := C13_actual_formula false (twoPixels .u16 (65535 : Int)) 255 none 0 65535 hr (by decide) rfl hp (.inr (.inl rfl)) (by simp [twoPixels]) (by simp)
  obtain ⟨yb, eyb, syb, pyb⟩ := C13_actual_formula false fallingImg 255 none 0 65535 fallingImg_range (by decide) rfl fallingImg_integer (.inr (.inl rfl)) (by simp [fallingImg]) (by simp)
  have sx1' : x1.shape = [1, 2] := sx1
  have sy1' : y1.shape = [1, 2] := sy1
  have sxb' : xb.shape = [1, 2] := sxb
  have syb' : yb.shape = [1, 2] := syb
  have hl : indices [1, 2] = [[0, 0], [0, 1]] := by decide
  have c1 : Comparable (realImage x1) (realImage y1) := ⟨sx1'.trans sy1'.symm, by show NDArray.size ⟨x1.shape, _⟩ ≠ 0; rw [sx1']; exact Nat.succ_ne_zero _⟩
  have cb : Comparable (realImage xb) (realImage yb) := ⟨sxb'.trans syb'.symm, by show NDArray.size ⟨xb.shape, _⟩ ≠ 0; rw [sxb']; exact Nat.succ_ne_zero _⟩
  have vx0 : x1.get [0, 0] = 0 := by rw [px1 [0, 0] (by decide) 0 (by simp [twoPixels])]; norm_num [quantize]
  have vx1 : x1.get [0, 1] = 1 := by
    rw [px1 [0, 1] (by decide) 65535 (by simp [twoPixels])]; norm_num [quantize, productBits, twoPixels, DType.bits]
  have vy0 : y1.get [0, 0] = 1 := by
    rw [py1 [0, 0] (by decide) 65535 (by simp [fallingImg])]; norm_num [quantize, productBits, fallingImg, DType.bits]
  have vy1 : y1.get [0, 1] = 0 := by rw [py1 [0, 1] (by decide) 0 (by simp [fallingImg])]; norm_num [quantize]
  have wx0 : xb.get [0, 0] = 0 := by rw [pxb [0, 0] (by decide) 0 (by simp [twoPixels])]; norm_num [quantize]
  have wx1 : xb.get [0, 1] = 0 := by
    rw [pxb [0, 1] (by decide) 65535 (by simp [twoPixels])]
    norm_num [quantize, productBits, twoPixels, DType.bits]
  have wy0 : yb.get [0, 0] = 0 := by
    rw [pyb [0, 0] (by decide) 65535 (by simp [fallingImg])]
    norm_num [quantize, productBits, fallingImg, DType.bits]
  have wy1 : yb.get [0, 1] = 0 := by rw [pyb [0, 1] (by decide) 0 (by simp [fallingImg])]; norm_num [quantize]
  have e1 : rmse (realImage x1) (realImage y1) = .ok 1 := by
    rw [rmse_eq c1]
    have : (realImage x1).size = 2 := by show NDArray.size ⟨x1.shape, _⟩ = 2; rw [sx1']; rfl
    rw [this, show (realImage x1).shape = [1, 2] from sx1', hl]
    simp [realImage, vx0, vx1, vy0, vy1]
  have eb : rmse (realImage xb) (realImage yb) = .ok 0 := by
    rw [rmse_eq cb, show (realImage xb).shape = [1, 2] from sxb', hl]
    simp [realImage, wx0, wx1, wy0, wy1]
  have := h (twoPixels .u16 (65535 : Int)) fallingImg 0 65535 x1 y1 xb yb 1 0 rfl hr fallingImg_range (by decide) rfl rfl hp fallingImg_integer
    ex1 ey1 exb eyb e1 eb
  norm_num at this

end Viqa
