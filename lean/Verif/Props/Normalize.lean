import Verif.Lemmas.Normalize

set_option linter.unusedSimpArgs false

/-!
Properties C11 – C14: normalization of the data range.
-/

namespace Viqa
open Spec

/-- The quantities `m` and `M` are the minimum and the maximum of the image. -/
def HasRange (a : NDArray Rat) (m M : Rat) : Prop :=
  IsLeast (pixels a) m ∧ IsGreatest (pixels a) M

theorem half_range {v : Rat} (h0 : 0 ≤ v) (h1 : v < 65520) (dt : DType) : halfOverflow dt [v] = false := by
  have h : ¬ (65520 : Rat) ≤ |v| := by rw [abs_of_nonneg h0]; linarith
  simp [halfOverflow, h]

theorem no_halfOverflow {dt : DType} {hi : Int} {m M : Rat} (hhi : Supported hi) (hle : m ≤ M)
    (h16 : dt = .f16 → M - m < 65520 ∧ (hi = 255 → (M - m) * 255 < 65520)) :
    (halfOverflow dt [M - m] || halfOverflow (floatType dt (hi - 0)) [(M - m) * ((hi - 0 : Int) : Rat)]) = false := by
  by_cases h : dt = .f16
  · obtain ⟨h1, h2⟩ := h16 h
    have hd : 0 ≤ M - m := by linarith
    rw [half_range hd h1, Bool.false_or]
    rcases hhi with e | e | e
    · subst e
      exact half_range (by simpa using hd) (by simpa using h1) _
    · subst e
      have h3 := h2 rfl
      exact half_range (by push_cast; positivity) (by push_cast; simpa using h3) _
    · subst e
      exact halfOverflow_of_ne (by rw [h]; decide) _
  · exact no_overflow_of_ne h _ _ _

/-- **C11 (partial).** Normalizing a non-constant floating point image to `(0, hi)` is the linear map
from the image range onto `(0, hi)`, followed by taking the integer part for the integer
ranges. Missing: float16 images whose range, or range times 255, is not a float16 number, see `C11_half_refuted`. -/
theorem C11_linear_map_partial (ident : Bool) (img : Image Rat) (hi : Int) (inp : Option (Int × Int))
    (m M : Rat) (hr : HasRange img.arr m M) (hlt : m < M) (hfl : img.dtype.isFloating = true)
    (hhi : Supported hi) (h16 : img.dtype = .f16 → M - m < 65520 ∧ (hi = 255 → (M - m) * 255 < 65520)) :
    ∃ r, normalizeData ident img (0, hi) inp true = ⟨[], .ok ⟨rangeType hi, r⟩⟩ ∧
      PixelMap (fun p => quantize hi (linearTo hi m M p)) img.arr r := by
  have hint : img.dtype.isInteger = false := by
    revert hfl; cases img.dtype <;> simp [DType.isFloating, DType.isInteger]
  rw [normalize_auto ident img (0, hi) inp m M hr.1 hr.2 (by simp [hfl])
    (by simp [alreadyNormalized, hint]) (no_halfOverflow hhi hlt.le h16)]
  have hd : M - m ≠ 0 := by intro h; linarith
  simp only [hint, Bool.false_eq_true, if_false, store, rescale, if_neg hd, bind, Except.bind,
    castOutput_supported hi hhi, Option.bind, outType_eq hi hhi]
  refine ⟨_, rfl, rfl, ?_⟩
  intro idx hidx
  have hp : img.arr.get idx ∈ pixels img.arr := ⟨idx, hidx, rfl⟩
  have hb := linearTo_bounds (hi := hi) (by rcases hhi with e | e | e <;> subst e <;> decide) hlt
    (hr.1.2 hp) (hr.2.2 hp)
  simp only [NDArray.map]
  rw [show (img.arr.get idx - m) * ((hi - 0 : Int) : Rat) / (M - m) + ((0 : Int) : Rat)
    = linearTo hi m M (img.arr.get idx) by unfold linearTo; push_cast; ring]
  exact outCast_eq hi hhi _ hb.1 hb.2

/-- Consequences of C11 for the pixels of the result `r`: range, ends and order. -/
theorem C11_range_and_order_partial (ident : Bool) (img res : Image Rat) (hi : Int) (inp : Option (Int × Int))
    (m M : Rat) (hr : HasRange img.arr m M) (hlt : m < M) (hfl : img.dtype.isFloating = true)
    (hhi : Supported hi) (h16 : img.dtype = .f16 → M - m < 65520 ∧ (hi = 255 → (M - m) * 255 < 65520))
    (hres : (normalizeData ident img (0, hi) inp true).val = .ok res) :
    res.arr.shape = img.arr.shape ∧
    (∀ idx, InShape img.arr.shape idx → 0 ≤ res.arr.get idx ∧ res.arr.get idx ≤ hi) ∧
    (∀ idx, InShape img.arr.shape idx → img.arr.get idx = m → res.arr.get idx = 0) ∧
    (∀ idx, InShape img.arr.shape idx → img.arr.get idx = M → res.arr.get idx = hi) ∧
    (∀ i j, InShape img.arr.shape i → InShape img.arr.shape j →
      img.arr.get i ≤ img.arr.get j → res.arr.get i ≤ res.arr.get j) := by
  obtain ⟨r, h1, hs, hv⟩ := C11_linear_map_partial ident img hi inp m M hr hlt hfl hhi h16
  rw [h1] at hres
  cases hres
  have hd : 0 < M - m := by linarith
  have hhi0 : (0 : Int) ≤ hi := by rcases hhi with e | e | e <;> subst e <;> decide
  have hhi0' : (0 : Rat) ≤ hi := by exact_mod_cast hhi0
  have q0 : quantize hi 0 = 0 := by unfold quantize; split <;> simp
  have qhi : quantize hi hi = hi := by unfold quantize; split <;> simp
  refine ⟨hs, ?_, ?_, ?_, ?_⟩
  · intro idx hidx
    have hp : img.arr.get idx ∈ pixels img.arr := ⟨idx, hidx, rfl⟩
    have hb := linearTo_bounds (hi := hi) hhi0 hlt (hr.1.2 hp) (hr.2.2 hp)
    simp only [hv idx hidx]
    constructor
    · rw [← q0]; exact quantize_mono hb.1
    · conv_rhs => rw [← qhi]
      exact quantize_mono hb.2
  · intro idx hidx he
    simp only [hv idx hidx, he, linearTo, sub_self, zero_mul, zero_div, q0]
  · intro idx hidx he
    simp only [hv idx hidx, he, linearTo]
    rw [mul_comm, mul_div_assoc, div_self hd.ne', mul_one, qhi]
  · intro i j hi' hj hle
    simp only [hv i hi', hv j hj]
    apply quantize_mono
    unfold linearTo
    apply div_le_div_of_nonneg_right _ hd.le
    exact mul_le_mul_of_nonneg_right (by linarith) hhi0'

/-- Positive scaling and shifting of the brightness does not change the normalized image. -/
theorem C11_brightness_invariance_partial (ident : Bool) (img img' res res' : Image Rat) (hi : Int)
    (inp : Option (Int × Int)) (s t : Rat) (hs : 0 < s)
    (hsh : img'.arr.shape = img.arr.shape) (hdt : img'.dtype = img.dtype)
    (haff : ∀ idx, InShape img.arr.shape idx → img'.arr.get idx = s * img.arr.get idx + t)
    (m M : Rat) (hr : HasRange img.arr m M) (hlt : m < M) (hfl : img.dtype.isFloating = true)
    (hhi : Supported hi) (h16 : img.dtype = .f16 → M - m < 65520 ∧ (hi = 255 → (M - m) * 255 < 65520))
    (h16' : img.dtype = .f16 → s * M + t - (s * m + t) < 65520 ∧ (hi = 255 → (s * M + t - (s * m + t)) * 255 < 65520))
    (hres : (normalizeData ident img (0, hi) inp true).val = .ok res)
    (hres' : (normalizeData ident img' (0, hi) inp true).val = .ok res') :
    res'.dtype = res.dtype ∧ NDArray.Same res'.arr res.arr := by
  have hr' : HasRange img'.arr (s * m + t) (s * M + t) := by
    obtain ⟨⟨⟨i, hi1, hi2⟩, h2⟩, ⟨⟨j, hj1, hj2⟩, h4⟩⟩ := hr
    refine ⟨⟨⟨i, by rw [hsh]; exact hi1, by rw [haff i hi1, hi2]⟩, ?_⟩,
      ⟨⟨j, by rw [hsh]; exact hj1, by rw [haff j hj1, hj2]⟩, ?_⟩⟩
    · rintro p ⟨k, hk, rfl⟩
      rw [hsh] at hk
      rw [haff k hk]
      have := h2 ⟨k, hk, rfl⟩
      nlinarith
    · rintro p ⟨k, hk, rfl⟩
      rw [hsh] at hk
      rw [haff k hk]
      have := h4 ⟨k, hk, rfl⟩
      nlinarith
  obtain ⟨r, h1, hs1, hv1⟩ := C11_linear_map_partial ident img hi inp m M hr hlt hfl hhi h16
  obtain ⟨r', h2, hs2, hv2⟩ := C11_linear_map_partial ident img' hi inp _ _ hr' (by nlinarith)
    (by rw [hdt]; exact hfl) hhi (by rw [hdt]; exact h16')
  rw [h1] at hres; cases hres
  rw [h2] at hres'; cases hres'
  refine ⟨rfl, by simp only [hs1, hs2, hsh], ?_⟩
  intro idx hidx
  simp only [hs2, hsh] at hidx
  have hd : M - m ≠ 0 := by intro h; linarith
  simp only [hv1 idx hidx, hv2 idx (by rw [hsh]; exact hidx), haff idx hidx]
  congr 1
  unfold linearTo
  rw [show s * img.arr.get idx + t - (s * m + t) = s * (img.arr.get idx - m) by ring,
    show s * M + t - (s * m + t) = s * (M - m) by ring]
  field_simp

/-- A constant floating point image has no normalized version. -/
theorem C11_constant_image (ident : Bool) (img : Image Rat) (hi : Int) (inp : Option (Int × Int))
    (m : Rat) (hr : HasRange img.arr m m) (hfl : img.dtype.isFloating = true)
    (hhi : Supported hi)  :
    normalizeData ident img (0, hi) inp true = ⟨[], .error .notANumber⟩ := by
  have hint : img.dtype.isInteger = false := by
    revert hfl; cases img.dtype <;> simp [DType.isFloating, DType.isInteger]
  rw [normalize_auto ident img (0, hi) inp m m hr.1 hr.2 (by simp [hfl])
    (by simp [alreadyNormalized, hint]) (no_halfOverflow hhi le_rfl (fun _ => ⟨by simp, fun _ => by simp⟩))]
  simp only [hint, Bool.false_eq_true, if_false, store, sub_self, rescale, if_true, bind, Except.bind,
    nanOutput, castOutput_supported hi hhi, PyW.lift]

/-- A 1 × 3 float image with pixels 2, 3, 6. -/
def exampleImg : Image Rat := ⟨.f64, ⟨[1, 3], fun i => if i = [0, 0] then 2 else if i = [0, 1] then 3 else 6⟩⟩

theorem exampleImg_range : HasRange exampleImg.arr 2 6 := by
  rw [HasRange, ← arrMin_iff, ← arrMax_iff]
  constructor <;> decide +kernel

example : ∃ res, (normalizeData false exampleImg (0, 255) none true).val = .ok res ∧
    res.arr.get [0, 1] = 63 := by
  obtain ⟨r, h, -, hv⟩ := C11_linear_map_partial false exampleImg 255 none 2 6 exampleImg_range (by norm_num) rfl
    (Or.inr (Or.inl rfl)) (by simp [exampleImg])
  refine ⟨_, by rw [h], ?_⟩
  simp only [hv [0, 1] (by decide)]
  decide +kernel

/-- The darkest pixel of the image becomes 0, the brightest 255. -/
example : ∃ res, (normalizeData false exampleImg (0, 255) none true).val = .ok res ∧ res.arr.get [0, 0] = 0 ∧ res.arr.get [0, 2] = 255 := by
  obtain ⟨r, h, -⟩ := C11_linear_map_partial false exampleImg 255 none 2 6 exampleImg_range (by norm_num) rfl
    (Or.inr (Or.inl rfl)) (by simp [exampleImg])
  have := C11_range_and_order_partial false exampleImg _ 255 none 2 6 exampleImg_range (by norm_num) rfl
    (Or.inr (Or.inl rfl)) (by simp [exampleImg]) (by rw [h])
  exact ⟨_, by rw [h], this.2.2.1 [0, 0] (by decide) rfl, by simpa using this.2.2.2.1 [0, 2] (by decide) rfl⟩

/-- The image and a copy that is three times as bright, plus one. -/
example (res res' : Image Rat) (hres : (normalizeData false exampleImg (0, 255) none true).val = .ok res)
    (hres' : (normalizeData false ⟨.f64, ⟨[1, 3], fun i => 3 * exampleImg.arr.get i + 1⟩⟩ (0, 255) none true).val = .ok res') :
    NDArray.Same res'.arr res.arr :=
  (C11_brightness_invariance_partial false exampleImg ⟨.f64, ⟨[1, 3], fun i => 3 * exampleImg.arr.get i + 1⟩⟩ res res' 255 none 3 1
    (by norm_num) rfl rfl (fun _ _ => rfl) 2 6 exampleImg_range (by norm_num) rfl (Or.inr (Or.inl rfl)) (by simp [exampleImg]) (by simp [exampleImg])
    hres hres').2

/-- **C11** fails for float16 images whose range, or range times 255, is not a float16 number. -/
theorem C11_half_overflow (ident : Bool) (img : Image Rat) (hi : Int) (inp : Option (Int × Int)) (m M : Rat)
    (hr : HasRange img.arr m M) (h16 : img.dtype = .f16) (hhi : Supported hi)
    (ho : 65520 ≤ M - m ∨ hi = 255 ∧ 65520 ≤ (M - m) * 255) :
    (normalizeData ident img (0, hi) inp true).val = .error .notANumber := by
  have hof : (halfOverflow img.dtype [M - m] ||
      halfOverflow (floatType img.dtype (hi - 0)) [(M - m) * ((hi - 0 : Int) : Rat)]) = true := by
    rw [h16, Bool.or_eq_true]
    rcases ho with ho | ⟨rfl, ho⟩
    · left
      have : (65520 : Rat) ≤ |M - m| := le_trans ho (le_abs_self _)
      simp [halfOverflow, this]
    · right
      have : (65520 : Rat) ≤ |(M - m) * 255| := le_trans ho (le_abs_self _)
      simpa [halfOverflow, floatType, abs_mul] using this
  unfold normalizeData
  rw [if_neg (by rw [h16]; decide), show alreadyNormalized ident img.dtype (0, hi) = false by rw [h16]; simp [alreadyNormalized, DType.isInteger]]
  simp only [Bool.false_eq_true, if_false, if_true, (arrMin_iff _ _).2 hr.1, (arrMax_iff _ _).2 hr.2]
  simp only [bind, Except.bind]
  rw [if_pos hof]
  simp [nanOutput, castOutput_supported hi hhi, PyW.lift]

/-- A float16 image with the pixels 0 and 300. -/
def halfImage : Image Rat := ⟨.f16, ⟨[1, 2], fun i => 300 * (i.getD 1 0 : Nat)⟩⟩

theorem halfImage_range : HasRange halfImage.arr 0 300 := by
  rw [HasRange, ← arrMin_iff, ← arrMax_iff]
  constructor <;> decide +kernel

example : (normalizeData false halfImage (0, 255) none true).val = .error .notANumber :=
  C11_half_overflow false halfImage 255 none 0 300 halfImage_range rfl (Or.inr (Or.inl rfl)) (Or.inr ⟨rfl, by norm_num⟩)

/-- **C11, refuted** for float16 images: 300 * 255 is not a float16 number. -/
theorem C11_half_refuted : ¬ ∀ (img : Image Rat) (m M : Rat), HasRange img.arr m M → m < M →
    img.dtype.isFloating = true → ∃ r, normalizeData false img (0, 255) none true = ⟨[], .ok ⟨.u8, r⟩⟩ ∧
      PixelMap (fun p => quantize 255 (linearTo 255 m M p)) img.arr r := by
  intro h
  obtain ⟨r, h1, -⟩ := h halfImage 0 300 halfImage_range (by norm_num) rfl
  have h2 := C11_half_overflow false halfImage 255 none 0 300 halfImage_range rfl (Or.inr (Or.inl rfl)) (Or.inr ⟨rfl, by norm_num⟩)
  rw [h1] at h2
  cases h2

/-! ### C13 integer images -/

/-- Bits of the type in which the product with `hi` is computed for an unsigned image of
`b` bits. -/
def productBits (b : Nat) (hi : Int) : Nat := max b (if hi < 256 then 8 else 16)

/-- **C13**, what the code computes for unsigned integer images: the product
`(p - min) * hi` is reduced modulo `2 ^ productBits` before the division. -/
theorem C13_actual_formula (ident : Bool) (img : Image Rat) (hi : Int) (inp : Option (Int × Int))
    (m M : Int) (hr : HasRange img.arr m M) (hlt : m < M) (hu : img.dtype.isUnsigned = true)
    (hpix : IntegerPixels img.arr 0 (2 ^ img.dtype.bits - 1)) (hhi : Supported hi)
    (h8 : img.dtype = .u8 → hi ≠ 255) (h16 : img.dtype = .u16 → hi = 65535 → ident = false) :
    ∃ r, normalizeData ident img (0, hi) inp true = ⟨[], .ok ⟨rangeType hi, r⟩⟩ ∧
      r.shape = img.arr.shape ∧
      ∀ idx, InShape img.arr.shape idx → ∀ n : Int, img.arr.get idx = n →
        r.get idx = quantize hi
          ((((n - m) * hi) % 2 ^ productBits img.dtype.bits hi : Int) / ((M - m : Int) : Rat)) := by
  have hint : img.dtype.isInteger = true := by
    revert hu; cases img.dtype <;> simp [DType.isUnsigned, DType.isInteger]
  have hnorm : alreadyNormalized ident img.dtype (0, hi) = false := by
    revert h8 h16 hu
    rcases hhi with e | e | e <;> subst e <;> cases img.dtype <;> cases ident <;>
      simp [alreadyNormalized, sameObject, DType.intMax, DType.intMin, DType.isInteger,
        DType.isUnsigned, DType.bits]
  have hf16 : img.dtype ≠ .f16 := by intro h; rw [h] at hu; simp [DType.isUnsigned] at hu
  obtain ⟨t, ht, htu, htb⟩ : ∃ t, arithType img.dtype hi = some t ∧ t.isUnsigned = true ∧
      t.bits = productBits img.dtype.bits hi := by
    revert hu
    rcases hhi with e | e | e <;> subst e <;> cases img.dtype <;>
      simp [arithType, DType.isUnsigned, DType.bits, unsignedWidth, unsignedType, productBits]
  have hmpix : ∀ p ∈ pixels img.arr, ∃ n : Int, p = n ∧ 0 ≤ n - m ∧ n ≤ M ∧
      n - m < 2 ^ img.dtype.bits := by
    intro p hp
    obtain ⟨n, hn, h0, h1⟩ := hpix p hp
    have hm1 : (m : Rat) ≤ n := by rw [← hn]; exact hr.1.2 hp
    have hm2 : (n : Rat) ≤ M := by rw [← hn]; exact hr.2.2 hp
    have hm1' : m ≤ n := by exact_mod_cast hm1
    have hm2' : n ≤ M := by exact_mod_cast hm2
    obtain ⟨m', hm', hm0, -⟩ := hpix m hr.1.1
    have : m = m' := by exact_mod_cast hm'
    exact ⟨n, hn, by omega, hm2', by omega⟩
  have hden : store (some img.dtype) ((M : Rat) - m) = ((M - m : Int) : Rat) := by
    obtain ⟨n, hn, h1, -, h2⟩ := hmpix M hr.2.1
    have hn : M = n := by exact_mod_cast hn
    subst hn
    rw [← Int.cast_sub, store_int, wrapInt_unsigned _ hu, Int.emod_eq_of_lt h1 h2]
  have hd : ((M - m : Int) : Rat) ≠ 0 := by
    have : (M - m : Int) ≠ 0 := by omega
    exact_mod_cast this
  rw [normalize_auto ident img (0, hi) inp m M hr.1 hr.2 (by simp [hint]) hnorm
    (no_overflow_of_ne hf16 _ _ _)]
  simp only [hint, if_true, hden, rescale, if_neg hd, bind, Except.bind, sub_zero,
    castOutput_supported hi hhi, Option.bind, ht, outType_eq hi hhi]
  refine ⟨_, rfl, rfl, ?_⟩
  intro idx hidx n hn
  obtain ⟨n', hn', h1, h2, h3⟩ := hmpix _ ⟨idx, hidx, rfl⟩
  have : n = n' := by rw [hn] at hn'; exact_mod_cast hn'
  subst this
  simp only [NDArray.map, hn]
  have hs1 : store (some img.dtype) ((n : Rat) - m) = ((n - m : Int) : Rat) := by
    rw [← Int.cast_sub, store_int, wrapInt_unsigned _ hu, Int.emod_eq_of_lt h1 h3]
  rw [hs1, ← Int.cast_mul, store_int, wrapInt_unsigned _ htu, htb]
  simp only [Int.cast_zero, add_zero]
  apply outCast_eq hi hhi
  · apply div_nonneg
    · exact_mod_cast Int.emod_nonneg _ (by positivity)
    · exact_mod_cast (by omega : (0 : Int) ≤ M - m)
  · have hpos : (0 : Rat) < ((M - m : Int) : Rat) := by exact_mod_cast (by omega : (0 : Int) < M - m)
    rw [div_le_iff₀ hpos]
    have hhi0 : (0 : Int) ≤ hi := by rcases hhi with e | e | e <;> subst e <;> decide
    have : ((n - m) * hi) % 2 ^ productBits img.dtype.bits hi ≤ hi * (M - m) := by
      calc ((n - m) * hi) % 2 ^ productBits img.dtype.bits hi ≤ (n - m) * hi :=
            emod_le_self' _ _ (mul_nonneg h1 hhi0) (by positivity)
        _ ≤ hi * (M - m) := by nlinarith
    exact_mod_cast this

/-- **C13**, the documented formula holds if the largest product fits the type it is computed
in. For `hi = 1` this is always the case. Missing for the full property: all images whose
range is larger, for which the formula fails (`C13_brightest_pixel`). -/
theorem C13_documented_formula_partial (ident : Bool) (img : Image Rat) (hi : Int)
    (inp : Option (Int × Int))
    (m M : Int) (hr : HasRange img.arr m M) (hlt : m < M) (hu : img.dtype.isUnsigned = true)
    (hpix : IntegerPixels img.arr 0 (2 ^ img.dtype.bits - 1)) (hhi : Supported hi)
    (h8 : img.dtype = .u8 → hi ≠ 255) (h16 : img.dtype = .u16 → hi = 65535 → ident = false)
    (hfit : (M - m) * hi < 2 ^ productBits img.dtype.bits hi) :
    ∃ r, normalizeData ident img (0, hi) inp true = ⟨[], .ok ⟨rangeType hi, r⟩⟩ ∧
      PixelMap (fun p => quantize hi (linearTo hi m M p)) img.arr r := by
  obtain ⟨r, h1, h2, h3⟩ := C13_actual_formula ident img hi inp m M hr hlt hu hpix hhi h8 h16
  refine ⟨r, h1, h2, ?_⟩
  intro idx hidx
  obtain ⟨n, hn, hn0, hn1⟩ := hpix _ ⟨idx, hidx, rfl⟩
  rw [h3 idx hidx n hn, hn]
  have hhi0 : (0 : Int) ≤ hi := by rcases hhi with e | e | e <;> subst e <;> decide
  have hm1 : (m : Rat) ≤ n := by rw [← hn]; exact hr.1.2 ⟨idx, hidx, rfl⟩
  have hm2 : (n : Rat) ≤ M := by rw [← hn]; exact hr.2.2 ⟨idx, hidx, rfl⟩
  have hm1' : m ≤ n := by exact_mod_cast hm1
  have hm2' : n ≤ M := by exact_mod_cast hm2
  congr 1
  rw [Int.emod_eq_of_lt (mul_nonneg (by omega) hhi0) (by nlinarith)]
  unfold linearTo
  push_cast
  rfl

/-- **C13**, the exact limit: the brightest pixel is mapped to `hi` if and only if the largest
product fits the type it is computed in. -/
theorem C13_brightest_pixel (ident : Bool) (img res : Image Rat) (hi : Int)
    (inp : Option (Int × Int))
    (m M : Int) (hr : HasRange img.arr m M) (hlt : m < M) (hu : img.dtype.isUnsigned = true)
    (hpix : IntegerPixels img.arr 0 (2 ^ img.dtype.bits - 1)) (hhi : Supported hi)
    (h8 : img.dtype = .u8 → hi ≠ 255) (h16 : img.dtype = .u16 → hi = 65535 → ident = false)
    (hres : (normalizeData ident img (0, hi) inp true).val = .ok res)
    (idx : List Nat) (hidx : InShape img.arr.shape idx) (hmax : img.arr.get idx = M) :
    res.arr.get idx = hi ↔ (M - m) * hi < 2 ^ productBits img.dtype.bits hi := by
  obtain ⟨r, h1, h2, h3⟩ := C13_actual_formula ident img hi inp m M hr hlt hu hpix hhi h8 h16
  rw [h1] at hres; cases hres
  have hhi0 : (0 : Int) < hi := by rcases hhi with e | e | e <;> subst e <;> decide
  have hpos : (0 : Rat) < ((M - m : Int) : Rat) := by exact_mod_cast (by omega : (0 : Int) < M - m)
  simp only [h3 idx hidx M hmax]
  have h0 : 0 ≤ (M - m) * hi := mul_nonneg (by omega) hhi0.le
  constructor
  · intro h
    by_contra hcon
    have hlt' : ((M - m) * hi) % 2 ^ productBits img.dtype.bits hi < (M - m) * hi := by
      have : ((M - m) * hi) % 2 ^ productBits img.dtype.bits hi < 2 ^ productBits img.dtype.bits hi :=
        Int.emod_lt_of_pos _ (by positivity)
      omega
    have hq : ((((M - m) * hi) % 2 ^ productBits img.dtype.bits hi : Int) : Rat) / ((M - m : Int) : Rat) < hi := by
      rw [div_lt_iff₀ hpos]
      have : ((M - m) * hi) % 2 ^ productBits img.dtype.bits hi < hi * (M - m) := by
        rw [mul_comm hi]; exact hlt'
      exact_mod_cast this
    unfold quantize at h
    split at h
    · rw [h] at hq; exact lt_irrefl _ hq
    · have h' := Int.cast_injective (α := Rat) h
      rw [← Int.floor_lt] at hq
      omega
  · intro h
    rw [Int.emod_eq_of_lt h0 h]
    have : (((M - m) * hi : Int) : Rat) / ((M - m : Int) : Rat) = hi := by
      rw [Int.cast_mul, mul_div_assoc, mul_comm, div_mul_cancel₀ _ hpos.ne']
    rw [this]
    unfold quantize; split <;> simp

/-- A 1 × 2 image of the given type with pixels 0 and `p`. -/
def twoPixels (dt : DType) (p : Rat) : Image Rat := ⟨dt, ⟨[1, 2], fun i => if i = [0, 0] then 0 else p⟩⟩

theorem pixels_two (dt : DType) (p : Rat) : pixels (twoPixels dt p).arr = {0, p} := by
  rw [← toList_set]
  simp [NDArray.toList, twoPixels, indices, List.range_succ]
  ext x; simp

theorem range_two (dt : DType) (p : Int) (hp : 0 ≤ p) :
    HasRange (twoPixels dt p).arr (0 : Int) (p : Int) := by
  have hp' : (0 : Rat) ≤ p := by exact_mod_cast hp
  rw [HasRange, pixels_two]
  constructor <;> constructor <;> simp [lowerBounds, upperBounds, hp']

theorem integer_two (dt : DType) (p hi : Int) (hp : 0 ≤ p) (h : p ≤ hi) :
    IntegerPixels (twoPixels dt p).arr 0 hi := by
  rw [IntegerPixels, pixels_two]
  intro q hq
  simp only [Set.mem_insert_iff, Set.mem_singleton_iff] at hq
  rcases hq with rfl | rfl
  · exact ⟨0, by simp, le_refl _, by omega⟩
  · exact ⟨p, rfl, hp, h⟩

/-- The product 200 · 65535 does not fit into 16 bits: the brightest pixel does not become 65535. -/
example (res : Image Rat) (hres : (normalizeData false (twoPixels .u16 (200 : Int)) (0, 65535) none true).val = .ok res) :
    res.arr.get [0, 1] ≠ 65535 := by
  have := C13_brightest_pixel false (twoPixels .u16 (200 : Int)) res 65535 none 0 200 (range_two _ _ (by decide)) (by decide) rfl
    (integer_two _ _ _ (by decide) (by decide)) (Or.inr (Or.inr rfl)) (by simp [twoPixels]) (by simp) hres [0, 1] (by decide) rfl
  intro h
  exact absurd (this.1 (by exact_mod_cast h)) (by decide)

/-- **C13** is false for the code: a 16 bit image with the pixels 0 and 258, normalized to
255, has the brightest pixel at 0 instead of 255. -/
theorem C13_refuted :
    ¬ ∀ (img res : Image Rat) (m M hi : Int), HasRange img.arr m M → m < M →
      img.dtype.isUnsigned = true → IntegerPixels img.arr 0 (2 ^ img.dtype.bits - 1) →
      Supported hi → (normalizeData false img (0, hi) none true).val = .ok res →
      ∀ idx, InShape img.arr.shape idx → img.arr.get idx = M → res.arr.get idx = hi := by
  intro h
  have hr := range_two .u16 258 (by decide)
  have hpix := integer_two .u16 258 (2 ^ 16 - 1) (by decide) (by decide)
  obtain ⟨r, h1, -⟩ := C13_actual_formula false (twoPixels .u16 (258 : Int)) 255 none 0 258 hr (by decide) rfl
    hpix (Or.inr (Or.inl rfl)) (by simp [twoPixels]) (by simp)
  have h2 := h (twoPixels .u16 (258 : Int)) _ 0 258 255 hr (by decide) rfl hpix (Or.inr (Or.inl rfl))
    (by rw [h1]) [0, 1] (by decide) rfl
  have h3 := (C13_brightest_pixel false (twoPixels .u16 (258 : Int)) ⟨_, r⟩ 255 none 0 258 hr (by decide)
    rfl hpix (Or.inr (Or.inl rfl)) (by simp [twoPixels]) (by simp) (by rw [h1]) [0, 1] (by decide) rfl).1 h2
  simp [productBits, twoPixels, DType.bits] at h3

/-- 8 bit images are never stretched to 255: they are reported as normalized and returned as
they are, whatever their range. -/
theorem C13_8bit_unchanged (ident : Bool) (img : Image Rat) (h : img.dtype = .u8)
    (inp : Option (Int × Int)) (auto : Bool) :
    normalizeData ident img (0, 255) inp auto = ⟨["Data is already normalized."], .ok img⟩ := by
  unfold normalizeData
  rw [h]
  rfl

/-- Non-trivial cases: a 32 bit image with the range of a 16 bit image, and an 8 bit image
normalized to 65535 (result 255 / 255 = 1 for the brightest pixel instead of 65535). -/
example : ((65535 : Int) - 0) * 255 < 2 ^ productBits 32 255 := by decide
example : ¬ ((255 : Int) - 0) * 65535 < 2 ^ productBits 8 65535 := by decide
example : ∃ r, normalizeData false (twoPixels .u32 (60000 : Int)) (0, 255) none true =
    ⟨[], .ok ⟨.u8, r⟩⟩ ∧ r.get [0, 1] = 255 := by
  obtain ⟨r, h1, -, h2⟩ := C13_documented_formula_partial false (twoPixels .u32 (60000 : Int)) 255 none 0 60000
    (range_two _ _ (by decide)) (by decide) rfl (integer_two _ _ _ (by decide) (by decide))
    (Or.inr (Or.inl rfl)) (by simp [twoPixels]) (by simp) (by decide)
  refine ⟨r, h1, ?_⟩
  rw [h2 [0, 1] (by decide)]
  decide +kernel

/-! ### C12 repeated normalization -/

/-- **C12** for the data range 255: normalizing a normalized image returns the very same
image, whatever the first image was. -/
theorem C12_range_255_partial (ident : Bool) (img res : Image Rat) (inp inp' : Option (Int × Int))
    (auto auto' : Bool) (h : (normalizeData ident img (0, 255) inp auto).val = .ok res) :
    normalizeData ident res (0, 255) inp' auto' = ⟨["Data is already normalized."], .ok res⟩ := by
  apply C13_8bit_unchanged
  have hcast : ∀ a r, castOutput (0, 255) a = .ok r → r.dtype = .u8 := by
    intro a r h; rw [castOutput_supported 255 (Or.inr (Or.inl rfl))] at h; cases h; rfl
  have hnan : ∀ a r, (nanOutput (0, 255) a : Py (Image Rat)) = .ok r → r.dtype = .u8 := by
    intro a r h; simp [nanOutput, castOutput_supported 255 (Or.inr (Or.inl rfl))] at h
  have hbind : ∀ (x : Py (NDArray Rat)) r, (x >>= castOutput (0, 255)) = .ok r → r.dtype = .u8 := by
    intro x r h
    cases x with
    | error e => cases h
    | ok a => exact hcast a r h
  unfold normalizeData at h
  split at h
  · cases h
  · split at h
    · rename_i hn
      have : res = img := by
        simp only [bind, PyW.bind, PyW.warn, pure, PyW.pure] at h; cases h; rfl
      rw [this]
      revert hn
      cases img.dtype <;> cases ident <;>
        simp [alreadyNormalized, sameObject, DType.intMax, DType.intMin, DType.isInteger,
          DType.isUnsigned, DType.bits]
    · simp only [PyW.lift] at h
      split at h
      · cases h1 : arrMin img.arr with
        | error e => rw [h1] at h; cases h
        | ok mn =>
          cases h2 : arrMax img.arr with
          | error e => rw [h1, h2] at h; cases h
          | ok mx =>
            rw [h1, h2] at h
            simp only [bind, Except.bind] at h
            split at h
            · exact hnan _ _ h
            · exact hbind _ _ h
      · split at h
        · cases h
        · split at h
          · exact hnan _ _ h
          · exact hbind _ _ h

example (res : Image Rat) (h : (normalizeData false (twoPixels .f64 3) (0, 255) none true).val = .ok res) :
    normalizeData false res (0, 255) none true = ⟨["Data is already normalized."], .ok res⟩ :=
  C12_range_255_partial false _ res none none true true h

/-- **C12** for the data range 1: normalizing an image of range 0 to 1 again (every result of
a first normalization, see `C12_range_1_result_partial`) changes no pixel. -/
theorem C12_range_1_partial (ident : Bool) (img : Image Rat) (inp : Option (Int × Int))
    (hr : HasRange img.arr 0 1) (hfl : img.dtype = .f32) :
    ∃ r, normalizeData ident img (0, 1) inp true = ⟨[], .ok ⟨.f32, r⟩⟩ ∧
      NDArray.Same img.arr r := by
  obtain ⟨r, h1, h2, h3⟩ := C11_linear_map_partial ident img 1 inp 0 1 hr (by norm_num)
    (by rw [hfl]; rfl) (Or.inl rfl) (by simp)
  refine ⟨r, h1, h2.symm, ?_⟩
  intro idx hidx
  rw [h3 idx hidx]
  simp [quantize, linearTo]

example : ∃ r, normalizeData false (twoPixels .f32 (1 : Int)) (0, 1) none true = ⟨[], .ok ⟨.f32, r⟩⟩ ∧
    NDArray.Same (twoPixels .f32 (1 : Int)).arr r :=
  C12_range_1_partial false _ none (by simpa using range_two .f32 1 (by decide)) rfl

/-- The result of normalizing a non-constant floating point image to 1 has the range 0 to 1,
so `C12_range_1_partial` applies to it. -/
theorem C12_range_1_result_partial (ident : Bool) (img res : Image Rat) (inp : Option (Int × Int))
    (m M : Rat) (hr : HasRange img.arr m M) (hlt : m < M) (hfl : img.dtype.isFloating = true)
    (h16 : img.dtype = .f16 → M - m < 65520)
    (hres : (normalizeData ident img (0, 1) inp true).val = .ok res) :
    res.dtype = .f32 ∧ HasRange res.arr 0 1 := by
  obtain ⟨h1, h2, h3, h4, -⟩ := C11_range_and_order_partial ident img res 1 inp m M hr hlt hfl (Or.inl rfl)
    (fun h => ⟨h16 h, by simp⟩) hres
  obtain ⟨r, h5, -⟩ := C11_linear_map_partial ident img 1 inp m M hr hlt hfl (Or.inl rfl) (fun h => ⟨h16 h, by simp⟩)
  refine ⟨?_, ?_, ?_⟩
  · rw [h5] at hres; cases hres; rfl
  · obtain ⟨i, hi1, hi2⟩ := hr.1.1
    refine ⟨⟨i, by rw [h1]; exact hi1, h3 i hi1 hi2⟩, ?_⟩
    rintro p ⟨k, hk, rfl⟩
    rw [h1] at hk
    exact (h2 k hk).1
  · obtain ⟨i, hi1, hi2⟩ := hr.2.1
    refine ⟨⟨i, by rw [h1]; exact hi1, by simpa using h4 i hi1 hi2⟩, ?_⟩
    rintro p ⟨k, hk, rfl⟩
    rw [h1] at hk
    simpa using (h2 k hk).2

/-- **C12** fails for the data range 65535: normalizing a 16 bit image of full range again
leaves 1 where the pixel is 1 and 0 everywhere else. -/
theorem C12_range_65535_destroys (img : Image Rat) (inp : Option (Int × Int))
    (hdt : img.dtype = .u16) (hr : HasRange img.arr (0 : Int) (65535 : Int))
    (hpix : IntegerPixels img.arr 0 65535) :
    ∃ r, normalizeData false img (0, 65535) inp true = ⟨[], .ok ⟨.u16, r⟩⟩ ∧
      PixelMap (fun p => if p = 1 then 1 else 0) img.arr r := by
  obtain ⟨r, h1, h2, h3⟩ := C13_actual_formula false img 65535 inp 0 65535 hr (by decide)
    (by rw [hdt]; rfl) (by rw [hdt]; exact hpix) (Or.inr (Or.inr rfl)) (by rw [hdt]; simp)
    (fun _ _ => rfl)
  refine ⟨r, h1, h2, ?_⟩
  intro idx hidx
  obtain ⟨n, hn, hn0, hn1⟩ := hpix _ ⟨idx, hidx, rfl⟩
  rw [h3 idx hidx n hn, hn, hdt]
  simp only [quantize, productBits, DType.bits]
  rw [if_neg (by norm_num), floor_of_den _ _ (by norm_num)]
  have : ((n - 0) * 65535 % 2 ^ max 16 (if (65535 : Int) < 256 then 8 else 16)) / (65535 - 0) =
      if n = 1 then 1 else 0 := by
    simp only [show ¬ (65535 : Int) < 256 by norm_num, if_false, max_self]
    split <;> omega
  rw [this]
  by_cases h : n = 1
  · simp [h]
  · rw [if_neg h, if_neg (by exact_mod_cast h)]; simp

/-- Of the pixels 0 and 65535 nothing is left. -/
example : ∃ r, normalizeData false (twoPixels .u16 (65535 : Int)) (0, 65535) none true = ⟨[], .ok ⟨.u16, r⟩⟩ ∧ r.get [0, 1] = 0 := by
  obtain ⟨r, h, -, hr⟩ := C12_range_65535_destroys (twoPixels .u16 (65535 : Int)) none rfl (range_two _ _ (by decide))
    (integer_two _ _ _ (by decide) (by decide))
  exact ⟨r, h, by rw [hr [0, 1] (by decide)]; decide +kernel⟩

/-- **C12** is false for the data range 65535: two pixels 0 and 1 become 0 and 65535, and then 0 and 0. -/
theorem C12_refuted :
    ¬ ∀ (img res res' : Image Rat) (hi : Int), Supported hi →
      (normalizeData false img (0, hi) none true).val = .ok res →
      (normalizeData false res (0, hi) none true).val = .ok res' →
      NDArray.Same res.arr res'.arr := by
  intro h
  -- a float image with pixels 0 and 1
  have hr : HasRange (twoPixels .f64 (1 : Int)).arr (0 : Int) (1 : Int) := range_two _ _ (by decide)
  obtain ⟨r, h1, hs, hv⟩ := C11_linear_map_partial false (twoPixels .f64 (1 : Int)) 65535 none _ _ hr (by norm_num)
    rfl (Or.inr (Or.inr rfl)) (by simp [twoPixels])
  have e0 : r.get [0, 0] = 0 := by rw [hv [0, 0] (by decide)]; decide +kernel
  have e1 : r.get [0, 1] = 65535 := by rw [hv [0, 1] (by decide)]; decide +kernel
  have hp : pixels r = {0, 65535} := by
    rw [← toList_set]
    have hs' : r.shape = [1, 2] := hs
    simp [NDArray.toList, hs', indices, List.range_succ, e0, e1]
    ext x; simp
  have hr2 : HasRange r (0 : Int) (65535 : Int) := by
    rw [HasRange, hp]
    constructor <;> constructor <;> simp [lowerBounds, upperBounds]
  have hpix : IntegerPixels r 0 65535 := by
    rw [IntegerPixels, hp]
    intro q hq
    simp only [Set.mem_insert_iff, Set.mem_singleton_iff] at hq
    rcases hq with rfl | rfl
    · exact ⟨0, by simp, by decide, by decide⟩
    · exact ⟨65535, by simp, by decide, by decide⟩
  obtain ⟨r', h2, -, hv'⟩ := C12_range_65535_destroys ⟨.u16, r⟩ none rfl hr2 hpix
  obtain ⟨-, h3⟩ := h (twoPixels .f64 (1 : Int)) ⟨.u16, r⟩ ⟨.u16, r'⟩ 65535 (Or.inr (Or.inr rfl))
    (by rw [h1]; rfl) (by rw [h2])
  have h4 := h3 [0, 1] (by simp only [hs]; decide)
  simp only [hv' [0, 1] (by simp only [hs]; decide), e1] at h4
  norm_num at h4

example : ∃ res, (normalizeData false exampleImg (0, 1) none true).val = .ok res ∧
    HasRange res.arr 0 1 := by
  obtain ⟨r, h, -⟩ := C11_linear_map_partial false exampleImg 1 none 2 6 exampleImg_range (by norm_num) rfl
    (Or.inl rfl) (by simp [exampleImg])
  refine ⟨_, by rw [h], ?_⟩
  exact (C12_range_1_result_partial false exampleImg _ none 2 6 exampleImg_range (by norm_num) rfl
    (by simp [exampleImg]) (by rw [h])).2

/-! ### C14 unsupported requests -/

/-- **C14.** An unsupported data type is rejected, whatever the other arguments are. -/
theorem C14_data_type (ident : Bool) (img : Image Rat) (out : Int × Int) (inp : Option (Int × Int))
    (auto : Bool) (h1 : img.dtype.isInteger = false) (h2 : img.dtype.isFloating = false) :
    normalizeData ident img out inp auto = ⟨[], .error (.valueError "Data type not supported")⟩ := by
  unfold normalizeData
  rw [if_pos (by simp [h1, h2])]
  rfl

example : normalizeData false (twoPixels .complex 5) (0, 255) none true = ⟨[], .error (.valueError "Data type not supported")⟩ :=
  C14_data_type _ _ _ _ _ rfl rfl

theorem castOutput_unsupported (out : Int × Int) (h : ¬ (out.1 = 0 ∧ Supported out.2)) (a : NDArray Rat) :
    castOutput out a = .error (.valueError "Data range not supported") := by
  unfold castOutput
  rw [if_neg (by rintro ⟨h1, h2⟩; exact h ⟨h2, Or.inr (Or.inl h1)⟩),
    if_neg (by rintro ⟨h1, h2⟩; exact h ⟨h2, Or.inr (Or.inr h1)⟩),
    if_neg (by rintro ⟨h1, h2⟩; exact h ⟨h2, Or.inl h1⟩)]

/-- **C14.** An unsupported output range is rejected with a ValueError, unless it happens to be
the full range of the image's data type (then the image is returned as it is). -/
theorem C14_output_range (ident : Bool) (img : Image Rat) (out : Int × Int) (inp : Option (Int × Int))
    (auto : Bool) (h : ¬ (out.1 = 0 ∧ Supported out.2))
    (hfull : ¬ (img.dtype.isInteger = true ∧ out = (img.dtype.intMin, img.dtype.intMax))) :
    ∃ msg, (normalizeData ident img out inp auto).val = .error (.valueError msg) := by
  have hbind : ∀ (x : Py (NDArray Rat)), (∀ e, x = .error e → ∃ m, e = .valueError m) →
      ∃ msg, (x >>= castOutput out) = .error (.valueError msg) := by
    intro x hx
    cases x with
    | error e => obtain ⟨m, rfl⟩ := hx e rfl; exact ⟨m, rfl⟩
    | ok a => exact ⟨_, castOutput_unsupported out h a⟩
  have hresc : ∀ a t mn d e, rescale a t mn d out = .error e → ∃ m, e = .valueError m := by
    intro a t mn d e he
    unfold rescale at he
    simp only at he
    split at he
    · simp only [nanOutput, castOutput_unsupported out h] at he; cases he; exact ⟨_, rfl⟩
    · cases he
  have hnan : ∃ msg, (nanOutput out img.arr : Py (Image Rat)) = .error (.valueError msg) := by
    simp only [nanOutput, castOutput_unsupported out h]; exact ⟨_, rfl⟩
  unfold normalizeData
  split
  · exact ⟨_, rfl⟩
  · rw [if_neg (by
      intro hn
      simp only [alreadyNormalized, sameObject, Bool.and_eq_true, decide_eq_true_eq] at hn
      exact hfull ⟨hn.1.1, Prod.ext hn.2.1.symm hn.1.2.1.symm⟩)]
    simp only [PyW.lift]
    split
    · cases h1 : arrMin img.arr with
      | error e =>
        refine ⟨"zero-size array to reduction operation", ?_⟩
        unfold arrMin at h1
        split at h1
        · cases h1; rfl
        · cases h1
      | ok mn =>
        cases h2 : arrMax img.arr with
        | error e =>
          refine ⟨"zero-size array to reduction operation", ?_⟩
          unfold arrMax at h2
          split at h2
          · cases h2; rfl
          · cases h2
        | ok mx =>
          simp only [bind, Except.bind]
          split
          · exact hnan
          · exact hbind _ (hresc _ _ _ _)
    · split
      · exact ⟨_, rfl⟩
      · split
        · exact hnan
        · exact hbind _ (hresc _ _ _ _)

example : ∃ msg, (normalizeData false (twoPixels .u8 5) (0, 4095) none true).val = .error (.valueError msg) :=
  C14_output_range _ _ _ _ _ (by simp [Supported]) (by decide)

/-- **C14.** Without automatic range the input range must be given. -/
theorem C14_input_range (ident : Bool) (img : Image Rat) (out : Int × Int)
    (h1 : (img.dtype.isInteger || img.dtype.isFloating) = true)
    (hn : ¬ (img.dtype.isInteger = true ∧ out = (img.dtype.intMin, img.dtype.intMax))) :
    normalizeData ident img out none false =
      ⟨[], .error (.valueError "If automatic_data_range is False, data_range_input must be set.")⟩ := by
  unfold normalizeData
  rw [if_neg (by simp [h1]), if_neg (by
    intro hn'
    simp only [alreadyNormalized, sameObject, Bool.and_eq_true, decide_eq_true_eq] at hn'
    exact hn ⟨hn'.1.1, Prod.ext hn'.2.1.symm hn'.1.2.1.symm⟩)]
  rfl

example : normalizeData false (twoPixels .u8 5) (0, 1) none false =
    ⟨[], .error (.valueError "If automatic_data_range is False, data_range_input must be set.")⟩ :=
  C14_input_range _ _ _ rfl (by decide)

/-- **C14.** Whenever an image is returned, either it is the input image and it was reported as
already normalized, or no warning was issued, the output range is a supported one and the data
type is the one of that range. -/
theorem C14_result_type (ident : Bool) (img res : Image Rat) (out : Int × Int)
    (inp : Option (Int × Int)) (auto : Bool)
    (h : (normalizeData ident img out inp auto).val = .ok res) :
    (res = img ∧ (normalizeData ident img out inp auto).warns = ["Data is already normalized."]) ∨
    ((normalizeData ident img out inp auto).warns = [] ∧ out.1 = 0 ∧ Supported out.2 ∧
      res.dtype = rangeType out.2 ∧ res.arr.shape = img.arr.shape) := by
  have hcast : ∀ a r, castOutput out a = .ok r →
      out.1 = 0 ∧ Supported out.2 ∧ r.dtype = rangeType out.2 ∧ r.arr.shape = a.shape := by
    intro a r h
    by_cases hs : out.1 = 0 ∧ Supported out.2
    · have ho : out = (0, out.2) := Prod.ext hs.1 rfl
      rw [ho, castOutput_supported out.2 hs.2] at h
      cases h
      exact ⟨hs.1, hs.2, outType_eq _ hs.2, rfl⟩
    · rw [castOutput_unsupported out hs] at h; cases h
  have hnan : ∀ a r, (nanOutput out a : Py (Image Rat)) = .ok r → False := by
    intro a r h; unfold nanOutput at h; split at h <;> cases h
  have hbind : ∀ t mn d r, (rescale img.arr t mn d out >>= castOutput out) = .ok r →
      out.1 = 0 ∧ Supported out.2 ∧ r.dtype = rangeType out.2 ∧ r.arr.shape = img.arr.shape := by
    intro t mn d r h
    cases hx : rescale img.arr t mn d out with
    | error e => rw [hx] at h; cases h
    | ok a =>
      rw [hx] at h
      obtain ⟨g1, g2, g3, g4⟩ := hcast a r h
      refine ⟨g1, g2, g3, ?_⟩
      rw [g4]
      unfold rescale at hx
      simp only at hx
      split at hx
      · unfold nanOutput at hx; split at hx <;> cases hx
      · cases hx; rfl
  unfold normalizeData at h ⊢
  split at h
  · cases h
  · rename_i hdt
    rw [if_neg hdt]
    split at h
    · rename_i hn
      left
      rw [if_pos hn]
      simp only [bind, PyW.bind, PyW.warn, pure, PyW.pure] at h ⊢
      cases h; exact ⟨rfl, rfl⟩
    · rename_i hn
      right
      rw [if_neg hn]
      refine ⟨rfl, ?_⟩
      simp only [PyW.lift] at h
      split at h
      · cases h1 : arrMin img.arr with
        | error e => rw [h1] at h; cases h
        | ok mn =>
          cases h2 : arrMax img.arr with
          | error e => rw [h1, h2] at h; cases h
          | ok mx =>
            rw [h1, h2] at h
            simp only [bind, Except.bind] at h
            split at h
            · exact (hnan _ _ h).elim
            · exact hbind _ _ _ _ h
      · split at h
        · cases h
        · split at h
          · exact (hnan _ _ h).elim
          · exact hbind _ _ _ _ h

example : (normalizeData false exampleImg (0, 1000) none true).val =
    .error (.valueError "Data range not supported") := by
  rw [normalize_auto false exampleImg (0, 1000) none 2 6 exampleImg_range.1 exampleImg_range.2 rfl rfl
    (no_overflow_of_ne (by simp [exampleImg]) _ _ _)]
  simp [exampleImg, DType.isInteger, rescale, store, bind, Except.bind, PyW.lift]
  norm_num [castOutput]

end Viqa
