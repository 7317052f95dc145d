import Verif.Props.Normalize

set_option linter.unusedSimpArgs false

/-! C13 for images of signed integer types. -/

namespace Viqa
open Spec

/-- Number of bits of the product of a pixel of a signed image of `b` bits and `hi`. -/
def signedProductBits (b : Nat) (hi : Int) : Nat :=
  if hi < 2 ^ (b - 1) then b else if hi < 256 then 16 else 32

theorem wrapInt_signed {dt : DType} (h : dt.isUnsigned = false) (hi : dt.isInteger = true) {x : Int}
    (h0 : -2 ^ (dt.bits - 1) ≤ x) (h1 : x < 2 ^ (dt.bits - 1)) : wrapInt dt x = x := by
  have hb : (2 : Int) ^ dt.bits = 2 ^ (dt.bits - 1) + 2 ^ (dt.bits - 1) := by
    revert hi; cases dt <;> simp [DType.isInteger, DType.bits]
  simp only [wrapInt, DType.intMin, h, Bool.false_eq_true, if_false]
  rw [Int.emod_eq_of_lt (by omega) (by omega)]
  omega

theorem wrapInt_signed_over {dt : DType} (h : dt.isUnsigned = false) (hi : dt.isInteger = true) {x : Int}
    (h0 : 2 ^ (dt.bits - 1) ≤ x) (h1 : x < 2 ^ dt.bits) : wrapInt dt x = x - 2 ^ dt.bits := by
  have hb : (2 : Int) ^ dt.bits = 2 ^ (dt.bits - 1) + 2 ^ (dt.bits - 1) := by
    revert hi; cases dt <;> simp [DType.isInteger, DType.bits]
  simp only [wrapInt, DType.intMin, h, Bool.false_eq_true, if_false]
  rw [show x - -(2 : Int) ^ (dt.bits - 1) = (x - 2 ^ (dt.bits - 1)) + 1 * 2 ^ dt.bits by omega, Int.add_mul_emod_self_right,
    Int.emod_eq_of_lt (by omega) (by omega)]
  omega

theorem signed_not_normalized (ident : Bool) {dt : DType} (hu : dt.isUnsigned = false) (hint : dt.isInteger = true)
    {hi : Int} (hhi : Supported hi) : alreadyNormalized ident dt (0, hi) = false := by
  revert hu hint
  rcases hhi with e | e | e <;> subst e <;> cases dt <;> cases ident <;>
    simp [alreadyNormalized, sameObject, DType.intMax, DType.intMin, DType.isInteger, DType.isUnsigned, DType.bits]

/-- **C13** for signed images: the documented formula holds if the range of the image fits into its own
type and the largest product into the type it is computed in. The full claim has neither hypothesis. -/
theorem C13_signed_partial (ident : Bool) (img : Image Rat) (hi : Int) (inp : Option (Int × Int))
    (m M : Int) (hr : HasRange img.arr m M) (hlt : m < M) (hint : img.dtype.isInteger = true)
    (hu : img.dtype.isUnsigned = false)
    (hpix : IntegerPixels img.arr (-2 ^ (img.dtype.bits - 1)) (2 ^ (img.dtype.bits - 1) - 1)) (hhi : Supported hi)
    (hfit : M - m < 2 ^ (img.dtype.bits - 1))
    (hprod : (M - m) * hi < 2 ^ (signedProductBits img.dtype.bits hi - 1)) :
    ∃ r, normalizeData ident img (0, hi) inp true = ⟨[], .ok ⟨rangeType hi, r⟩⟩ ∧
      PixelMap (fun p => quantize hi (linearTo hi m M p)) img.arr r := by
  have hnorm := signed_not_normalized ident hu hint hhi
  have hf16 : img.dtype ≠ .f16 := by intro h; rw [h] at hint; simp [DType.isInteger] at hint
  obtain ⟨t, ht, htu, hti, htb⟩ : ∃ t, arithType img.dtype hi = some t ∧ t.isUnsigned = false ∧ t.isInteger = true ∧
      t.bits = signedProductBits img.dtype.bits hi := by
    revert hu hint
    rcases hhi with e | e | e <;> subst e <;> cases img.dtype <;>
      simp [arithType, DType.isUnsigned, DType.isInteger, DType.bits, unsignedWidth, signedType, signedProductBits]
  have hden : store (some img.dtype) ((M : Rat) - m) = ((M - m : Int) : Rat) := by
    rw [← Int.cast_sub, store_int, wrapInt_signed hu hint _ hfit]
    have : (0 : Int) ≤ 2 ^ (img.dtype.bits - 1) := by positivity
    omega
  have hd : ((M - m : Int) : Rat) ≠ 0 := by
    have : (M - m : Int) ≠ 0 := by omega
    exact_mod_cast this
  have hhi0 : (0 : Int) ≤ hi := by rcases hhi with e | e | e <;> subst e <;> decide
  rw [normalize_auto ident img (0, hi) inp m M hr.1 hr.2 (by simp [hint]) hnorm (no_overflow_of_ne hf16 _ _ _)]
  simp only [hint, if_true, hden, rescale, if_neg hd, bind, Except.bind, sub_zero,
    castOutput_supported hi hhi, Option.bind, ht, outType_eq hi hhi]
  refine ⟨_, rfl, rfl, ?_⟩
  intro idx hidx
  obtain ⟨n, hn, -, -⟩ := hpix _ ⟨idx, hidx, rfl⟩
  have hm1 : (m : Rat) ≤ n := by rw [← hn]; exact hr.1.2 ⟨idx, hidx, rfl⟩
  have hm2 : (n : Rat) ≤ M := by rw [← hn]; exact hr.2.2 ⟨idx, hidx, rfl⟩
  have hm1' : m ≤ n := by exact_mod_cast hm1
  have hm2' : n ≤ M := by exact_mod_cast hm2
  have h0 : (0 : Int) ≤ 2 ^ (img.dtype.bits - 1) := by positivity
  have h0' : (0 : Int) ≤ 2 ^ (t.bits - 1) := by positivity
  simp only [NDArray.map, hn]
  have hs1 : store (some img.dtype) ((n : Rat) - m) = ((n - m : Int) : Rat) := by
    rw [← Int.cast_sub, store_int, wrapInt_signed hu hint (by omega) (by omega)]
  have hs2 : store (some t) (((n - m : Int) : Rat) * ((hi : Int) : Rat)) = (((n - m) * hi : Int) : Rat) := by
    rw [← Int.cast_mul, store_int, wrapInt_signed htu hti]
    · have : 0 ≤ (n - m) * hi := mul_nonneg (by omega) hhi0
      omega
    · rw [htb]; nlinarith
  rw [hs1, hs2]
  simp only [Int.cast_zero, add_zero]
  have e : ((((n - m) * hi : Int) : Rat) / ((M - m : Int) : Rat)) = linearTo hi m M n := by
    unfold linearTo; push_cast; ring
  rw [e]
  have hpos : (0 : Rat) < (M : Rat) - m := by
    have : (m : Rat) < M := by exact_mod_cast hlt
    linarith
  have hhiq : (0 : Rat) ≤ hi := by exact_mod_cast hhi0
  apply outCast_eq hi hhi
  · unfold linearTo
    exact div_nonneg (mul_nonneg (by linarith) hhiq) hpos.le
  · unfold linearTo
    rw [div_le_iff₀ hpos]
    nlinarith

/-- **C13** for signed images whose range exceeds their own type, normalized to `(0, 1)`: differences
wrap around. Every pixel above the minimum by less than half of the range of the type becomes negative,
every other pixel below the maximum exceeds 1. -/
theorem C13_signed_wraps (ident : Bool) (img : Image Rat) (inp : Option (Int × Int))
    (m M : Int) (hr : HasRange img.arr m M) (hint : img.dtype.isInteger = true)
    (hu : img.dtype.isUnsigned = false)
    (hpix : IntegerPixels img.arr (-2 ^ (img.dtype.bits - 1)) (2 ^ (img.dtype.bits - 1) - 1))
    (hover : 2 ^ (img.dtype.bits - 1) ≤ M - m) :
    ∃ r, normalizeData ident img (0, 1) inp true = ⟨[], .ok ⟨.f32, r⟩⟩ ∧ r.shape = img.arr.shape ∧
      ∀ idx, InShape img.arr.shape idx → ∀ n : Int, img.arr.get idx = n → m < n →
        (n - m < 2 ^ (img.dtype.bits - 1) → r.get idx < 0) ∧
        (2 ^ (img.dtype.bits - 1) ≤ n - m → 1 ≤ r.get idx ∧ (n < M → 1 < r.get idx)) := by
  have hhi : Supported 1 := Or.inl rfl
  have hnorm := signed_not_normalized ident hu hint hhi
  have hf16 : img.dtype ≠ .f16 := by intro h; rw [h] at hint; simp [DType.isInteger] at hint
  have ht : arithType img.dtype 1 = some img.dtype := by
    revert hu hint
    cases img.dtype <;> simp [arithType, DType.isUnsigned, DType.isInteger, DType.bits]
  have hb : (2 : Int) ^ img.dtype.bits = 2 ^ (img.dtype.bits - 1) + 2 ^ (img.dtype.bits - 1) := by
    revert hint; cases img.dtype <;> simp [DType.isInteger, DType.bits]
  obtain ⟨m', hm', hm0, -⟩ := hpix m hr.1.1
  obtain ⟨M', hM', -, hM0⟩ := hpix M hr.2.1
  have hm' : m = m' := by exact_mod_cast hm'
  have hM' : M = M' := by exact_mod_cast hM'
  have hden : store (some img.dtype) ((M : Rat) - m) = ((M - m - 2 ^ img.dtype.bits : Int) : Rat) := by
    rw [← Int.cast_sub, store_int, wrapInt_signed_over hu hint hover (by omega)]
  have hneg : M - m - 2 ^ img.dtype.bits < 0 := by omega
  have hnegq : ((M - m - 2 ^ img.dtype.bits : Int) : Rat) < 0 := by exact_mod_cast hneg
  rw [normalize_auto ident img (0, 1) inp m M hr.1 hr.2 (by simp [hint]) hnorm (no_overflow_of_ne hf16 _ _ _)]
  simp only [hint, if_true, hden, rescale, if_neg hnegq.ne, bind, Except.bind, sub_zero,
    castOutput_supported 1 hhi, Option.bind, ht, outType_eq 1 hhi]
  refine ⟨_, rfl, rfl, ?_⟩
  intro idx hidx n hn hlt
  have hm2 : (n : Rat) ≤ M := by rw [← hn]; exact hr.2.2 ⟨idx, hidx, rfl⟩
  have hm2' : n ≤ M := by exact_mod_cast hm2
  have h0 : (0 : Int) ≤ 2 ^ (img.dtype.bits - 1) := by positivity
  have hcast : ∀ v : Rat, outCast 1 v = v := by intro v; rfl
  simp only [NDArray.map, hn, hcast, Int.cast_zero, add_zero, Int.cast_one, mul_one]
  constructor
  · intro hs
    rw [show store (some img.dtype) ((n : Rat) - m) = ((n - m : Int) : Rat) by
      rw [← Int.cast_sub, store_int, wrapInt_signed hu hint (by omega) (by omega)]]
    rw [store_int, wrapInt_signed hu hint (by omega) (by omega)]
    have : (0 : Rat) < ((n - m : Int) : Rat) := by exact_mod_cast (by omega : (0 : Int) < n - m)
    exact div_neg_of_pos_of_neg this hnegq
  · intro hs
    rw [show store (some img.dtype) ((n : Rat) - m) = ((n - m - 2 ^ img.dtype.bits : Int) : Rat) by
      rw [← Int.cast_sub, store_int, wrapInt_signed_over hu hint hs (by omega)]]
    rw [store_int, wrapInt_signed hu hint (by omega) (by omega), le_div_iff_of_neg hnegq, lt_div_iff_of_neg hnegq,
      one_mul]
    refine ⟨?_, fun hM => ?_⟩
    · exact_mod_cast (by omega : n - m - 2 ^ img.dtype.bits ≤ M - m - 2 ^ img.dtype.bits)
    · exact_mod_cast (by omega : n - m - 2 ^ img.dtype.bits < M - m - 2 ^ img.dtype.bits)

/-- A 16 bit image of the full range: -32768, 0 and 32767. -/
def fullRange16 : Image Rat :=
  ⟨.i16, ⟨[1, 3], fun i => if i = [0, 0] then -32768 else if i = [0, 1] then 0 else 32767⟩⟩

theorem fullRange16_pixels : pixels fullRange16.arr = {-32768, 0, 32767} := by
  rw [← toList_set]
  simp [NDArray.toList, fullRange16, indices, List.range_succ]
  ext x; simp

theorem fullRange16_range : HasRange fullRange16.arr (-32768 : Int) (32767 : Int) := by
  rw [HasRange, fullRange16_pixels]
  constructor <;> constructor <;> simp [lowerBounds, upperBounds] <;> norm_num

theorem fullRange16_integer : IntegerPixels fullRange16.arr (-2 ^ 15) (2 ^ 15 - 1) := by
  rw [IntegerPixels, fullRange16_pixels]
  intro q hq
  simp only [Set.mem_insert_iff, Set.mem_singleton_iff] at hq
  rcases hq with rfl | rfl | rfl
  · exact ⟨-32768, by norm_num, by norm_num, by norm_num⟩
  · exact ⟨0, by norm_num, by norm_num, by norm_num⟩
  · exact ⟨32767, by norm_num, by norm_num, by norm_num⟩

/-- The middle gray value of a 16 bit image is normalized to a value above 1. -/
example : ∃ r, normalizeData false fullRange16 (0, 1) none true = ⟨[], .ok ⟨.f32, r⟩⟩ ∧ 1 < r.get [0, 1] := by
  obtain ⟨r, h1, -, h3⟩ := C13_signed_wraps false fullRange16 none (-32768) 32767 fullRange16_range rfl rfl
    fullRange16_integer (by decide)
  exact ⟨r, h1, ((h3 [0, 1] (by decide) 0 (by decide +kernel) (by decide)).2 (by decide)).2 (by decide)⟩

/-- The claim that normalized pixels lie in the output range fails for signed images, even for `(0, 1)`. -/
theorem C13_signed_refuted :
    ¬ ∀ (img res : Image Rat) (m M : Int), HasRange img.arr m M → m < M → img.dtype.isInteger = true →
      IntegerPixels img.arr img.dtype.intMin img.dtype.intMax →
      (normalizeData false img (0, 1) none true).val = .ok res →
      ∀ idx, InShape img.arr.shape idx → 0 ≤ res.arr.get idx ∧ res.arr.get idx ≤ 1 := by
  intro h
  obtain ⟨r, h1, -, h3⟩ := C13_signed_wraps false fullRange16 none (-32768) 32767 fullRange16_range rfl rfl
    fullRange16_integer (by decide)
  have h5 := ((h3 [0, 1] (by decide) 0 (by decide +kernel) (by decide)).2 (by decide)).2 (by decide)
  have h6 := h fullRange16 _ (-32768) 32767 fullRange16_range (by decide) rfl
    (by simpa [fullRange16, DType.intMin, DType.intMax, DType.isUnsigned, DType.bits] using fullRange16_integer)
    (by rw [h1]) [0, 1] (by decide)
  exact absurd h6.2 (not_le.2 h5)

/-- A 16 bit image with grey values of a CT scan in Hounsfield units is normalized as documented. -/
example : ∃ r, normalizeData false ⟨.i16, ⟨[1, 3], fun i => if i = [0, 0] then -1024 else if i = [0, 1] then 0 else 3071⟩⟩
    (0, 1) none true = ⟨[], .ok ⟨.f32, r⟩⟩ ∧ r.get [0, 1] = 1024 / 4095 := by
  have hp : pixels (⟨[1, 3], fun i => if i = [0, 0] then -1024 else if i = [0, 1] then 0 else 3071⟩ : NDArray Rat) =
      {-1024, 0, 3071} := by
    rw [← toList_set]
    simp [NDArray.toList, indices, List.range_succ]
    ext x; simp
  obtain ⟨r, h1, -, h3⟩ := C13_signed_partial false
    ⟨.i16, ⟨[1, 3], fun i => if i = [0, 0] then -1024 else if i = [0, 1] then 0 else 3071⟩⟩ 1 none (-1024) 3071
    (by rw [HasRange, hp]; constructor <;> constructor <;> simp [lowerBounds, upperBounds] <;> norm_num) (by decide) rfl rfl
    (by
      rw [IntegerPixels, hp]
      intro q hq
      simp only [Set.mem_insert_iff, Set.mem_singleton_iff] at hq
      rcases hq with rfl | rfl | rfl
      · exact ⟨-1024, by norm_num, by decide, by decide⟩
      · exact ⟨0, by norm_num, by decide, by decide⟩
      · exact ⟨3071, by norm_num, by decide, by decide⟩) (Or.inl rfl) (by decide) (by decide)
  refine ⟨r, h1, ?_⟩
  rw [h3 [0, 1] (by decide)]
  decide +kernel

end Viqa
