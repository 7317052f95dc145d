import Verif.Props.Normalize
import Verif.Props.NormalizeSigned
import Verif.Props.Noise
import Verif.Props.Stability

/-!
C184: normalization and the contrast to noise ratio.
-/

namespace Viqa
open Spec

/-- Normalization to `(0, 1)` without overflow: the linear map. -/
theorem normalize_unit (ident : Bool) (img : Image Rat) (inp : Option (Int × Int)) (m M : Rat) (hr : HasRange img.arr m M) (hlt : m < M)
    (hfl : img.dtype.isFloating = true) (h16 : img.dtype = .f16 → M - m < 65520) :
    normalizeData ident img (0, 1) inp true = ⟨[], .ok ⟨.f32, img.arr.map (fun p => 1 / (M - m) * p + -(m / (M - m)))⟩⟩ := by
  have hint : img.dtype.isInteger = false := by
    revert hfl; cases img.dtype <;> simp [DType.isFloating, DType.isInteger]
  have hhi : Supported 1 := Or.inl rfl
  rw [normalize_auto ident img (0, 1) inp m M hr.1 hr.2 (by simp [hfl])
    (by simp [alreadyNormalized, hint]) (no_halfOverflow hhi hlt.le (fun h => ⟨h16 h, by simp⟩))]
  have hd : M - m ≠ 0 := by intro h; linarith
  simp only [hint, Bool.false_eq_true, if_false, store, rescale, if_neg hd, bind, Except.bind, Option.bind]
  have : (fun p : Rat => (p - m) * ((1 - 0 : Int) : Rat) / (M - m) + ((0 : Int) : Rat)) = fun p => 1 / (M - m) * p + -(m / (M - m)) := by
    funext p
    field_simp
    push_cast
    ring
  rw [this]
  rfl

/-- **C184 (partial).** Normalizing a floating point image to `(0, 1)` does not change its CNR, for every choice of regions, also
automatic ones. -/
theorem C184_partial (ident : Bool) (img : Image Rat) (inp : Option (Int × Int)) (args : CnrArgs) (m M : Rat) (hr : HasRange img.arr m M)
    (hlt : m < M) (hfl : img.dtype.isFloating = true) (h16 : img.dtype = .f16 → M - m < 65520)
    (hauto : args.auto = true → isColour img.arr = false) :
    ∃ n, normalizeData ident img (0, 1) inp true = ⟨[], .ok n⟩ ∧ cnr n.arr args = cnr img.arr args := by
  refine ⟨_, normalize_unit ident img inp m M hr hlt hfl h16, ?_⟩
  exact C54_affine img.arr args (1 / (M - m)) (-(m / (M - m))) (by have := sub_pos.2 hlt; positivity) hauto

theorem nearlyFlat_range : HasRange (nearlyFlat (1 / 1000)) 1 2 := by
  refine ⟨⟨⟨[1, 1], by simp [nearlyFlat, InShape], by simp [nearlyFlat]⟩, ?_⟩, ⟨⟨[5, 5], by simp [nearlyFlat, InShape], by simp [nearlyFlat]⟩, ?_⟩⟩
  · rintro _ ⟨i, -, rfl⟩
    simp only [nearlyFlat]
    split_ifs <;> norm_num
  · rintro _ ⟨i, -, rfl⟩
    simp only [nearlyFlat]
    split_ifs <;> norm_num

/-- **C184 is false** for the integer ranges: gray values of the background are merged. -/
theorem C184_refuted : ∃ (img n : Image Rat) (v : ℝ), img.dtype = .f32 ∧ HasRange img.arr 1 2 ∧
    normalizeData false img (0, 255) none true = ⟨[], .ok n⟩ ∧ cnr img.arr sampleRowsArgs = .ok v ∧ 0 < v ∧
    cnr n.arr sampleRowsArgs = .ok 0 := by
  have hr := nearlyFlat_range
  obtain ⟨r, h1, h2, h3⟩ := C11_linear_map_partial false ⟨.f32, nearlyFlat (1 / 1000)⟩ 255 none 1 2 hr (by norm_num) rfl (Or.inr (Or.inl rfl)) (by simp)
  have hc : ∀ t, cnr (nearlyFlat t) sampleRowsArgs = cnrOf [2, 2, 2, 2] [1 + t, 1, 1, 1] := by
    intro t
    rw [← nearlyFlat_background t, ← nearlyFlat_signal t]
    rfl
  refine ⟨⟨.f32, nearlyFlat (1 / 1000)⟩, _, (meanQ [2, 2, 2, 2] - meanQ [1 + 1 / 1000, 1, 1, 1] : Rat) / stdQ [1 + 1 / 1000, 1, 1, 1], rfl, hr, h1, ?_, ?_, ?_⟩
  · show cnr (nearlyFlat (1 / 1000)) sampleRowsArgs = _
    rw [hc]
    unfold cnrOf
    rw [if_neg (by simp), if_neg (by rw [nearlyFlat_var]; norm_num), if_neg (by simp)]
  · refine div_pos ?_ (nearlyFlat_std (1 / 1000) (by norm_num)).2
    norm_num [meanQ]
  · show cnr r sampleRowsArgs = .ok 0
    have hloc := C54_local ⟨[6, 6], fun i => quantize 255 (linearTo 255 1 2 ((nearlyFlat (1 / 1000)).get i))⟩ r sampleRowsArgs rfl h2.symm _ _ rfl
      (fun i hi _ => (h3 i hi).symm)
    rw [hloc]
    have hb : (⟨⟨[6, 6], fun i => quantize 255 (linearTo 255 1 2 ((nearlyFlat (1 / 1000)).get i))⟩, boxMask [6, 6] [1, 1] 1⟩ : Region Rat).values = [0, 0, 0, 0] := by
      decide +kernel
    have hsig : (⟨⟨[6, 6], fun i => quantize 255 (linearTo 255 1 2 ((nearlyFlat (1 / 1000)).get i))⟩, boxMask [6, 6] [4, 4] 1⟩ : Region Rat).values =
        [255, 255, 255, 255] := by
      decide +kernel
    refine C54_zero _ sampleRowsArgs ⟨_, boxMask [6, 6] [4, 4] 1⟩ ⟨_, boxMask [6, 6] [1, 1] 1⟩ rfl ?_ ?_ (Or.inl ⟨0, ?_⟩)
    · rw [hb]; simp
    · rw [hsig]; simp
    · rw [hb]; simp

/-- **C184 (partial).** The same for unsigned integer images and chosen regions. -/
theorem C184_unsigned_partial (ident : Bool) (img : Image Rat) (inp : Option (Int × Int)) (args : CnrArgs) (m M : Int) (hr : HasRange img.arr m M)
    (hlt : m < M) (hu : img.dtype.isUnsigned = true) (hpix : IntegerPixels img.arr 0 (2 ^ img.dtype.bits - 1)) (hauto : args.auto = false)
    (s g : Region Rat) (hsel : cnrSelect img.arr args = .ok (s, g)) :
    ∃ n, normalizeData ident img (0, 1) inp true = ⟨[], .ok n⟩ ∧ cnr n.arr args = cnr img.arr args := by
  obtain ⟨r, h1, h2, h3⟩ := C13_documented_formula_partial ident img 1 inp m M hr hlt hu hpix (Or.inl rfl) (by simp) (by simp) (by
    obtain ⟨a, ha, ha0, -⟩ := hpix _ hr.1.1
    obtain ⟨b, hb, -, hb1⟩ := hpix _ hr.2.1
    have ha' : m = a := by exact_mod_cast ha
    have hb' : M = b := by exact_mod_cast hb
    have hle : (2 : Int) ^ img.dtype.bits ≤ 2 ^ productBits img.dtype.bits 1 := by
      unfold productBits
      exact pow_le_pow_right₀ (by norm_num) (le_max_left _ _)
    omega)
  refine ⟨_, h1, ?_⟩
  rw [← C54_affine img.arr args (1 / (M - m)) (-(m / (M - m))) (by
    have : (m : Rat) < M := by exact_mod_cast hlt
    have := sub_pos.2 this
    positivity) (fun h => by rw [hauto] at h; cases h)]
  obtain ⟨s', g', hs'⟩ : ∃ s' g', cnrSelect (img.arr.map (fun p => 1 / ((M : Rat) - m) * p + -(m / (M - m)))) args = .ok (s', g') := by
    have := (cnrSelect_sel img.arr (img.arr.map (fun p => 1 / ((M : Rat) - m) * p + -(m / (M - m)))) args hauto rfl s g hsel).1
    exact ⟨_, _, this⟩
  refine C54_local _ _ args hauto h2.symm s' g' hs' (fun i hi _ => ?_)
  have e := h3 i hi
  show _ = r.get i
  rw [e]
  have hd : (M : Rat) - m ≠ 0 := by
    have : (m : Rat) < M := by exact_mod_cast hlt
    intro h; linarith
  simp only [NDArray.map, quantize, if_true, linearTo]
  field_simp
  push_cast
  ring

/-! ### Examples -/

example : ∃ n, normalizeData false ⟨.f32, nearlyFlat (1 / 1000)⟩ (0, 1) none true = ⟨[], .ok n⟩ ∧
    cnr n.arr sampleRowsArgs = cnr (nearlyFlat (1 / 1000)) sampleRowsArgs := by
  refine C184_partial false ⟨.f32, nearlyFlat (1 / 1000)⟩ none sampleRowsArgs 1 2 nearlyFlat_range (by norm_num) rfl (by simp) (by simp [sampleRowsArgs])

/-- An 8 bit image. -/
example : ∃ n, normalizeData false ⟨.u8, ⟨[6, 6], fun i => i.sum + 3⟩⟩ (0, 1) none true = ⟨[], .ok n⟩ ∧
    cnr n.arr sampleRowsArgs = cnr ⟨[6, 6], fun i => i.sum + 3⟩ sampleRowsArgs := by
  refine C184_unsigned_partial false ⟨.u8, ⟨[6, 6], fun i => i.sum + 3⟩⟩ none sampleRowsArgs 3 13 ?_ (by norm_num) rfl ?_ rfl _ _ rfl
  · refine ⟨⟨⟨[0, 0], by simp [InShape], by simp⟩, ?_⟩, ⟨⟨[5, 5], by simp [InShape], by norm_num⟩, ?_⟩⟩
    · rintro _ ⟨i, -, rfl⟩
      have : (0 : Rat) ≤ (i.sum : Nat) := Nat.cast_nonneg _
      simpa using this
    · rintro _ ⟨i, hi, rfl⟩
      obtain ⟨a, b, rfl, ha, hb⟩ : ∃ a b, i = [a, b] ∧ a < 6 ∧ b < 6 := by
        rcases i with _ | ⟨a, _ | ⟨b, _ | ⟨d, l⟩⟩⟩ <;> simp_all [InShape]
      have : a + b ≤ 10 := by omega
      have : ((a + b : Nat) : Rat) ≤ 10 := by exact_mod_cast this
      simp
      push_cast at this
      linarith
  · rintro _ ⟨i, hi, rfl⟩
    obtain ⟨a, b, rfl, ha, hb⟩ : ∃ a b, i = [a, b] ∧ a < 6 ∧ b < 6 := by
      rcases i with _ | ⟨a, _ | ⟨b, _ | ⟨d, l⟩⟩⟩ <;> simp_all [InShape]
    refine ⟨(a : Int) + b + 3, by simp, by omega, ?_⟩
    show (a : Int) + b + 3 ≤ 2 ^ 8 - 1
    norm_num
    omega

end Viqa
