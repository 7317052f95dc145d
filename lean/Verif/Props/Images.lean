import Verif.Lemmas.Images
import Verif.Props.Normalize

set_option linter.unusedSimpArgs false

/-!
Properties C09, C10, C15 – C20 and C22: loading, cropping and pairing images.
-/

namespace Viqa
open Spec

/-! ### C15 – C17 cropping -/

/-- **C15** for 2D images. -/
theorem C15_crop_2d {α} (img : NDArray α) (n0 n1 : Nat) (hs : img.shape = [n0, n1]) (x y : Range)
    (hx : InsideAxis n0 x) (hy : InsideAxis n1 y) (hx' : x.2 - x.1 < n0) (hy' : y.2 - y.1 < n1) :
    ∃ b, cropImage img x y none = ⟨[], .ok b⟩ ∧ IsRegion2 img b x y := by
  refine ⟨sliceArray img [x, y], ?_, sliceArray_two img n0 n1 hs x y hx hy⟩
  unfold cropImage
  simp only [hs]
  rw [if_pos ⟨hx', hy'⟩]
  rfl

example : ∃ b, cropImage (⟨[5, 4], fun i => i⟩ : NDArray (List Nat)) (1, 4) (0, 2) none = ⟨[], .ok b⟩ ∧ b.shape = [3, 2] ∧
    b.get [2, 1] = [3, 1] := by
  obtain ⟨b, h1, h2, h3⟩ := C15_crop_2d (⟨[5, 4], fun i => i⟩ : NDArray (List Nat)) 5 4 rfl (1, 4) (0, 2)
    ⟨by decide, by decide, by decide⟩ ⟨by decide, by decide, by decide⟩ (by decide) (by decide)
  exact ⟨b, h1, h2, h3 2 1 (by decide) (by decide)⟩

/-- **C15** for volumes (that cannot be mistaken for colour images). -/
theorem C15_crop_3d {α} (img : NDArray α) (n0 n1 n2 : Nat) (hs : img.shape = [n0, n1, n2])
    (hn : n2 ≠ 3) (x y z : Range)
    (hx : InsideAxis n0 x) (hy : InsideAxis n1 y) (hz : InsideAxis n2 z)
    (hx' : x.2 - x.1 < n0) (hy' : y.2 - y.1 < n1) (hz' : z.2 - z.1 < n2) :
    ∃ b, cropImage img x y (some z) = ⟨[], .ok b⟩ ∧ IsRegion3 img b x y z := by
  refine ⟨sliceArray img [x, y, z], ?_, sliceArray_three img n0 n1 n2 hs x y z hx hy hz⟩
  unfold cropImage
  simp only [hs]
  rw [if_neg hn, if_pos ⟨hx', hy', hz'⟩]
  rfl

/-- A depth range given for a 2D image is ignored with a warning. -/
theorem C15_crop_2d_depth {α} (img : NDArray α) (n0 n1 : Nat) (hs : img.shape = [n0, n1]) (x y z : Range)
    (hx : InsideAxis n0 x) (hy : InsideAxis n1 y) (hx' : x.2 - x.1 < n0) (hy' : y.2 - y.1 < n1) :
    ∃ b, cropImage img x y (some z) = ⟨["Image is 2D. Parameter z will be ignored."], .ok b⟩ ∧
      IsRegion2 img b x y := by
  refine ⟨sliceArray img [x, y], ?_, sliceArray_two img n0 n1 hs x y hx hy⟩
  unfold cropImage
  simp only [hs]
  rw [if_pos ⟨hx', hy'⟩]
  rfl

/-- A 5 × 4 × 6 volume with the value `100 x + 10 y + z`. -/
def exampleVol : NDArray Nat :=
  ⟨[5, 4, 6], fun i => match i with | [x, y, z] => 100 * x + 10 * y + z | _ => 0⟩

example : ∃ b, cropImage exampleVol (1, 4) (0, 2) (some (2, 5)) = ⟨[], .ok b⟩ ∧
    b.shape = [3, 2, 3] ∧ b.get [1, 1, 2] = 214 := by
  obtain ⟨b, h1, h2, h3⟩ := C15_crop_3d exampleVol 5 4 6 rfl (by decide) (1, 4) (0, 2) (2, 5)
    ⟨by decide, by decide, by decide⟩ ⟨by decide, by decide, by decide⟩ ⟨by decide, by decide, by decide⟩
    (by decide) (by decide) (by decide)
  exact ⟨b, h1, h2, h3 1 1 2 (by decide) (by decide) (by decide)⟩

/-- **C16** for regions inside the image: the result is the requested region or an error. -/
theorem C16_inside_exact_or_raises_partial {α} (img b : NDArray α) (n0 n1 n2 : Nat)
    (hs : img.shape = [n0, n1, n2]) (x y z : Range)
    (hx : InsideAxis n0 x) (hy : InsideAxis n1 y) (hz : InsideAxis n2 z)
    (h : (cropImage img x y (some z)).val = .ok b) :
    ∀ i j k : Nat, i < x.2 - x.1 → j < y.2 - y.1 → k < z.2 - z.1 →
      b.shape = [(x.2 - x.1).toNat, (y.2 - y.1).toNat, (z.2 - z.1).toNat] ∧
      b.get [i, j, k] = img.get [(x.1 + i).toNat, (y.1 + j).toNat, (z.1 + k).toNat] := by
  intro i j k hi hj hk
  unfold cropImage at h
  simp only [hs] at h
  split at h
  · cases h
  · split at h
    · simp only [PyW.pure_val, Except.ok.injEq] at h
      subst h
      obtain ⟨h1, h2⟩ := sliceArray_three img n0 n1 n2 hs x y z hx hy hz
      exact ⟨h1, h2 i j k hi hj hk⟩
    · split at h
      · rename_i heq
        simp only [PyW.bind_val, PyW.warn_val, PyW.pure_val, Except.ok.injEq] at h
        subst h
        obtain ⟨e1, e2, e3⟩ := heq
        simp only [Range.len] at e1 e2 e3
        obtain ⟨a1, a2, a3⟩ := hx
        obtain ⟨b1, b2, b3⟩ := hy
        obtain ⟨c1, c2, c3⟩ := hz
        refine ⟨?_, ?_⟩
        · rw [hs]; congr 1
          · omega
          · congr 1
            · omega
            · congr 1; omega
        · have : x.1 = 0 := by omega
          have : y.1 = 0 := by omega
          have : z.1 = 0 := by omega
          congr 2
          · omega
          · congr 1
            · omega
            · congr 1; omega
      · cases h

example (b : NDArray Nat) (h : (cropImage exampleVol (1, 4) (0, 2) (some (2, 5))).val = .ok b) : b.get [2, 1, 0] = 312 :=
  (C16_inside_exact_or_raises_partial exampleVol b 5 4 6 rfl (1, 4) (0, 2) (2, 5) ⟨by decide, by decide, by decide⟩
    ⟨by decide, by decide, by decide⟩ ⟨by decide, by decide, by decide⟩ h 2 1 0 (by decide) (by decide) (by decide)).2

/-- **C16** fails: a range that ends outside of the image is cut off silently. -/
theorem C16_clipped {α} (img : NDArray α) (n0 n1 : Nat) (hs : img.shape = [n0, n1]) (x y : Range)
    (hx0 : 0 ≤ x.1) (hx1 : x.1 ≤ n0) (hx2 : n0 < x.2) (hx' : x.2 - x.1 < n0)
    (hy : InsideAxis n1 y) (hy' : y.2 - y.1 < n1) :
    ∃ b, cropImage img x y none = ⟨[], .ok b⟩ ∧ b.shape = [(n0 - x.1).toNat, (y.2 - y.1).toNat] := by
  refine ⟨sliceArray img [x, y], ?_, ?_⟩
  · unfold cropImage
    simp only [hs]
    rw [if_pos ⟨hx', hy'⟩]
    rfl
  · have e2 := sliceRange_inside n1 y hy
    unfold sliceArray
    simp only [hs, List.zipWith_cons_cons, List.zipWith_nil_right, List.map_cons, List.map_nil, e2]
    have : (sliceRange n0 x.1 x.2).2 = (n0 - x.1).toNat := by
      unfold sliceRange sliceBound
      rw [if_neg (by omega), if_neg (by omega)]
      simp only; omega
    rw [this]; rfl

/-- **C16** fails: a region of the size of the image returns the whole image, wherever the
region is. -/
theorem C16_full_size_ignores_offset {α} (img : NDArray α) (n0 n1 : Nat) (hs : img.shape = [n0, n1])
    (x y : Range) (z : Option Range) (hx : x.2 - x.1 = n0) (hy : y.2 - y.1 = n1) :
    cropImage img x y z = ⟨["Image is already cropped."], .ok img⟩ := by
  unfold cropImage
  simp only [hs, Range.len]
  rw [if_neg (by omega), if_pos ⟨hx, hy⟩]
  rfl

example : cropImage (⟨[4, 4], fun i => i⟩ : NDArray (List Nat)) (100, 104) (-3, 1) none =
    ⟨["Image is already cropped."], .ok ⟨[4, 4], fun i => i⟩⟩ :=
  C16_full_size_ignores_offset _ 4 4 rfl _ _ _ (by decide) (by decide)

/-- **C16** is false: a region that sticks out of a 4×4 image gives a smaller array without an error. -/
theorem C16_refuted :
    ¬ ∀ (img b : NDArray Nat) (n0 n1 : Nat) (x y : Range), img.shape = [n0, n1] →
      (cropImage img x y none).val = .ok b → IsRegion2 img b x y := by
  intro h
  have h2 : (cropImage (⟨[4, 4], fun _ => 0⟩ : NDArray Nat) (3, 6) (0, 2) none).val =
      .ok (sliceArray ⟨[4, 4], fun _ => 0⟩ [(3, 6), (0, 2)]) := rfl
  have h3 := (h _ _ 4 4 (3, 6) (0, 2) rfl h2).1
  revert h3; decide

example : ∃ b, cropImage (⟨[4, 4], fun _ => 7⟩ : NDArray Nat) (2, 5) (0, 2) none = ⟨[], .ok b⟩ ∧
    b.shape = [2, 2] :=
  C16_clipped _ 4 4 rfl (2, 5) (0, 2) (by decide) (by decide) (by decide) (by decide)
    ⟨by decide, by decide, by decide⟩ (by decide)

/-- **C17**, exact condition: a region inside a volume is accepted if and only if it is smaller
than the volume along every axis or spans it along every axis. -/
theorem C17_accepted_iff {α} (img : NDArray α) (n0 n1 n2 : Nat) (hs : img.shape = [n0, n1, n2])
    (hn : n2 ≠ 3) (x y z : Range) (hx : InsideAxis n0 x) (hy : InsideAxis n1 y) (hz : InsideAxis n2 z) :
    (∃ b, (cropImage img x y (some z)).val = .ok b) ↔
      ((x.2 - x.1 ≠ n0 ∧ y.2 - y.1 ≠ n1 ∧ z.2 - z.1 ≠ n2) ∨
       (x.2 - x.1 = n0 ∧ y.2 - y.1 = n1 ∧ z.2 - z.1 = n2)) := by
  obtain ⟨a1, a2, a3⟩ := hx
  obtain ⟨b1, b2, b3⟩ := hy
  obtain ⟨c1, c2, c3⟩ := hz
  unfold cropImage
  simp only [hs, Range.len]
  rw [if_neg hn]
  split
  · rename_i h
    simp only [PyW.pure_val]
    constructor
    · intro _; left; omega
    · intro _; exact ⟨_, rfl⟩
  · split
    · rename_i h
      simp only [PyW.bind_val, PyW.warn_val, PyW.pure_val]
      constructor
      · intro _; right; exact h
      · intro _; exact ⟨_, rfl⟩
    · constructor
      · rintro ⟨b, hb⟩; cases hb
      · intro h; exfalso; omega

/-- The full extent of one axis only. -/
example : ¬ ∃ b, (cropImage exampleVol (0, 5) (0, 2) (some (2, 5))).val = .ok b := by
  rw [C17_accepted_iff exampleVol 5 4 6 rfl (by decide) _ _ _ ⟨by decide, by decide, by decide⟩
    ⟨by decide, by decide, by decide⟩ ⟨by decide, by decide, by decide⟩]
  decide

/-- **C17** fails for regions that span some but not all axes, and for every colour image. -/
theorem C17_refuted :
    ¬ ∀ (img : NDArray Nat) (n0 n1 n2 : Nat) (x y z : Range), img.shape = [n0, n1, n2] →
      InsideAxis n0 x → InsideAxis n1 y → InsideAxis n2 z →
      ∃ b, (cropImage img x y (some z)).val = .ok b := by
  intro h
  have h1 := h exampleVol 5 4 6 (0, 5) (0, 2) (0, 2) rfl ⟨by decide, by decide, by decide⟩
    ⟨by decide, by decide, by decide⟩ ⟨by decide, by decide, by decide⟩
  have := (C17_accepted_iff exampleVol 5 4 6 rfl (by decide) (0, 5) (0, 2) (0, 2)
    ⟨by decide, by decide, by decide⟩ ⟨by decide, by decide, by decide⟩
    ⟨by decide, by decide, by decide⟩).1 h1
  revert this; decide

/-- No colour image can be cropped. -/
theorem C17_colour_never {α} (img : NDArray α) (n0 n1 : Nat) (hs : img.shape = [n0, n1, 3])
    (x y : Range) (z : Option Range) :
    cropImage img x y z = ⟨[], .error (.valueError "operands could not be broadcast together")⟩ := by
  unfold cropImage
  simp only [hs]
  rfl

example : cropImage (⟨[8, 8, 3], fun i => i⟩ : NDArray (List Nat)) (1, 4) (0, 2) (some (0, 1)) =
    ⟨[], .error (.valueError "operands could not be broadcast together")⟩ :=
  C17_colour_never _ 8 8 rfl _ _ _

/-- What holds of C17: regions that are smaller along every axis are accepted. -/
theorem C17_smaller_accepted_partial {α} (img : NDArray α) (n0 n1 n2 : Nat)
    (hs : img.shape = [n0, n1, n2]) (hn : n2 ≠ 3) (x y z : Range)
    (hx : InsideAxis n0 x) (hy : InsideAxis n1 y) (hz : InsideAxis n2 z)
    (hx' : x.2 - x.1 ≠ n0) (hy' : y.2 - y.1 ≠ n1) (hz' : z.2 - z.1 ≠ n2) :
    ∃ b, (cropImage img x y (some z)).val = .ok b :=
  (C17_accepted_iff img n0 n1 n2 hs hn x y z hx hy hz).2 (Or.inl ⟨hx', hy', hz'⟩)

example : ∃ b, (cropImage exampleVol (1, 4) (0, 2) (some (2, 5))).val = .ok b :=
  C17_smaller_accepted_partial exampleVol 5 4 6 rfl (by decide) _ _ _ ⟨by decide, by decide, by decide⟩
    ⟨by decide, by decide, by decide⟩ ⟨by decide, by decide, by decide⟩ (by decide) (by decide) (by decide)

/-! ### C09, C10 load_data -/

/-- The image an input stands for. -/
inductive InputImage (disk : Txt → Py (Image Rat)) : Input → Image Rat → Prop where
  | path (p : Txt) (img : Image Rat) (h : disk p = .ok img) : InputImage disk (.path p) img
  | array (img : Image Rat) : InputImage disk (.array img) img
  | tensor (img : Image Rat) : InputImage disk (.tensor img) img
  | arrayList (img : Image Rat) : InputImage disk (.arrayList img) img

/-- **C09.** A set `batch` flag raises before anything else happens. -/
theorem C09_batch (disk : Txt → Py (Image Rat)) (inp : Input) (args : LoadArgs) (h : args.batch = true) :
    loadData disk inp args = ⟨[], .error .removedInFutureVersion⟩ := by
  unfold loadData; simp only [h, if_true]; rfl

example : loadData (fun _ => .error .fileNotFound) (.array exampleImg) { batch := true } = ⟨[], .error .removedInFutureVersion⟩ :=
  C09_batch _ _ _ rfl

/-- **C09.** `normalize` without `data_range` raises, whatever the input is. -/
theorem C09_missing_range (disk : Txt → Py (Image Rat)) (inp : Input) (args : LoadArgs)
    (h0 : args.batch = false) (h1 : args.normalize = true) (h2 : args.dataRange = none) :
    loadData disk inp args =
      ⟨[], .error (.valueError "Parameter data_range must be set if normalize is True.")⟩ := by
  unfold loadData; simp only [h0, h1, h2]; rfl

example : loadData (fun _ => .error .fileNotFound) (.array exampleImg) { normalize := true } =
    ⟨[], .error (.valueError "Parameter data_range must be set if normalize is True.")⟩ :=
  C09_missing_range _ _ _ rfl rfl rfl

/-- **C09.** Inputs of any other type are rejected. -/
theorem C09_input_type (disk : Txt → Py (Image Rat)) (args : LoadArgs)
    (h0 : args.batch = false) (h1 : ¬ (args.normalize = true ∧ args.dataRange = none)) :
    (loadData disk .other args).val = .error (.valueError "Input type not supported") := by
  rw [loadData_val disk .other args h0 h1]
  rfl

example : (loadData (fun _ => .error .fileNotFound) .other { normalize := true, dataRange := some 255 }).val =
    .error (.valueError "Input type not supported") :=
  C09_input_type _ _ rfl (by simp)

theorem source_val (disk : Txt → Py (Image Rat)) (inp : Input) (img : Image Rat)
    (hi : InputImage disk inp img) :
    ∃ b, (loadSource disk inp).val = .ok (b, img) ∧ (b = true ↔ ∃ i, inp = .arrayList i) := by
  cases hi with
  | path p _ h =>
    refine ⟨false, ?_, by simp⟩
    simp only [loadSource, PyW.bind_val, PyW.lift_val, h, PyW.pure_val]
  | array => exact ⟨false, rfl, by simp⟩
  | tensor => exact ⟨false, rfl, by simp⟩
  | arrayList => exact ⟨true, rfl, by simp⟩

/-- **C09.** Images with another number of dimensions than 2 or 3 are rejected. -/
theorem C09_dimensions (disk : Txt → Py (Image Rat)) (inp : Input) (img : Image Rat) (args : LoadArgs)
    (h0 : args.batch = false) (h1 : ¬ (args.normalize = true ∧ args.dataRange = none))
    (hi : InputImage disk inp img) (hd : img.arr.shape.length ≠ 2 ∧ img.arr.shape.length ≠ 3) :
    (loadData disk inp args).val =
      .error (.valueError "Number of dimensions of input image should be 2 or 3") := by
  rw [loadData_val disk inp args h0 h1]
  obtain ⟨b, hb, -⟩ := source_val disk inp img hi
  unfold loadBody
  rw [PyW.bind_val_ok hb]
  apply PyW.bind_val_error
  unfold ndimStep
  rw [if_pos (by unfold NDArray.ndim; omega)]
  rfl

/-- A list of numbers. -/
example : (loadData (fun _ => .error .fileNotFound) (.array ⟨.u8, ⟨[7], fun _ => 1⟩⟩) {}).val =
    .error (.valueError "Number of dimensions of input image should be 2 or 3") :=
  C09_dimensions _ _ ⟨.u8, ⟨[7], fun _ => 1⟩⟩ _ rfl (by simp) (.array _) ⟨by decide, by decide⟩

/-- **C09.** The warning about an ignored data range is issued exactly if a data range is given
without `normalize` (and `batch` is not set). -/
theorem C09_warning (disk : Txt → Py (Image Rat)) (inp : Input) (args : LoadArgs) :
    "Parameter data_range is set but normalize is False." ∈ (loadData disk inp args).warns ↔
      args.batch = false ∧ args.normalize = false ∧ ∃ r, args.dataRange = some r := by
  have hbody := loadBody_no_range_warning disk inp args
  unfold loadData
  cases args.batch <;> cases args.normalize <;> cases args.dataRange <;>
    simp [PyW.bind_warns, hbody]

example : "Parameter data_range is set but normalize is False." ∉
    (loadData (fun _ => .error .fileNotFound) (.array exampleImg) { normalize := true, dataRange := some 255 }).warns := by
  rw [C09_warning]
  simp

/-- **C09.** If no guard applies, the call succeeds exactly if normalization (when requested with
a non-zero range) and cropping (when requested) of the image succeed. -/
theorem C09_success (disk : Txt → Py (Image Rat)) (inp : Input) (img : Image Rat) (args : LoadArgs)
    (h0 : args.batch = false) (h1 : ¬ (args.normalize = true ∧ args.dataRange = none))
    (hi : InputImage disk inp img) (hd : img.arr.shape.length = 2 ∨ img.arr.shape.length = 3) :
    (∃ l, (loadData disk inp args).val = .ok l) ↔
      ∃ a : Image Rat,
        (if args.normalize = true ∧ args.dataRange ≠ some 0 then
          ∃ hi, args.dataRange = some hi ∧ (normalizeData args.ident img (0, hi) none true).val = .ok a
         else a = img) ∧
        ∀ roi, args.roi = some roi → ∃ b, (cropImage a.arr roi.x roi.y roi.z).val = .ok b := by
  rw [loadData_val disk inp args h0 h1]
  obtain ⟨b, hb, -⟩ := source_val disk inp img hi
  have hnd : (ndimStep img).val = .ok () := by
    unfold ndimStep; rw [if_neg (by unfold NDArray.ndim; omega)]; rfl
  unfold loadBody
  rw [PyW.bind_val_ok hb]
  simp only
  rw [PyW.bind_val_ok hnd]
  have hnorm : ∀ a, (normalizeStep args img).val = .ok a ↔
      (if args.normalize = true ∧ args.dataRange ≠ some 0 then
          ∃ hi, args.dataRange = some hi ∧ (normalizeData args.ident img (0, hi) none true).val = .ok a
         else a = img) := by
    intro a
    unfold normalizeStep
    cases hr : args.dataRange with
    | none =>
      have : args.normalize = false := by
        cases hn : args.normalize
        · rfl
        · exact absurd ⟨hn, hr⟩ h1
      simp [this, eq_comm]
    | some r =>
      by_cases hc : args.normalize = true ∧ r ≠ 0
      · simp [hc]
      · simp only [if_neg hc]
        rw [if_neg (by simpa using hc)]
        simp [eq_comm]
  have hcrop : ∀ a, (∃ c, (cropStep args a).val = .ok c) ↔
      ∀ roi, args.roi = some roi → ∃ b, (cropImage a.arr roi.x roi.y roi.z).val = .ok b := by
    intro a
    unfold cropStep
    cases hr : args.roi with
    | none => simp
    | some roi =>
      simp only [PyW.bind_val_ok_iff]
      constructor
      · rintro ⟨c, d, hd, -⟩ roi' he; cases he; exact ⟨d, hd⟩
      · intro h; obtain ⟨d, hd⟩ := h roi rfl; exact ⟨_, d, hd, rfl⟩
  simp only [PyW.bind_val_ok_iff, PyW.pure_val]
  constructor
  · rintro ⟨l, a, ha, c, hc, -⟩
    exact ⟨a, (hnorm a).1 ha, (hcrop a).1 ⟨c, hc⟩⟩
  · rintro ⟨a, ha, hc⟩
    obtain ⟨c, hc⟩ := (hcrop a).2 hc
    exact ⟨_, a, (hnorm a).2 ha, c, hc, rfl⟩

example : ∃ l, (loadData (fun _ => .error .fileNotFound) (.array exampleImg) { roi := some ⟨(0, 1), (0, 3), none⟩ }).val = .ok l :=
  (C09_success _ _ exampleImg _ rfl (by simp) (.array _) (.inl rfl)).2
    ⟨exampleImg, by simp, fun roi h => by cases h; exact ⟨_, rfl⟩⟩

/-- `normalize=True` with `data_range=0` is accepted and silently does nothing. -/
theorem C09_range_zero (disk : Txt → Py (Image Rat)) (img : Image Rat) (args : LoadArgs)
    (h0 : args.batch = false) (h1 : args.normalize = true) (h2 : args.dataRange = some 0)
    (h3 : args.roi = none) (hd : img.arr.shape.length = 2 ∨ img.arr.shape.length = 3) :
    loadData disk (.array img) args = ⟨[], .ok (.single img)⟩ := by
  have hnd : ndimStep img = pure () := by
    unfold ndimStep; rw [if_neg (by unfold NDArray.ndim; omega)]
  unfold loadData
  rw [if_neg (by simp [h0]), if_neg (by simp [h2]), if_neg (by simp [h1])]
  have hn : normalizeStep args img = pure img := by
    unfold normalizeStep; simp [h2]
  have hc : cropStep args img = pure img := by
    unfold cropStep; simp [h3]
  apply PyW.ext'
  · simp [loadBody, loadSource, PyW.bind_warns, hnd, hn, hc]
  · simp [loadBody, loadSource, PyW.bind_val, hnd, hn, hc]

example : loadData (fun _ => .error .fileNotFound) (.array exampleImg) {} = ⟨[], .ok (.single exampleImg)⟩ ∧
    (loadData (fun _ => .error .fileNotFound) (.array exampleImg) { dataRange := some 255 }).warns =
      ["Parameter data_range is set but normalize is False."] ∧
    (loadData (fun _ => .error .fileNotFound) (.path "a.raw".toList) {}).val = .error .fileNotFound :=
  ⟨rfl, rfl, rfl⟩

/-- **C10.** Without normalization and region of interest the image is returned unchanged. -/
theorem C10_identity (disk : Txt → Py (Image Rat)) (inp : Input) (img : Image Rat) (args : LoadArgs)
    (h0 : args.batch = false) (h1 : args.normalize = false) (h3 : args.roi = none)
    (hi : InputImage disk inp img) (hd : img.arr.shape.length = 2 ∨ img.arr.shape.length = 3) :
    ∃ l, (loadData disk inp args).val = .ok l ∧
      ((l = .single img ∧ ∀ i, inp ≠ .arrayList i) ∨ (l = .list img ∧ inp = .arrayList img)) := by
  rw [loadData_val disk inp args h0 (by simp [h1])]
  obtain ⟨b, hb, hl⟩ := source_val disk inp img hi
  have hnd : (ndimStep img).val = .ok () := by
    unfold ndimStep; rw [if_neg (by unfold NDArray.ndim; omega)]; rfl
  have hn : (normalizeStep args img).val = .ok img := by
    unfold normalizeStep; split <;> simp [h1]
  have hc : (cropStep args img).val = .ok img := by
    unfold cropStep; rw [h3]; rfl
  unfold loadBody
  rw [PyW.bind_val_ok hb]
  simp only
  rw [PyW.bind_val_ok hnd, PyW.bind_val_ok hn, PyW.bind_val_ok hc, PyW.pure_val]
  refine ⟨_, rfl, ?_⟩
  cases b with
  | false => left; exact ⟨rfl, fun i hi => by simp [hi] at hl⟩
  | true =>
    right
    obtain ⟨i, hi'⟩ := hl.1 rfl
    subst hi'
    cases hi
    exact ⟨rfl, rfl⟩

example : ∃ l, (loadData (fun _ => .ok exampleImg) (.path "a.raw".toList) {}).val = .ok l ∧ l = .single exampleImg := by
  obtain ⟨l, h, h' | h'⟩ := C10_identity (fun _ => .ok exampleImg) (.path "a.raw".toList) exampleImg {} rfl rfl rfl (.path _ _ rfl) (.inl rfl)
  · exact ⟨l, h, h'.1⟩
  · cases h'.2

/-- **C10.** With normalization and a region, a pixel of the result is the pixel of the
normalized full image at that place: it does not depend on the region. -/
theorem C10_normalized_full_image (disk : Txt → Py (Image Rat)) (img full : Image Rat) (hi : Int)
    (hhi : hi ≠ 0) (ident : Bool) (n0 n1 n2 : Nat)
    (hn : (normalizeData ident img (0, hi) none true).val = .ok full)
    (hs : full.arr.shape = [n0, n1, n2]) (h3 : n2 ≠ 3) (hsi : img.arr.shape.length = 3) (x y z : Range)
    (hx : InsideAxis n0 x) (hy : InsideAxis n1 y) (hz : InsideAxis n2 z)
    (hx' : x.2 - x.1 < n0) (hy' : y.2 - y.1 < n1) (hz' : z.2 - z.1 < n2) :
    ∃ b, (loadData disk (.array img)
        { normalize := true, dataRange := some hi, roi := some ⟨x, y, some z⟩, ident := ident }).val =
        .ok (.single ⟨full.dtype, b⟩) ∧
      ∀ u v w : Nat, x.1 ≤ u → u < x.2 → y.1 ≤ v → v < y.2 → z.1 ≤ w → w < z.2 →
        b.get [u - x.1.toNat, v - y.1.toNat, w - z.1.toNat] = full.arr.get [u, v, w] := by
  obtain ⟨b, hb, h1, h2⟩ := C15_crop_3d full.arr n0 n1 n2 hs h3 x y z hx hy hz hx' hy' hz'
  refine ⟨b, ?_, ?_⟩
  · rw [loadData_val _ _ _ rfl (by simp)]
    have hnd : (ndimStep img).val = .ok () := by
      unfold ndimStep; rw [if_neg (by unfold NDArray.ndim; omega)]; rfl
    unfold loadBody
    rw [PyW.bind_val_ok (a := (false, img)) rfl]
    simp only
    rw [PyW.bind_val_ok hnd, PyW.bind_val_ok (a := full) (by
      unfold normalizeStep; simp only [if_pos (And.intro trivial hhi)]; exact hn)]
    rw [PyW.bind_val_ok (a := ⟨full.dtype, b⟩) (by
      unfold cropStep; simp only; rw [PyW.bind_val_ok (a := b) (by rw [hb])]; rfl)]
    rfl
  · intro u v w hu hu' hv hv' hw hw'
    obtain ⟨a1, -, -⟩ := hx
    obtain ⟨b1, -, -⟩ := hy
    obtain ⟨c1, -, -⟩ := hz
    rw [h2 (u - x.1.toNat) (v - y.1.toNat) (w - z.1.toNat) (by omega) (by omega) (by omega)]
    congr 2
    · omega
    · congr 1
      · omega
      · congr 1; omega

/-- The normalization of a part of a volume uses the range of the whole volume. -/
example : ∃ b, (loadData (fun _ => .error .fileNotFound) (.array ⟨.f64, ⟨[2, 2, 2], fun i => i.sum⟩⟩)
      { normalize := true, dataRange := some 255, roi := some ⟨(0, 1), (0, 1), some (0, 1)⟩ }).val = .ok (.single ⟨.u8, b⟩) := by
  have hr : HasRange (⟨[2, 2, 2], fun i => i.sum⟩ : NDArray Rat) 0 3 := by
    rw [HasRange, ← arrMin_iff, ← arrMax_iff]
    constructor <;> decide +kernel
  obtain ⟨r, h, hs, -⟩ := C11_linear_map_partial false ⟨.f64, ⟨[2, 2, 2], fun i => i.sum⟩⟩ 255 none 0 3 hr (by norm_num) rfl
    (Or.inr (Or.inl rfl)) (by simp)
  obtain ⟨b, hb, -⟩ := C10_normalized_full_image (fun _ => .error .fileNotFound) ⟨.f64, ⟨[2, 2, 2], fun i => i.sum⟩⟩ _ 255
    (by decide) false 2 2 2 (by rw [h]) hs (by decide) rfl (0, 1) (0, 1) (0, 1) ⟨by decide, by decide, by decide⟩
    ⟨by decide, by decide, by decide⟩ ⟨by decide, by decide, by decide⟩ (by decide) (by decide) (by decide)
  exact ⟨b, hb⟩

/-! ### C18, C19 pairs of images -/

/-- **C18.** If loading a pair succeeds, both images have the same data type and shape, and with
`chromatic=True` the last axis has length 3. -/
theorem C18_pair (disk : Txt → Py (Image Rat)) (r m : Input) (args : LoadArgs) (chromatic : Bool)
    (a b : Image Rat) (h : (checkImgs disk r m args chromatic).val = .ok (a, b)) :
    a.dtype = b.dtype ∧ a.arr.shape = b.arr.shape ∧
      (chromatic = true → a.arr.shape.getLast? = some 3) := by
  unfold checkImgs at h
  rw [PyW.bind_val_ok_iff] at h
  obtain ⟨lr, -, h⟩ := h
  rw [PyW.bind_val_ok_iff] at h
  obtain ⟨lm, -, h⟩ := h
  split at h
  · rename_i a' b'
    split at h
    · cases h
    · rename_i hdt
      split at h
      · cases h
      · rename_i hsh
        simp only [ne_eq, Decidable.not_not] at hdt hsh
        split at h
        · rename_i hc
          rw [PyW.bind_val_ok_iff] at h
          obtain ⟨_, -, h⟩ := h
          cases h
          refine ⟨by simp [toGrayscale, hdt], by simp [toGrayscale, hsh], ?_⟩
          intro hc'; rw [hc'] at hc; simp at hc
        · split at h
          · cases h
          · rename_i h1 h2
            cases h
            refine ⟨hdt, hsh, ?_⟩
            intro hc
            rw [hc] at h2
            simp only [true_and, not_not] at h2
            unfold NDArray.lastDim at h2
            cases hl : a.arr.shape.getLast? with
            | none => rw [hl] at h2; simp at h2
            | some n => rw [hl] at h2; simpa using h2
  · split at h <;> cases h
  · cases h

example (a b : Image Rat) (h : (checkImgs (fun _ => .ok exampleImg) (.path []) (.array exampleImg) {} false).val = .ok (a, b)) :
    a.dtype = b.dtype ∧ a.arr.shape = b.arr.shape :=
  ⟨(C18_pair _ _ _ _ _ a b h).1, (C18_pair _ _ _ _ _ a b h).2.1⟩

/-- **C18.** A mismatch of the data type or of the shape raises a ValueError. -/
theorem C18_mismatch (disk : Txt → Py (Image Rat)) (r m : Input) (args : LoadArgs) (chromatic : Bool)
    (a b : Image Rat) (hr : (loadData disk r args).val = .ok (.single a))
    (hm : (loadData disk m args).val = .ok (.single b)) :
    (a.dtype ≠ b.dtype →
      (checkImgs disk r m args chromatic).val = .error (.valueError "Image types do not match")) ∧
    (a.dtype = b.dtype → a.arr.shape ≠ b.arr.shape →
      (checkImgs disk r m args chromatic).val = .error (.valueError "Image shapes do not match")) := by
  unfold checkImgs
  rw [PyW.bind_val_ok hr, PyW.bind_val_ok hm]
  simp only
  constructor
  · intro h; rw [if_pos h]; rfl
  · intro h1 h2; rw [if_neg (by simp [h1]), if_pos h2]; rfl

example : (checkImgs (fun _ => .error .fileNotFound) (.array ⟨.u8, ⟨[4, 5], fun _ => 1⟩⟩) (.array ⟨.u8, ⟨[5, 4], fun _ => 1⟩⟩) {}
    false).val = .error (.valueError "Image shapes do not match") :=
  (C18_mismatch _ _ _ _ _ ⟨.u8, ⟨[4, 5], fun _ => 1⟩⟩ ⟨.u8, ⟨[5, 4], fun _ => 1⟩⟩ rfl rfl).2 rfl (by decide)

/-- Images that have the same type and shape are accepted, unless `chromatic=True` is claimed for
images that are not. -/
theorem C18_accepted (disk : Txt → Py (Image Rat)) (r m : Input) (args : LoadArgs) (chromatic : Bool)
    (a b : Image Rat) (hr : (loadData disk r args).val = .ok (.single a))
    (hm : (loadData disk m args).val = .ok (.single b)) (hdt : a.dtype = b.dtype)
    (hsh : a.arr.shape = b.arr.shape) :
    (∃ p, (checkImgs disk r m args chromatic).val = .ok p) ↔
      (chromatic = true → a.arr.lastDim = 3) := by
  unfold checkImgs
  rw [PyW.bind_val_ok hr, PyW.bind_val_ok hm]
  simp only
  rw [if_neg (by simp [hdt]), if_neg (by simp [hsh])]
  cases chromatic with
  | false =>
    by_cases h3 : a.arr.lastDim = 3
    · simp [h3, PyW.bind_val]
    · simp [h3]
  | true =>
    by_cases h3 : a.arr.lastDim = 3
    · simp [h3]
    · simp [h3]

example : ∃ p, (checkImgs (fun _ => .error .fileNotFound) (.array ⟨.u8, ⟨[4, 5, 3], fun _ => 1⟩⟩)
    (.array ⟨.u8, ⟨[4, 5, 3], fun _ => 2⟩⟩) {} true).val = .ok p :=
  (C18_accepted _ _ _ _ _ ⟨.u8, ⟨[4, 5, 3], fun _ => 1⟩⟩ ⟨.u8, ⟨[4, 5, 3], fun _ => 2⟩⟩ rfl rfl rfl rfl).2 (fun _ => rfl)

/-- The deprecated list input always raises. -/
theorem C18_lists_raise (disk : Txt → Py (Image Rat)) (a b : Image Rat) (args : LoadArgs)
    (chromatic : Bool) : ∀ p, (checkImgs disk (.arrayList a) (.arrayList b) args chromatic).val ≠ .ok p := by
  intro p h
  unfold checkImgs at h
  rw [PyW.bind_val_ok_iff] at h
  obtain ⟨lr, h1, h⟩ := h
  rw [PyW.bind_val_ok_iff] at h
  obtain ⟨lm, h2, h⟩ := h
  have key : ∀ (i : Image Rat) l, (loadData disk (.arrayList i) args).val = .ok l → ∃ c, l = .list c := by
    intro i l hl
    unfold loadData at hl
    split at hl
    · cases hl
    · split at hl
      · cases hl
      · have hl' : (loadBody disk (.arrayList i) args).val = .ok l := by
          split at hl
          · rw [PyW.bind_val_ok (a := ()) rfl] at hl; exact hl
          · exact hl
        unfold loadBody at hl'
        rw [PyW.bind_val_ok (a := (true, i)) rfl] at hl'
        simp only [PyW.bind_val_ok_iff, if_true] at hl'
        obtain ⟨_, -, _, -, c, -, hc⟩ := hl'
        cases hc; exact ⟨c, rfl⟩
  obtain ⟨c, rfl⟩ := key a lr h1
  obtain ⟨d, rfl⟩ := key b lm h2
  simp only at h
  split at h <;> cases h

example (p : Image Rat × Image Rat) : (checkImgs (fun _ => .error .fileNotFound) (.arrayList exampleImg) (.arrayList exampleImg) {}
    false).val ≠ .ok p :=
  C18_lists_raise _ _ _ _ _ p

/-- **C19** for images whose last axis does not have length 3: the loaded images are used
unchanged. Missing for the full property: grey volumes with exactly three slices along the last
axis, for which it is false. -/
theorem C19_values_unchanged_partial (disk : Txt → Py (Image Rat)) (r m : Input) (args : LoadArgs)
    (a b : Image Rat) (hr : (loadData disk r args).val = .ok (.single a))
    (hm : (loadData disk m args).val = .ok (.single b)) (hdt : a.dtype = b.dtype)
    (hsh : a.arr.shape = b.arr.shape) (h3 : a.arr.shape.getLast? ≠ some 3) :
    (checkImgs disk r m args false).val = .ok (a, b) := by
  have h3' : a.arr.lastDim ≠ 3 := by
    unfold NDArray.lastDim
    cases hl : a.arr.shape.getLast? with
    | none => simp
    | some n => rw [hl] at h3; simpa using h3
  unfold checkImgs
  rw [PyW.bind_val_ok hr, PyW.bind_val_ok hm]
  simp only
  rw [if_neg (by simp [hdt]), if_neg (by simp [hsh]), if_neg (by simp [h3']), if_neg (by simp)]
  rfl

/-- **C19** is false: a grey volume with three slices loses an axis. -/
theorem C19_refuted :
    ¬ ∀ (a b : Image Rat), a.arr.ndim = 3 → b.arr.shape = a.arr.shape → b.dtype = a.dtype →
      (checkImgs (fun _ => .error .fileNotFound) (.array a) (.array b) {} false).val = .ok (a, b) := by
  intro h
  have h1 := h ⟨.u8, ⟨[4, 4, 3], fun _ => 0⟩⟩ ⟨.u8, ⟨[4, 4, 3], fun _ => 0⟩⟩ rfl rfl rfl
  have h2 : (checkImgs (fun _ => .error .fileNotFound) (.array ⟨.u8, ⟨[4, 4, 3], fun _ => 0⟩⟩)
      (.array ⟨.u8, ⟨[4, 4, 3], fun _ => 0⟩⟩) {} false).val =
      .ok (toGrayscale ⟨.u8, ⟨[4, 4, 3], fun _ => 0⟩⟩, toGrayscale ⟨.u8, ⟨[4, 4, 3], fun _ => 0⟩⟩) := rfl
  rw [h2] at h1
  have h3 := congrArg (fun e => match e with | .ok (p : Image Rat × Image Rat) => p.1.dtype | .error _ => .u8) h1
  simp [toGrayscale, toFloatType] at h3

/-- Non-trivial cases: a 4 × 5 × 6 volume passes unchanged, and is refused as a colour image. -/
example (f : List Nat → Rat) : (checkImgs (fun _ => .error .fileNotFound) (.array ⟨.u8, ⟨[4, 5, 6], f⟩⟩)
    (.array ⟨.u8, ⟨[4, 5, 6], f⟩⟩) {} false).val = .ok (⟨.u8, ⟨[4, 5, 6], f⟩⟩, ⟨.u8, ⟨[4, 5, 6], f⟩⟩) :=
  C19_values_unchanged_partial _ _ _ _ _ _ rfl rfl rfl rfl (by simp)

example (f : List Nat → Rat) : (checkImgs (fun _ => .error .fileNotFound) (.array ⟨.u8, ⟨[4, 5, 6], f⟩⟩)
    (.array ⟨.u8, ⟨[4, 5, 6], f⟩⟩) {} true).val = .error (.valueError "Images are not chromatic.") := rfl

example (f : List Nat → Rat) : (checkImgs (fun _ => .error .fileNotFound) (.array ⟨.u8, ⟨[4, 5], f⟩⟩)
    (.array ⟨.u16, ⟨[4, 5], f⟩⟩) {} true).val = .error (.valueError "Image types do not match") := rfl

/-! ### C20 colour to grey -/

/-- **C20.** The grey value lies between the smallest and the largest channel. -/
theorem C20_between (r g b lo hi : Rat) (hr : lo ≤ r ∧ r ≤ hi) (hg : lo ≤ g ∧ g ≤ hi)
    (hb : lo ≤ b ∧ b ≤ hi) : lo ≤ grayValue r g b ∧ grayValue r g b ≤ hi := by
  unfold grayValue; constructor <;> linarith [hr.1, hr.2, hg.1, hg.2, hb.1, hb.2]

example : 10 ≤ grayValue 10 200 30 ∧ grayValue 10 200 30 ≤ 200 :=
  C20_between 10 200 30 10 200 ⟨by norm_num, by norm_num⟩ ⟨by norm_num, by norm_num⟩ ⟨by norm_num, by norm_num⟩

theorem toGrayscale_get (img : Image Rat) (idx : List Nat) :
    (toGrayscale img).arr.get idx = min (grayValue (img.arr.get (idx ++ [0]))
      (img.arr.get (idx ++ [1])) (img.arr.get (idx ++ [2]))) 255 := by
  unfold toGrayscale
  simp only
  split
  · rename_i h; exact (min_eq_right h.le).symm
  · rename_i h; exact (min_eq_left (not_lt.1 h)).symm

/-- **C20.** For channels up to 255 the grey image has at every pixel a value between the smallest
and the largest channel, equal to the channels of a neutral pixel, and growing with each channel. -/
theorem C20_gray_partial (img : Image Rat) (idx : List Nat) (r g b : Rat)
    (hr : img.arr.get (idx ++ [0]) = r) (hg : img.arr.get (idx ++ [1]) = g)
    (hb : img.arr.get (idx ++ [2]) = b) (hmax : r ≤ 255 ∧ g ≤ 255 ∧ b ≤ 255) :
    min r (min g b) ≤ (toGrayscale img).arr.get idx ∧
    (toGrayscale img).arr.get idx ≤ max r (max g b) ∧
    (r = g → g = b → (toGrayscale img).arr.get idx = r) := by
  have hle : grayValue r g b ≤ 255 := (C20_between r g b (min r (min g b)) 255
    ⟨by simp, hmax.1⟩ ⟨by simp, hmax.2.1⟩ ⟨by simp, hmax.2.2⟩).2
  have he : (toGrayscale img).arr.get idx = grayValue r g b := by
    rw [toGrayscale_get, hr, hg, hb]; exact min_eq_left hle
  rw [he]
  have hb' := C20_between r g b (min r (min g b)) (max r (max g b)) ⟨by simp, by simp⟩
    ⟨by simp, by simp⟩ ⟨by simp, by simp⟩
  refine ⟨hb'.1, hb'.2, ?_⟩
  rintro rfl rfl
  unfold grayValue; ring

example : (toGrayscale ⟨.u8, ⟨[1, 1, 3], fun _ => 100⟩⟩).arr.get [0, 0] = 100 :=
  (C20_gray_partial ⟨.u8, ⟨[1, 1, 3], fun _ => 100⟩⟩ [0, 0] 100 100 100 rfl rfl rfl ⟨by norm_num, by norm_num, by norm_num⟩).2.2 rfl rfl

/-- **C20.** Grey values grow with each channel and never exceed 255, for all pixels. -/
theorem C20_monotone_and_clipped (img img' : Image Rat) (idx : List Nat)
    (h : ∀ c ∈ [0, 1, 2], img.arr.get (idx ++ [c]) ≤ img'.arr.get (idx ++ [c])) :
    (toGrayscale img).arr.get idx ≤ (toGrayscale img').arr.get idx ∧
    (toGrayscale img).arr.get idx ≤ 255 := by
  have h0 := h 0 (by simp)
  have h1 := h 1 (by simp)
  have h2 := h 2 (by simp)
  rw [toGrayscale_get, toGrayscale_get]
  refine ⟨min_le_min_right _ ?_, min_le_right _ _⟩
  unfold grayValue
  linarith

example : (toGrayscale ⟨.u16, ⟨[1, 1, 3], fun _ => 4000⟩⟩).arr.get [0, 0] ≤ 255 :=
  (C20_monotone_and_clipped ⟨.u16, ⟨[1, 1, 3], fun _ => 4000⟩⟩ ⟨.u16, ⟨[1, 1, 3], fun _ => 4000⟩⟩ [0, 0] (fun _ _ => le_refl _)).2

/-- **C20** is false for images with more than 8 bit: a neutral pixel of 1000 becomes 255. -/
theorem C20_refuted :
    ¬ ∀ (img : Image Rat) (idx : List Nat) (v : Rat), (∀ c, img.arr.get (idx ++ [c]) = v) →
      (toGrayscale img).arr.get idx = v := by
  intro h
  have := h ⟨.u16, ⟨[1, 1, 3], fun _ => 1000⟩⟩ [0, 0] 1000 (fun _ => rfl)
  rw [toGrayscale_get] at this
  norm_num [grayValue] at this

example : (toGrayscale ⟨.u8, ⟨[1, 1, 3], fun i => if i = [0, 0, 1] then 200 else 100⟩⟩).arr.get [0, 0] =
    17154 / 100 := by
  decide +kernel

/-! ### C22 resizing -/

/-- **C22.** An image of the shape of the reference is used unchanged; otherwise the image used has
the shape and the data type of the reference (for every resize function that returns the
requested shape). -/
theorem C22_resize (resize : NDArray Rat → List Nat → NDArray Rat) (cast : DType → Rat → Rat)
    (hshape : ∀ a sh, (resize a sh).shape = sh) (r m : Image Rat) :
    (r.arr.shape = m.arr.shape → resizeImage resize cast r m = m) ∧
    (resizeImage resize cast r m).arr.shape = r.arr.shape ∧
    (r.arr.shape ≠ m.arr.shape → (resizeImage resize cast r m).dtype = r.dtype) := by
  refine ⟨?_, ?_, ?_⟩
  · intro h; unfold resizeImage; rw [if_neg (by simp [h])]
  · unfold resizeImage
    split
    · simp [NDArray.map, hshape]
    · rename_i h; simp only [ne_eq, not_not] at h; exact h.symm
  · intro h; unfold resizeImage; rw [if_pos h]

example : (resizeImage (fun _ sh => ⟨sh, fun _ => 5⟩) (fun _ v => v) exampleImg
    ⟨.u8, ⟨[2, 2], fun _ => 1⟩⟩).arr.shape = [1, 3] := rfl

end Viqa
