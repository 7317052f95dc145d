import Verif.Props.BatchPackage
import Verif.Props.Normalize

/-!
C162: the workflows of the user guide.
-/

namespace Viqa

open Spec

variable (disk : Txt → Py (Image Rat))

theorem cropImage_ndim {α} (img b : NDArray α) (x y : Range) (z : Option Range) (h : (cropImage img x y z).val = .ok b) :
    b.shape.length = 2 ∨ b.shape.length = 3 := by
  unfold cropImage at h
  simp only at h
  split at h
  · rename_i n0 n1 hs
    split_ifs at h
    · split at h
      · rw [PyW.bind_val_ok (PyW.warn_val _)] at h
        cases h
        left
        simp [sliceArray, hs]
      · cases h
        left
        simp [sliceArray, hs]
    · rw [PyW.bind_val_ok (PyW.warn_val _)] at h
      cases h
      left
      simp [hs]
    · cases h
  · rename_i n0 n1 n2 hs
    split_ifs at h
    · cases h
    · split at h
      · split_ifs at h
        · cases h
          right
          simp [sliceArray, hs]
        · rw [PyW.bind_val_ok (PyW.warn_val _)] at h
          cases h
          right
          simp [hs]
        · cases h
      · cases h
  · cases h

/-- Images are loaded with two or three dimensions. -/
theorem loadData_ndim (args : LoadArgs) (inp : Input) (b : Image Rat) (h : (loadData disk inp args).val = .ok (.single b)) :
    b.arr.shape.length = 2 ∨ b.arr.shape.length = 3 := by
  have hb : (loadBody disk inp args).val = .ok (.single b) := by
    unfold loadData at h
    split at h
    · cases h
    · split at h
      · cases h
      · split at h
        · rwa [PyW.bind_val_ok (PyW.warn_val _)] at h
        · exact h
  unfold loadBody at hb
  rw [PyW.bind_val_ok_iff] at hb
  obtain ⟨⟨l, img⟩, -, hb⟩ := hb
  simp only at hb
  rw [PyW.bind_val_ok_iff] at hb
  obtain ⟨_, hn, hb⟩ := hb
  rw [PyW.bind_val_ok_iff] at hb
  obtain ⟨c, hc, hb⟩ := hb
  rw [PyW.bind_val_ok_iff] at hb
  obtain ⟨d, hd, hb⟩ := hb
  have hdb : d = b := by
    cases l with
    | false => cases hb; rfl
    | true => cases hb
  subst hdb
  have hi : img.arr.shape.length = 2 ∨ img.arr.shape.length = 3 := by
    unfold ndimStep NDArray.ndim at hn
    split_ifs at hn with h0
    · cases hn
    · omega
  have hcs := (normalizeStep_type args img c hc).1
  unfold cropStep at hd
  split at hd
  · rw [PyW.bind_val_ok_iff] at hd
    obtain ⟨a, ha, hd⟩ := hd
    cases hd
    exact cropImage_ndim _ _ _ _ _ ha
  · cases hd
    rw [hcs]
    exact hi

/-- Images that are already loaded stay as they are. -/
theorem loadData_again (b : Image Rat) (hb : b.arr.shape.length = 2 ∨ b.arr.shape.length = 3) (dr : Option Int) :
    (loadData disk (.array b) { dataRange := dr }).val = .ok (.single b) := by
  obtain ⟨l, h, h' | h'⟩ := C10_identity disk (.array b) b { dataRange := dr } rfl rfl rfl (.array b) hb
  · rw [h, h'.1]
  · cases h'.2

theorem checkImgs_cong (r m r' m' : Input) (args args' : LoadArgs) (chromatic : Bool)
    (hr : (loadData disk r args).val = (loadData disk r' args').val) (hm : (loadData disk m args).val = (loadData disk m' args').val) :
    (checkImgs disk r m args chromatic).val = (checkImgs disk r' m' args' chromatic).val := by
  unfold checkImgs
  rw [PyW.bind_val, PyW.bind_val, hr]
  cases (loadData disk r' args').val with
  | error e => rfl
  | ok lr =>
    simp only
    rw [PyW.bind_val, PyW.bind_val, hm]

/-- **C162.** Loading the images with `load_data` (normalization and region included) and handing the arrays to a metric without
these parameters gives the metric the same images as handing it the files together with the parameters. -/
theorem C162_loaded_first (r m : Input) (args : LoadArgs) (chromatic : Bool) (a b : Image Rat)
    (ha : (loadData disk r args).val = .ok (.single a)) (hb : (loadData disk m args).val = .ok (.single b)) :
    (checkImgs disk (.array a) (.array b) { dataRange := args.dataRange } chromatic).val = (checkImgs disk r m args chromatic).val :=
  checkImgs_cong disk _ _ _ _ _ _ _ (by rw [loadData_again disk a (loadData_ndim disk args r a ha), ha])
    (by rw [loadData_again disk b (loadData_ndim disk args m b hb), hb])

/-- Two files, one crop of each. -/
example : ∃ a, (loadData (fun _ => .ok (⟨.f64, ⟨[4, 4], fun i => i.getD 1 0⟩⟩ : Image Rat)) (.path "a.raw".toList)
      { roi := some ⟨(0, 2), (0, 2), none⟩ }).val = .ok (.single a) ∧
    (checkImgs (fun _ => .ok (⟨.f64, ⟨[4, 4], fun i => i.getD 1 0⟩⟩ : Image Rat)) (.array a) (.array a) {} false).val =
      (checkImgs (fun _ => .ok (⟨.f64, ⟨[4, 4], fun i => i.getD 1 0⟩⟩ : Image Rat)) (.path "a.raw".toList) (.path "b.raw".toList)
        { roi := some ⟨(0, 2), (0, 2), none⟩ } false).val :=
  ⟨_, rfl, C162_loaded_first _ _ _ { roi := some ⟨(0, 2), (0, 2), none⟩ } _ _ _ rfl rfl⟩

/-- **C162.** `load_data` with `normalize=True` and `normalize_data` have the same effect. -/
theorem C162_functions (img : Image Rat) (hd : img.arr.shape.length = 2 ∨ img.arr.shape.length = 3) (hi : Int) (hhi : hi ≠ 0)
    (ident : Bool) : (loadData disk (.array img) { normalize := true, dataRange := some hi, ident := ident }).val =
      (match (normalizeData ident img (0, hi) none true).val with
        | .error e => .error e
        | .ok res => .ok (.single res)) := by
  have hnd : (ndimStep img).val = .ok () := by
    unfold ndimStep; rw [if_neg (by unfold NDArray.ndim; omega)]; rfl
  unfold loadData
  rw [if_neg (by simp), if_neg (by simp), if_neg (by simp)]
  unfold loadBody loadSource
  rw [PyW.bind_val_ok (PyW.pure_val _)]
  simp only
  rw [PyW.bind_val_ok hnd]
  unfold normalizeStep cropStep
  simp only [true_and, ne_eq, hhi, not_false_eq_true, if_true]
  rw [PyW.bind_val]
  cases (normalizeData ident img (0, hi) none true).val with
  | error e => rfl
  | ok res => rfl

example : (loadData disk (.array exampleImg) { normalize := true, dataRange := some 255 }).val =
    (match (normalizeData false exampleImg (0, 255) none true).val with
      | .error e => .error e
      | .ok res => .ok (.single res)) := C162_functions disk exampleImg (Or.inl rfl) 255 (by decide) false

/-- The loaded image has the size of the region asked for (and is not taken for a colour image). -/
def Spec.HasSizeOf (roi : Option Roi) (shape : List Nat) : Prop :=
  match roi with
  | none => True
  | some r => shape.map (fun n : Nat => (n : Int)) = [r.x.2 - r.x.1, r.y.2 - r.y.1] ∨
      ∃ z, r.z = some z ∧ z.2 - z.1 ≠ 3 ∧ shape.map (fun n : Nat => (n : Int)) = [r.x.2 - r.x.1, r.y.2 - r.y.1, z.2 - z.1]

theorem cropStep_again (args : LoadArgs) (b : Image Rat) (h : Spec.HasSizeOf args.roi b.arr.shape) : (cropStep args b).val = .ok b := by
  unfold cropStep
  unfold Spec.HasSizeOf at h
  cases hr : args.roi with
  | none => rfl
  | some r =>
    rw [hr] at h
    simp only at h
    have hcrop : (cropImage b.arr r.x r.y r.z).val = .ok b.arr := by
      rcases h with h | ⟨z, hz, h3, h⟩
      · obtain ⟨n0, n1, hs⟩ : ∃ n0 n1, b.arr.shape = [n0, n1] := by
          have := congrArg List.length h
          simp only [List.length_map, List.length_cons, List.length_nil] at this
          exact List.length_eq_two.1 this
        rw [hs] at h
        simp only [List.map_cons, List.map_nil, List.cons.injEq, and_true] at h
        rw [C16_full_size_ignores_offset b.arr n0 n1 hs r.x r.y r.z h.1.symm h.2.symm]
      · obtain ⟨n0, n1, n2, hs⟩ : ∃ n0 n1 n2, b.arr.shape = [n0, n1, n2] := by
          have := congrArg List.length h
          simp only [List.length_map, List.length_cons, List.length_nil] at this
          exact List.length_eq_three.1 this
        rw [hs] at h
        simp only [List.map_cons, List.map_nil, List.cons.injEq, and_true] at h
        unfold cropImage
        simp only [hs, hz, Range.len]
        rw [if_neg (by omega), if_neg (by omega), if_pos ⟨h.1.symm, h.2.1.symm, h.2.2.symm⟩]
        rfl
    simp only
    rw [PyW.bind_val_ok hcrop]
    rfl

/-- **C162.** Images normalized to 0-255 and cropped before can also be handed to a metric that normalizes and crops itself, with the
same parameters. Missing: other data ranges, see `C162_normalized_again_refuted`. -/
theorem C162_loaded_again_partial (r m : Input) (args : LoadArgs) (hdr : args.dataRange = some 255 ∨ args.normalize = false)
    (chromatic : Bool) (a b : Image Rat)
    (ha : (loadData disk r args).val = .ok (.single a)) (hb : (loadData disk m args).val = .ok (.single b))
    (hra : Spec.HasSizeOf args.roi a.arr.shape) (hrb : Spec.HasSizeOf args.roi b.arr.shape) :
    (checkImgs disk (.array a) (.array b) args chromatic).val = (checkImgs disk r m args chromatic).val := by
  have key : ∀ (inp : Input) (c : Image Rat), (loadData disk inp args).val = .ok (.single c) → Spec.HasSizeOf args.roi c.arr.shape →
      (loadData disk (.array c) args).val = .ok (.single c) := by
    intro inp c hc hsize
    have hnd := loadData_ndim disk args inp c hc
    have hbatch : args.batch = false := by
      by_contra h
      unfold loadData at hc
      rw [if_pos (by simpa using h)] at hc
      cases hc
    have hall : ∀ inp, (loadData disk inp args).val = (loadBody disk inp args).val := by
      intro inp
      exact loadData_val disk inp args hbatch (by
        intro h
        rcases hdr with h' | h'
        · rw [h'] at h; simp at h
        · rw [h'] at h; simp at h)
    rw [hall] at hc ⊢
    unfold loadBody at hc
    rw [PyW.bind_val_ok_iff] at hc
    obtain ⟨⟨l, img⟩, -, hc⟩ := hc
    simp only at hc
    rw [PyW.bind_val_ok_iff] at hc
    obtain ⟨_, -, hc⟩ := hc
    rw [PyW.bind_val_ok_iff] at hc
    obtain ⟨c', hc', hc⟩ := hc
    rw [PyW.bind_val_ok_iff] at hc
    obtain ⟨d, hd, hc⟩ := hc
    have hcc : d = c := by
      cases l with
      | false => cases hc; rfl
      | true => cases hc
    subst hcc
    have hdt : d.dtype = c'.dtype := by
      unfold cropStep at hd
      split at hd
      · rw [PyW.bind_val_ok_iff] at hd
        obtain ⟨_, -, hd⟩ := hd
        cases hd
        rfl
      · cases hd
        rfl
    have htype := (normalizeStep_type args img c' hc').2
    have hst : (normalizeStep args d).val = .ok d := by
      unfold normalizeStep at hc' ⊢
      rcases hdr with hdr | hn
      · rw [hdr] at hc' ⊢
        simp only at hc' ⊢
        by_cases hn : args.normalize = true
        · rw [if_pos ⟨hn, by decide⟩] at hc' ⊢
          have h8 : c'.dtype = .u8 := by
            rw [htype]
            unfold loadedType
            rw [hdr]
            simp only
            rw [if_pos ⟨hn, by decide⟩]
            split_ifs with hal
            · revert hal
              cases img.dtype <;> cases args.ident <;>
                simp [alreadyNormalized, sameObject, DType.intMax, DType.intMin, DType.isInteger,
                  DType.isUnsigned, DType.bits]
            · rfl
            all_goals
              rename_i h _
              exact absurd (by norm_num) h
          rw [C13_8bit_unchanged args.ident d (hdt.trans h8)]
        · rw [if_neg (fun h => hn h.1)]
          rfl
      · split
        · rw [if_neg (by simp [hn])]
          rfl
        · rfl
    have hndim : (ndimStep d).val = .ok () := by
      unfold ndimStep; rw [if_neg (by unfold NDArray.ndim; omega)]; rfl
    unfold loadBody loadSource
    rw [PyW.bind_val_ok (PyW.pure_val _)]
    simp only
    rw [PyW.bind_val_ok hndim, PyW.bind_val_ok hst, PyW.bind_val_ok (cropStep_again args d hsize)]
    rfl
  exact checkImgs_cong disk _ _ _ _ _ _ _ (by rw [key r a ha hra, ha]) (by rw [key m b hb hrb, hb])

/-- A pixel of a loaded image. -/
def loadedPixel (w : PyW Loaded) (i : List Nat) : Option Rat :=
  match w.val with
  | .ok (.single b) => some (b.arr.get i)
  | _ => none

/-- An image whose gray values are the numbers of the columns. -/
def columns (n : Nat) : Image Rat := ⟨.f64, ⟨[4, n], fun i => i.getD 1 0⟩⟩

/-- A pixel of an image loaded twice. -/
def twicePixel (disk : Txt → Py (Image Rat)) (w : PyW Loaded) (args : LoadArgs) (i : List Nat) : Option Rat :=
  match w.val with
  | .ok (.single b) => loadedPixel (loadData disk (.array b) args) i
  | _ => none

/-- No files. -/
def noFiles : Txt → Py (Image Rat) := fun _ => .error .fileNotFound

theorem loaded_exists (w : PyW Loaded) (i : List Nat) (q : Rat) (h : loadedPixel w i = some q) : ∃ a, w.val = .ok (.single a) ∧ a.arr.get i = q := by
  unfold loadedPixel at h
  split at h
  · rename_i b hb
    exact ⟨b, hb, Option.some.inj h⟩
  · cases h

example : ∃ a, (loadData noFiles (.array (columns 4)) { roi := some ⟨(1, 3), (1, 4), none⟩ }).val =
      .ok (.single a) ∧
    (checkImgs noFiles (.array a) (.array a) { roi := some ⟨(1, 3), (1, 4), none⟩ } false).val =
      (checkImgs noFiles (.array (columns 4)) (.array (columns 4)) { roi := some ⟨(1, 3), (1, 4), none⟩ } false).val :=
  ⟨⟨.f64, sliceArray (columns 4).arr [(1, 3), (1, 4)]⟩, rfl, C162_loaded_again_partial noFiles (.array (columns 4)) (.array (columns 4))
    { roi := some ⟨(1, 3), (1, 4), none⟩ } (Or.inr rfl) false ⟨.f64, sliceArray (columns 4).arr [(1, 3), (1, 4)]⟩
    ⟨.f64, sliceArray (columns 4).arr [(1, 3), (1, 4)]⟩ rfl rfl (Or.inl (by decide)) (Or.inl (by decide))⟩

/-- Normalized to 0-255, then handed to a metric that normalizes. -/
example : ∃ a, (loadData noFiles (.array (columns 4)) { normalize := true, dataRange := some 255 }).val = .ok (.single a) ∧
    (checkImgs noFiles (.array a) (.array a) { normalize := true, dataRange := some 255 } false).val =
      (checkImgs noFiles (.array (columns 4)) (.array (columns 4)) { normalize := true, dataRange := some 255 } false).val := by
  obtain ⟨a, ha, -⟩ := loaded_exists (loadData noFiles (.array (columns 4)) { normalize := true, dataRange := some 255 }) [0, 1] 85
    (by decide +kernel)
  exact ⟨a, ha, C162_loaded_again_partial noFiles _ _ { normalize := true, dataRange := some 255 } (Or.inl rfl) false a a ha ha trivial trivial⟩

/-- **C162** is false for images normalized to 0-65535 and handed to a metric that normalizes: the pixel 43690 becomes 0. -/
theorem C162_normalized_again_refuted :
    ∃ a b, (loadData noFiles (.array (columns 4)) { normalize := true, dataRange := some 65535 }).val = .ok (.single a) ∧
      (loadData noFiles (.array a) { normalize := true, dataRange := some 65535 }).val = .ok (.single b) ∧
      a.arr.get [0, 2] = 43690 ∧ b.arr.get [0, 2] = 0 := by
  obtain ⟨a, ha, ha'⟩ := loaded_exists (loadData noFiles (.array (columns 4)) { normalize := true, dataRange := some 65535 }) [0, 2] 43690
    (by decide +kernel)
  have h2 : twicePixel noFiles (loadData noFiles (.array (columns 4)) { normalize := true, dataRange := some 65535 })
      { normalize := true, dataRange := some 65535 } [0, 2] = some 0 := by decide +kernel
  unfold twicePixel at h2
  rw [ha] at h2
  obtain ⟨b, hb, hb'⟩ := loaded_exists _ _ _ h2
  exact ⟨a, b, ha, hb, ha', hb'⟩

/-- **C162.** Without normalization, cropping an image before or while it is loaded is the same. -/
theorem C162_crop_first_partial (img : Image Rat) (hd : img.arr.shape.length = 2 ∨ img.arr.shape.length = 3) (x y : Range) (z : Option Range)
    (c : NDArray Rat) (hc : (cropImage img.arr x y z).val = .ok c) :
    (loadData disk (.array img) { roi := some ⟨x, y, z⟩ }).val = (loadData disk (.array ⟨img.dtype, c⟩) {}).val := by
  rw [loadData_again disk ⟨img.dtype, c⟩ (cropImage_ndim _ _ _ _ _ hc) none]
  have hndim : (ndimStep img).val = .ok () := by
    unfold ndimStep; rw [if_neg (by unfold NDArray.ndim; omega)]; rfl
  rw [loadData_val disk (.array img) _ rfl (by simp)]
  unfold loadBody loadSource
  rw [PyW.bind_val_ok (PyW.pure_val _)]
  simp only
  rw [PyW.bind_val_ok hndim, PyW.bind_val_ok (a := img) rfl]
  unfold cropStep
  simp only
  rw [PyW.bind_val, PyW.bind_val, hc]
  rfl

example : ∃ c, (cropImage (columns 4).arr (0, 2) (1, 3) none).val = .ok c ∧
    (loadData disk (.array (columns 4)) { roi := some ⟨(0, 2), (1, 3), none⟩ }).val = (loadData disk (.array ⟨.f64, c⟩) {}).val :=
  ⟨_, rfl, C162_crop_first_partial disk (columns 4) (Or.inl rfl) _ _ _ _ rfl⟩

/-- **C162** is false for cropping before or while loading with normalization: the gray values of the part then depend on the rest of
the image. -/
theorem C162_crop_first_refuted : ∃ c a b, (cropImage (columns 4).arr (0, 2) (0, 2) none).val = .ok c ∧
    (loadData noFiles (.array (columns 4)) { normalize := true, dataRange := some 255, roi := some ⟨(0, 2), (0, 2), none⟩ }).val =
      .ok (.single a) ∧
    (loadData noFiles (.array ⟨.f64, c⟩) { normalize := true, dataRange := some 255 }).val = .ok (.single b) ∧
    a.arr.get [0, 1] = 85 ∧ b.arr.get [0, 1] = 255 := by
  obtain ⟨a, ha, ha'⟩ := loaded_exists (loadData noFiles (.array (columns 4))
    { normalize := true, dataRange := some 255, roi := some ⟨(0, 2), (0, 2), none⟩ }) [0, 1] 85 (by decide +kernel)
  obtain ⟨b, hb, hb'⟩ := loaded_exists (loadData noFiles (.array ⟨.f64, sliceArray (columns 4).arr [(0, 2), (0, 2)]⟩)
    { normalize := true, dataRange := some 255 }) [0, 1] 255 (by decide +kernel)
  exact ⟨sliceArray (columns 4).arr [(0, 2), (0, 2)], a, b, rfl, ha, hb, ha', hb'⟩

end Viqa
