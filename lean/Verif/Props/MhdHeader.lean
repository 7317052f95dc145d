import Verif.Props.Loading

/-!
Property C164: the data of an mhd volume are read as its header describes them (MetaImage: `ElementByteOrderMSB`, `HeaderSize`).
-/

namespace Viqa
open Spec

/-- The value of the item number `k`, each of `s` bytes, most significant byte first. -/
def Spec.bigItem (bytes : List UInt8) (s k : Nat) : Nat :=
  ((List.range s).map (fun j => (bytes.getD (k * s + j) 0).toNat * 256 ^ (s - 1 - j))).sum

/-- The header declares the byte order "most significant byte first". -/
def Spec.DeclaresMSB (es : List (Txt × Txt)) : Prop :=
  ("ElementByteOrderMSB".toList, "True".toList) ∈ es ∨ ("BinaryDataByteOrderMSB".toList, "True".toList) ∈ es

open Classical in
/-- The item number `k` of the data behind the first `off` bytes, as the header describes it. -/
noncomputable def Spec.describedItem (es : List (Txt × Txt)) (off : Nat) (bytes : List UInt8) (s k : Nat) : Nat :=
  if DeclaresMSB es then bigItem (bytes.drop off) s k else fileItem (bytes.drop off) s k

/-- A header with the three entries that are needed. -/
structure Spec.Complete (es : List (Txt × Txt)) (file type : Txt) (X Y Z : Nat) (dt : DType) : Prop where
  good : ∀ e ∈ es, GoodEntry e
  keys : (es.map Prod.fst).Nodup
  fileIn : ("ElementDataFile".toList, file) ∈ es
  dimIn : ("DimSize".toList, sizesText [X, Y, Z]) ∈ es
  typeIn : ("ElementType".toList, type) ∈ es
  typeOk : elementType (String.ofList type) = .ok dt
  small : X < 2 ^ 63 ∧ Y < 2 ^ 63 ∧ Z < 2 ^ 63

theorem loadMhd_complete {es : List (Txt × Txt)} {file type : Txt} {X Y Z : Nat} {dt : DType} (h : Complete es file type X Y Z dt)
    (fs : FileSystem) (dir : Txt) (bytes : List UInt8) (hf : fs (pathJoin dir file) = some bytes) :
    loadMhd fs dir (headerText es) = (loadBinary bytes dt [(X : Int), Y, Z]).map (fun v => (dt, v)) := by
  have h1 := C06_header_by_key es [] file type [X, Y, Z] h.good h.keys (by simp) h.fileIn h.dimIn h.typeIn
  rw [List.append_nil, h.typeOk] at h1
  unfold loadMhd
  rw [h1]
  simp only [Except.map, List.map_cons, List.map_nil]
  unfold readFile
  rw [hf]
  simp only
  cases loadBinary bytes dt [(X : Int), Y, Z] <;> rfl

/-- **C164.** Data without header bytes and in the usual byte order, or of one byte per voxel, are read as described. Missing: other
byte orders and data behind a header, see below. -/
theorem C164_plain_partial {es : List (Txt × Txt)} {file type : Txt} {X Y Z : Nat} {dt : DType} (h : Complete es file type X Y Z dt)
    (fs : FileSystem) (dir : Txt) (bytes : List UInt8) (hf : fs (pathJoin dir file) = some bytes) (hb : bytes.length < 2 ^ 63)
    (hm : ¬ DeclaresMSB es ∨ dt.itemsize = 1) (dt' : DType) (v : NDArray Nat) (hv : loadMhd fs dir (headerText es) = .ok (dt', v)) :
    dt' = dt ∧ v.shape = [X, Y, Z] ∧ ∀ x y z, x < X → y < Y → z < Z →
      v.get [x, y, z] = describedItem es 0 bytes dt.itemsize (voxelPos X Y x y z) := by
  rw [loadMhd_complete h fs dir bytes hf] at hv
  cases hl : loadBinary bytes dt [(X : Int), Y, Z] with
  | error e => rw [hl] at hv; cases hv
  | ok w =>
    rw [hl] at hv
    simp only [Except.map, Except.ok.injEq, Prod.mk.injEq] at hv
    obtain ⟨rfl, rfl⟩ := hv
    obtain ⟨h1, h2⟩ := C01_voxel_order bytes dt X Y Z w h.small.1 h.small.2.1 h.small.2.2 hb hl
    refine ⟨rfl, h1, fun x y z hx hy hz => ?_⟩
    rw [h2 x y z hx hy hz]
    unfold describedItem
    rw [List.drop_zero]
    rcases hm with hm | hm
    · rw [if_neg hm]
    · split
      · rw [hm]
        simp [fileItem, bigItem]
      · rfl

/-- **C164.** Data behind a header in the same file (`HeaderSize`) of at least one item are rejected, not read at the wrong place. -/
theorem C164_header_size_partial {es : List (Txt × Txt)} {file type : Txt} {X Y Z : Nat} {dt : DType} (h : Complete es file type X Y Z dt)
    (fs : FileSystem) (dir : Txt) (bytes : List UInt8) (hf : fs (pathJoin dir file) = some bytes) (hb : bytes.length < 2 ^ 63) (off : Nat)
    (hoff : dt.itemsize ≤ off) (hlen : bytes.length = off + X * Y * Z * dt.itemsize) :
    ∃ m, loadMhd fs dir (headerText es) = .error (.valueError m) := by
  rw [loadMhd_complete h fs dir bytes hf]
  have hp := DType.itemsize_pos dt
  obtain ⟨m, hm⟩ := (loadBinary_three bytes dt X Y Z h.small.1 h.small.2.1 h.small.2.2 hb).2 (by
    rw [hlen, Nat.add_mul_div_right _ _ hp]
    have : 1 ≤ off / dt.itemsize := (Nat.one_le_div_iff hp).2 hoff
    omega)
  exact ⟨m, by rw [hm]; rfl⟩

/-- **C164** is false for 16 bit data declared as "most significant byte first": a voxel is read as described only if its two bytes are
equal. -/
theorem C164_byte_order_refuted {es : List (Txt × Txt)} {file type : Txt} {X Y Z : Nat} (h : Complete es file type X Y Z .u16)
    (fs : FileSystem) (dir : Txt) (bytes : List UInt8) (hf : fs (pathJoin dir file) = some bytes) (hb : bytes.length < 2 ^ 63)
    (hm : DeclaresMSB es) (dt' : DType) (v : NDArray Nat) (hv : loadMhd fs dir (headerText es) = .ok (dt', v)) :
    ∀ x y z, x < X → y < Y → z < Z →
      (v.get [x, y, z] = describedItem es 0 bytes 2 (voxelPos X Y x y z) ↔
        bytes.getD (voxelPos X Y x y z * 2) 0 = bytes.getD (voxelPos X Y x y z * 2 + 1) 0) := by
  rw [loadMhd_complete h fs dir bytes hf] at hv
  cases hl : loadBinary bytes .u16 [(X : Int), Y, Z] with
  | error e => rw [hl] at hv; cases hv
  | ok w =>
    rw [hl] at hv
    simp only [Except.map, Except.ok.injEq, Prod.mk.injEq] at hv
    obtain ⟨rfl, rfl⟩ := hv
    obtain ⟨h1, h2⟩ := C01_voxel_order bytes .u16 X Y Z w h.small.1 h.small.2.1 h.small.2.2 hb hl
    intro x y z hx hy hz
    rw [h2 x y z hx hy hz]
    unfold describedItem
    rw [if_pos hm, List.drop_zero]
    have e : List.range 2 = [0, 1] := rfl
    simp only [fileItem, bigItem, DType.itemsize, e, List.map_cons, List.map_nil, List.sum_cons, List.sum_nil, Nat.add_zero]
    rw [← UInt8.toNat_inj]
    have a := (bytes.getD (voxelPos X Y x y z * 2) 0).toNat_lt
    have b := (bytes.getD (voxelPos X Y x y z * 2 + 1) 0).toNat_lt
    simp only [Nat.reducePow, Nat.reduceSub]
    omega

/-- A header of 16 bit data of 1 × 1 × 1 voxels with a further entry. -/
def entryHeader (key value : String) : List (Txt × Txt) :=
  [("ElementType".toList, "MET_USHORT".toList), (key.toList, value.toList), ("DimSize".toList, sizesText [1, 1, 1]),
   ("ElementDataFile".toList, "a.raw".toList)]

theorem entryHeader_complete (key value : String) (hk : '=' ∉ key.toList) (hv : '=' ∉ value.toList) (hk' : '\n' ∉ key.toList)
    (hv' : '\n' ∉ value.toList) (hn : key.toList ∉ ["ElementType".toList, "DimSize".toList, "ElementDataFile".toList]) :
    Complete (entryHeader key value) "a.raw".toList "MET_USHORT".toList 1 1 1 .u16 where
  good := by
    intro e he
    have : '=' ∉ e.1 ∧ '=' ∉ e.2 ∧ '\n' ∉ e.1 ∧ '\n' ∉ e.2 := by
      simp only [entryHeader, List.mem_cons, List.not_mem_nil, or_false] at he
      rcases he with rfl | rfl | rfl | rfl
      · decide
      · exact ⟨hk, hv, hk', hv'⟩
      · simp [sizesText, decimal]
      · decide
    exact ⟨this.1, noSep_of_noEq _ this.2.1, this.2.2.1, this.2.2.2⟩
  keys := by
    simp only [List.mem_cons, List.not_mem_nil, or_false, not_or] at hn
    have h1 : "ElementType".toList ≠ "DimSize".toList := by decide
    have h2 : "ElementType".toList ≠ "ElementDataFile".toList := by decide
    have h3 : "DimSize".toList ≠ "ElementDataFile".toList := by decide
    simp only [entryHeader, List.map_cons, List.map_nil, List.nodup_cons, List.mem_cons, List.not_mem_nil, or_false, not_or,
      not_false_eq_true, List.nodup_nil, and_true]
    exact ⟨⟨fun h => hn.1 h.symm, h1, h2⟩, ⟨hn.2.1, hn.2.2⟩, h3⟩
  fileIn := by simp [entryHeader]
  dimIn := by simp [entryHeader]
  typeIn := by simp [entryHeader]
  typeOk := by decide
  small := by decide

/-- **C164** is false for headers shorter than an item: the data are read at the wrong place. The voxel 0x0201 behind one byte (0) is read
as 0x0100. -/
theorem C164_short_header_refuted : ∃ v, loadMhd (fun _ => some [0, 1, 2]) [] (headerText (entryHeader "HeaderSize" "1")) = .ok (.u16, v) ∧
    v.get [0, 0, 0] = 0x0100 ∧ describedItem (entryHeader "HeaderSize" "1") 1 [0, 1, 2] 2 (voxelPos 1 1 0 0 0) = 0x0201 := by
  have hc := entryHeader_complete "HeaderSize" "1" (by decide) (by decide) (by decide) (by decide) (by decide)
  obtain ⟨v, hv, -, hg⟩ := (loadBinary_three [0, 1, 2] .u16 1 1 1 (by decide) (by decide) (by decide) (by decide)).1 (by decide)
  refine ⟨v, ?_, ?_, ?_⟩
  · rw [loadMhd_complete hc _ _ [0, 1, 2] rfl, hv]
    rfl
  · rw [hg 0 0 0 (by decide) (by decide) (by decide)]
    decide
  · unfold describedItem
    rw [if_neg (by unfold DeclaresMSB entryHeader; decide)]
    decide

/-- A comment in the header. -/
example (v : NDArray Nat) (hv : loadMhd (fun _ => some [1, 2]) [] (headerText (entryHeader "Comment" "x")) = .ok (.u16, v)) :
    v.get [0, 0, 0] = 0x0201 := by
  rw [(C164_plain_partial (entryHeader_complete "Comment" "x" (by decide) (by decide) (by decide) (by decide) (by decide)) _ [] [1, 2] rfl
    (by decide) (Or.inl (by unfold DeclaresMSB entryHeader; decide)) _ v hv).2.2 0 0 0 (by decide) (by decide) (by decide)]
  unfold describedItem
  rw [if_neg (by unfold DeclaresMSB entryHeader; decide)]
  decide

example : ∃ m, loadMhd (fun _ => some [0, 0, 0, 1, 2]) [] (headerText (entryHeader "HeaderSize" "3")) = .error (.valueError m) :=
  C164_header_size_partial (entryHeader_complete "HeaderSize" "3" (by decide) (by decide) (by decide) (by decide) (by decide)) _ []
    [0, 0, 0, 1, 2] rfl (by decide) 3 (by decide) (by decide)

/-- The voxel 0x0102 is not read as described. -/
example (v : NDArray Nat) (hv : loadMhd (fun _ => some [1, 2]) [] (headerText (entryHeader "ElementByteOrderMSB" "True")) = .ok (.u16, v)) :
    v.get [0, 0, 0] ≠ describedItem (entryHeader "ElementByteOrderMSB" "True") 0 [1, 2] 2 (voxelPos 1 1 0 0 0) := fun h =>
  absurd ((C164_byte_order_refuted (entryHeader_complete "ElementByteOrderMSB" "True" (by decide) (by decide) (by decide) (by decide)
    (by decide)) _ [] [1, 2] rfl (by decide) (Or.inl (by unfold entryHeader; decide)) _ v hv 0 0 0 (by decide) (by decide) (by decide)).1 h)
    (by decide)

end Viqa
