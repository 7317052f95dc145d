import Verif.Lemmas.Binary
import Verif.Lemmas.Header

set_option linter.unusedSimpArgs false

/-!
Properties C01 – C08: reading volumes from files.
-/

namespace Viqa
open Spec

/-! ### C01 voxel order -/

/-- **C01.** Whenever a binary file is loaded with declared size `X × Y × Z`, the result has
shape `(X, Y, Z)` and the voxel `[x, y, z]` is the file's item number `x + X*(y + Y*z)`. -/
theorem C01_voxel_order (bytes : List UInt8) (dt : DType) (X Y Z : Nat) (v : NDArray Nat)
    (hX : X < 2 ^ 63) (hY : Y < 2 ^ 63) (hZ : Z < 2 ^ 63) (hb : bytes.length < 2 ^ 63)
    (h : loadBinary bytes dt [(X : Int), Y, Z] = .ok v) :
    v.shape = [X, Y, Z] ∧
    ∀ x y z, x < X → y < Y → z < Z →
      v.get [x, y, z] = fileItem bytes dt.itemsize (voxelPos X Y x y z) := by
  obtain ⟨h1, h2⟩ := loadBinary_three bytes dt X Y Z hX hY hZ hb
  by_cases hs : bytes.length / dt.itemsize = X * Y * Z
  · obtain ⟨w, hw, hw2⟩ := h1 hs
    rw [h] at hw; cases hw; exact hw2
  · obtain ⟨m, hm⟩ := h2 hs
    rw [h] at hm; cases hm

/-- The item 5 of a volume of 2 × 3 × 1 voxels. -/
example (v : NDArray Nat) (h : loadBinary [10, 11, 12, 13, 14, 15] .u8 [((2 : Nat) : Int), (3 : Nat), (1 : Nat)] = .ok v) :
    v.get [1, 2, 0] = 15 := by
  rw [(C01_voxel_order _ _ 2 3 1 v (by decide) (by decide) (by decide) (by decide) h).2 1 2 0 (by decide) (by decide) (by decide)]
  decide

/-- The same through `load_raw`: size and data type come from the file name. -/
theorem C01_voxel_order_raw (fs : FileSystem) (dir name : Txt) (dt : DType) (v : NDArray Nat)
    (hfs : ∀ p b, fs p = some b → b.length < 2 ^ 63)
    (h : loadRaw fs dir name = .ok (dt, v)) :
    ∃ bytes : List UInt8, ∃ X Y Z : Nat, fs (pathJoin dir name) = some bytes ∧
      parseRawName name = .ok ([(X : Int), Y, Z], dt) ∧ v.shape = [X, Y, Z] ∧
      ∀ x y z, x < X → y < Y → z < Z →
        v.get [x, y, z] = fileItem bytes dt.itemsize (voxelPos X Y x y z) := by
  unfold loadRaw at h
  split at h
  · cases h
  · rename_i dims dt' hp
    split at h
    · cases h
    · rename_i bytes hr
      split at h
      · cases h
      · rename_i a ha
        cases h
        have hfile : fs (pathJoin dir name) = some bytes := by
          unfold readFile at hr; split at hr
          · cases hr
          · rename_i b hb; cases hr; exact hb
        have hd : ∃ X Y Z : Nat, dims = [(X : Int), Y, Z] := by
          unfold parseRawName at hp
          simp only at hp
          split at hp
          · cases hp
          · split at hp
            · cases hp
            · split at hp
              · cases hp
              · cases hp; exact ⟨_, _, _, rfl⟩
        obtain ⟨X, Y, Z, rfl⟩ := hd
        have hb : bytes.length < 2 ^ 63 := hfs _ _ hfile
        have hlt : X < 2 ^ 63 ∧ Y < 2 ^ 63 ∧ Z < 2 ^ 63 := by
          apply Decidable.byContradiction; intro hcon
          have : ([(X : Int), Y, Z].any fun d => decide (2 ^ 63 ≤ d)) = true := by
            simp only [List.any_cons, List.any_nil, Bool.or_false, Bool.or_eq_true,
              decide_eq_true_eq]
            omega
          unfold loadBinary at ha
          simp only [this, if_true] at ha
          cases ha
        exact ⟨bytes, X, Y, Z, hfile, hp,
          C01_voxel_order bytes dt X Y Z v hlt.1 hlt.2.1 hlt.2.2 hb ha⟩

example : ∃ dt v, loadRaw (fun p => if p = "d/a_2x1x1_8bit.raw".toList then some [7, 9] else none) "d".toList
    "a_2x1x1_8bit.raw".toList = .ok (dt, v) ∧ v.get [1, 0, 0] = 9 := by
  obtain ⟨dt, v, h⟩ : ∃ dt v, loadRaw (fun p => if p = "d/a_2x1x1_8bit.raw".toList then some [7, 9] else none) "d".toList
      "a_2x1x1_8bit.raw".toList = .ok (dt, v) := ⟨_, _, rfl⟩
  obtain ⟨bytes, X, Y, Z, h1, h2, -, h4⟩ := C01_voxel_order_raw _ _ _ dt v (by
    intro p b hb
    split at hb
    · cases hb; decide
    · cases hb) h
  have h3 : parseRawName "a_2x1x1_8bit.raw".toList = .ok ([2, 1, 1], .u8) := by decide
  rw [h3] at h2
  have h5 : (some [7, 9] : Option (List UInt8)) = some bytes := by
    rw [← h1, if_pos (by decide)]
  simp only [Except.ok.injEq, Prod.mk.injEq, List.cons.injEq, and_true] at h2
  obtain ⟨⟨hX, hY, hZ⟩, rfl⟩ := h2
  obtain rfl : X = 2 := by exact_mod_cast hX.symm
  obtain rfl : Y = 1 := by exact_mod_cast hY.symm
  obtain rfl : Z = 1 := by exact_mod_cast hZ.symm
  cases h5
  exact ⟨_, v, h, by rw [h4 1 0 0 (by decide) (by decide) (by decide)]; decide⟩

/-- The same through an mhd header that declares three sizes. -/
theorem C01_voxel_order_mhd (fs : FileSystem) (dir text : Txt) (dt : DType) (v : NDArray Nat)
    (file : Txt) (X Y Z : Nat) (dt' : DType)
    (hX : X < 2 ^ 63) (hY : Y < 2 ^ 63) (hZ : Z < 2 ^ 63)
    (hfs : ∀ p b, fs p = some b → b.length < 2 ^ 63)
    (hp : parseMhd text = .ok (file, [(X : Int), Y, Z], dt'))
    (h : loadMhd fs dir text = .ok (dt, v)) :
    dt = dt' ∧ ∃ bytes : List UInt8, fs (pathJoin dir file) = some bytes ∧ v.shape = [X, Y, Z] ∧
      ∀ x y z, x < X → y < Y → z < Z →
        v.get [x, y, z] = fileItem bytes dt.itemsize (voxelPos X Y x y z) := by
  unfold loadMhd at h
  rw [hp] at h
  simp only at h
  split at h
  · cases h
  · rename_i bytes hr
    split at h
    · cases h
    · rename_i a ha
      cases h
      have hfile : fs (pathJoin dir file) = some bytes := by
        unfold readFile at hr; split at hr
        · cases hr
        · rename_i b hb; cases hr; exact hb
      exact ⟨rfl, bytes, hfile,
        C01_voxel_order bytes dt X Y Z v hX hY hZ (hfs _ _ hfile) ha⟩

/-- Non-trivial case: a 2 × 3 × 1 volume of bytes 10..15. -/
example : ∃ v, loadBinary [10, 11, 12, 13, 14, 15] .u8 [2, 3, 1] = .ok v ∧
    v.get [1, 2, 0] = 15 ∧ v.get [1, 0, 0] = 11 ∧ v.get [0, 1, 0] = 12 := ⟨_, rfl, by decide⟩

/-! ### C02 size check -/

/-- **C02.** Loading succeeds exactly if the number of whole items in the file is the product
of the declared sizes; otherwise a ValueError is raised. -/
theorem C02_size_check (bytes : List UInt8) (dt : DType) (X Y Z : Nat)
    (hX : X < 2 ^ 63) (hY : Y < 2 ^ 63) (hZ : Z < 2 ^ 63) (hb : bytes.length < 2 ^ 63) :
    ((∃ v, loadBinary bytes dt [(X : Int), Y, Z] = .ok v) ↔
      bytes.length / dt.itemsize = X * Y * Z) ∧
    (∀ e, loadBinary bytes dt [(X : Int), Y, Z] = .error e → ∃ m, e = .valueError m) := by
  obtain ⟨h1, h2⟩ := loadBinary_three bytes dt X Y Z hX hY hZ hb
  by_cases hs : bytes.length / dt.itemsize = X * Y * Z
  · obtain ⟨v, hv, -⟩ := h1 hs
    refine ⟨⟨fun _ => hs, fun _ => ⟨v, hv⟩⟩, ?_⟩
    intro e he; rw [hv] at he; cases he
  · obtain ⟨m, hm⟩ := h2 hs
    refine ⟨⟨?_, fun h => absurd h hs⟩, ?_⟩
    · rintro ⟨v, hv⟩; rw [hm] at hv; cases hv
    · intro e he; rw [hm] at he; cases he; exact ⟨m, rfl⟩

example : ¬ ∃ v, loadBinary [1, 2, 3, 4, 5, 6, 7, 8] .u16 [((1 : Nat) : Int), (3 : Nat), (1 : Nat)] = .ok v := by
  rw [(C02_size_check _ _ 1 3 1 (by decide) (by decide) (by decide) (by decide)).1]
  decide

/-- Every item of the file is the position of exactly one voxel: together with C01 no voxel
is made up and no item is dropped or used twice. -/
theorem C02_every_item_used_once (X Y Z k : Nat) (hk : k < X * Y * Z) :
    ∃ x y z, (x < X ∧ y < Y ∧ z < Z ∧ voxelPos X Y x y z = k) ∧
      ∀ x' y' z', x' < X → y' < Y → z' < Z → voxelPos X Y x' y' z' = k →
        x' = x ∧ y' = y ∧ z' = z := by
  have hX : 0 < X := by
    rcases Nat.eq_zero_or_pos X with h | h
    · subst h; simp at hk
    · exact h
  have hY : 0 < Y := by
    rcases Nat.eq_zero_or_pos Y with h | h
    · subst h; simp at hk
    · exact h
  refine ⟨k % X, k / X % Y, k / X / Y, ⟨Nat.mod_lt _ hX, Nat.mod_lt _ hY, ?_, ?_⟩, ?_⟩
  · rw [Nat.div_div_eq_div_mul]
    exact Nat.div_lt_of_lt_mul hk
  · unfold voxelPos
    rw [Nat.mod_add_div, Nat.mod_add_div]
  · intro x' y' z' hx hy hz h
    unfold voxelPos at h
    have e1 : k % X = x' := by rw [← h, Nat.add_mul_mod_self_left, Nat.mod_eq_of_lt hx]
    have e2 : k / X = y' + Y * z' := by
      rw [← h, Nat.add_mul_div_left _ _ hX, Nat.div_eq_of_lt hx, Nat.zero_add]
    refine ⟨e1.symm, ?_, ?_⟩
    · rw [e2, Nat.add_mul_mod_self_left, Nat.mod_eq_of_lt hy]
    · rw [e2, Nat.add_mul_div_left _ _ hY, Nat.div_eq_of_lt hy, Nat.zero_add]

example : ∃ x y z, (x < 4 ∧ y < 5 ∧ z < 6 ∧ voxelPos 4 5 x y z = 119) ∧ ∀ x' y' z', x' < 4 → y' < 5 → z' < 6 →
    voxelPos 4 5 x' y' z' = 119 → x' = x ∧ y' = y ∧ z' = z :=
  C02_every_item_used_once 4 5 6 119 (by decide)

/-- A trailing partial item is ignored: the check is on whole items, not on bytes. -/
theorem C02_trailing_bytes_ignored (bytes extra : List UInt8) (dt : DType) (dims : List Int)
    (hb : dt.itemsize ∣ bytes.length) (he : extra.length < dt.itemsize) :
    loadBinary (bytes ++ extra) dt dims = loadBinary bytes dt dims := by
  have : fromfile dt.itemsize (bytes ++ extra) = fromfile dt.itemsize bytes := by
    obtain ⟨q, hq⟩ := hb
    have hs := dt.itemsize_pos
    have h1 : (bytes ++ extra).length / dt.itemsize = q := by
      rw [List.length_append, hq, Nat.mul_add_div hs, Nat.div_eq_of_lt he, Nat.add_zero]
    have h2 : bytes.length / dt.itemsize = q := by rw [hq, Nat.mul_div_cancel_left _ hs]
    unfold fromfile
    rw [h1, h2]
    apply List.map_congr_left
    intro k hk
    have hk : k < q := by simpa using hk
    have hle : (k + 1) * dt.itemsize ≤ bytes.length := by
      rw [hq, Nat.mul_comm dt.itemsize q]; exact Nat.mul_le_mul_right _ hk
    rw [Nat.add_mul] at hle
    congr 1
    rw [List.drop_append_of_le_length (by omega), List.take_append_of_le_length]
    simp; omega
  unfold loadBinary
  rw [this]

example : (∃ v, loadBinary [1, 2, 3, 4, 5, 6] .u16 [1, 3, 1] = .ok v) ∧
    (∃ v, loadBinary [1, 2, 3, 4, 5, 6, 7] .u16 [1, 3, 1] = .ok v) ∧
    loadBinary [1, 2, 3, 4, 5, 6, 7, 8] .u16 [1, 3, 1]
      = .error (.valueError "Size of data file does not match dimensions") :=
  ⟨⟨_, rfl⟩, ⟨_, rfl⟩, rfl⟩

/-! ### C04 file names -/

/-- A file name in the documented form: prefix, size, bit depth. -/
def rawName (pre : Txt) (X Y Z : Nat) (bits : Txt) : Txt :=
  pre ++ '_' :: (decimal X ++ 'x' :: (decimal Y ++ 'x' :: (decimal Z ++ '_' :: (bits ++ ".raw".toList))))

/-- The other documented form: prefix, bit depth, size. -/
def rawName' (pre : Txt) (X Y Z : Nat) (bits : Txt) : Txt :=
  pre ++ '_' :: (bits ++ '_' :: (decimal X ++ 'x' :: (decimal Y ++ 'x' :: (decimal Z ++ ".raw".toList))))

/-- The documented bit depths and their data types. -/
def documentedBits : List (String × DType) :=
  [("8ubit", .u8), ("8bit", .u8), ("16ubit", .u16), ("16bit", .u16), ("32ubit", .u32),
   ("32bit", .u32), ("16fbit", .f16), ("32fbit", .f32), ("64fbit", .f64)]

theorem documentedBits_split (p : String × DType) (h : p ∈ documentedBits) :
    ∃ ds tail, p.1.toList = ds ++ tail ∧ tail ∈ bitTails ∧ (∀ c ∈ ds, c.isDigit = true) ∧
      (ds.length = 1 ∨ ds.length = 2) ∧ '.' ∉ p.1.toList ∧ 'x' ∉ p.1.toList ∧
      parseBitdepth p.1 = .ok p.2 := by
  simp only [documentedBits, List.mem_cons, List.not_mem_nil, or_false] at h
  rcases h with h | h | h | h | h | h | h | h | h <;> subst h
  · exact ⟨['8'], ['u', 'b', 'i', 't'], by decide, by decide, by decide, by decide, by decide, by decide, rfl⟩
  · exact ⟨['8'], ['b', 'i', 't'], by decide, by decide, by decide, by decide, by decide, by decide, rfl⟩
  · exact ⟨['1', '6'], ['u', 'b', 'i', 't'], by decide, by decide, by decide, by decide, by decide, by decide, rfl⟩
  · exact ⟨['1', '6'], ['b', 'i', 't'], by decide, by decide, by decide, by decide, by decide, by decide, rfl⟩
  · exact ⟨['3', '2'], ['u', 'b', 'i', 't'], by decide, by decide, by decide, by decide, by decide, by decide, rfl⟩
  · exact ⟨['3', '2'], ['b', 'i', 't'], by decide, by decide, by decide, by decide, by decide, by decide, rfl⟩
  · exact ⟨['1', '6'], ['f', 'b', 'i', 't'], by decide, by decide, by decide, by decide, by decide, by decide, rfl⟩
  · exact ⟨['3', '2'], ['f', 'b', 'i', 't'], by decide, by decide, by decide, by decide, by decide, by decide, rfl⟩
  · exact ⟨['6', '4'], ['f', 'b', 'i', 't'], by decide, by decide, by decide, by decide, by decide, by decide, rfl⟩

theorem isNumber_decimal (n : Nat) : IsNumber (decimal n) := ⟨decimal_ne_nil n, decimal_isDigit n⟩

/-- **C04.** Size and data type are read back from a file name of the documented form. -/
theorem C04_name_round_trip (pre : Txt) (X Y Z : Nat) (bits : String) (dt : DType)
    (hpre : ∀ c ∈ pre, c.isDigit = false) (hb : (bits, dt) ∈ documentedBits) :
    parseRawName (rawName pre X Y Z bits.toList) = .ok ([(X : Int), Y, Z], dt) := by
  obtain ⟨ds, tail, e, ht, hd, hl, hdot, hx, hp⟩ := documentedBits_split _ hb
  have e : bits.toList = ds ++ tail := e
  have hsplit : splitext (rawName pre X Y Z bits.toList) =
      (pre ++ '_' :: (decimal X ++ 'x' :: (decimal Y ++ 'x' :: (decimal Z ++ '_' :: bits.toList))),
        ".raw".toList) := by
    have := splitext_append
      (pre ++ '_' :: (decimal X ++ 'x' :: (decimal Y ++ 'x' :: (decimal Z ++ '_' :: bits.toList))))
      ['r', 'a', 'w'] (by decide) ⟨'_', by simp, by decide⟩
    rw [← show ".raw".toList = '.' :: ['r', 'a', 'w'] from rfl] at this
    rw [← this]
    simp [rawName]
  have hdims : searchDims (pre ++ '_' :: (decimal X ++ 'x' :: (decimal Y ++ 'x' ::
      (decimal Z ++ '_' :: bits.toList)))) = some (decimal X, decimal Y, decimal Z) := by
    have h1 := searchDims_prefix (pre ++ ['_'])
      (decimal X ++ 'x' :: (decimal Y ++ 'x' :: (decimal Z ++ '_' :: bits.toList)))
      (by
        intro c hc
        rcases List.mem_append.1 hc with hc | hc
        · exact hpre c hc
        · simp only [List.mem_singleton] at hc; subst hc; decide)
    rw [List.append_assoc, List.cons_append, List.nil_append] at h1
    rw [h1]
    apply searchDims_of_match
    exact matchDims_append _ _ _ _ ⟨isNumber_decimal X, isNumber_decimal Y, isNumber_decimal Z⟩
      (by intro d hd; simp at hd; subst hd; decide)
  have hbits : searchBits (pre ++ '_' :: (decimal X ++ 'x' :: (decimal Y ++ 'x' ::
      (decimal Z ++ '_' :: bits.toList)))) = some bits.toList := by
    have h1 := searchBits_prefix (pre ++ ['_'])
      (decimal X ++ 'x' :: (decimal Y ++ 'x' :: (decimal Z ++ '_' :: bits.toList)))
      (by
        intro c hc
        rcases List.mem_append.1 hc with hc | hc
        · exact hpre c hc
        · simp only [List.mem_singleton] at hc; subst hc; decide)
    rw [List.append_assoc, List.cons_append, List.nil_append] at h1
    rw [h1, searchBits_digits _ 'x' _ (decimal_isDigit X) (Or.inl rfl),
      searchBits_digits _ 'x' _ (decimal_isDigit Y) (Or.inl rfl),
      searchBits_digits _ '_' _ (decimal_isDigit Z) (Or.inr rfl), e]
    apply searchBits_of_match
    have := matchBits_eq ds tail [] ht hd hl (by simp)
    simpa using this
  unfold parseRawName
  simp only [hsplit, hdims, hbits, String.ofList_toList, digitsVal_decimal]
  rw [hp]

example : parseRawName (rawName "scan".toList 512 400 7 "16ubit".toList) = .ok ([((512 : Nat) : Int), (400 : Nat), (7 : Nat)], .u16) :=
  C04_name_round_trip _ _ _ _ _ _ (by decide) (by decide)

/-- The same for the second documented order of size and bit depth. -/
theorem C04_name_round_trip' (pre : Txt) (X Y Z : Nat) (bits : String) (dt : DType)
    (hpre : ∀ c ∈ pre, c.isDigit = false) (hb : (bits, dt) ∈ documentedBits) :
    parseRawName (rawName' pre X Y Z bits.toList) = .ok ([(X : Int), Y, Z], dt) := by
  obtain ⟨ds, tail, e, ht, hd, hl, hdot, hx, hp⟩ := documentedBits_split _ hb
  have e : bits.toList = ds ++ tail := e
  have hsplit : splitext (rawName' pre X Y Z bits.toList) =
      (pre ++ '_' :: (bits.toList ++ '_' :: (decimal X ++ 'x' :: (decimal Y ++ 'x' :: decimal Z))),
        ".raw".toList) := by
    have := splitext_append
      (pre ++ '_' :: (bits.toList ++ '_' :: (decimal X ++ 'x' :: (decimal Y ++ 'x' :: decimal Z))))
      ['r', 'a', 'w'] (by decide) ⟨'_', by simp, by decide⟩
    rw [← show ".raw".toList = '.' :: ['r', 'a', 'w'] from rfl] at this
    rw [← this]
    simp [rawName']
  have hpre' : ∀ c ∈ pre ++ ['_'], c.isDigit = false := by
    intro c hc
    rcases List.mem_append.1 hc with hc | hc
    · exact hpre c hc
    · simp only [List.mem_singleton] at hc; subst hc; decide
  have hdims : searchDims (pre ++ '_' :: (bits.toList ++ '_' :: (decimal X ++ 'x' ::
      (decimal Y ++ 'x' :: decimal Z)))) = some (decimal X, decimal Y, decimal Z) := by
    have h1 := searchDims_prefix (pre ++ ['_'])
      (bits.toList ++ '_' :: (decimal X ++ 'x' :: (decimal Y ++ 'x' :: decimal Z))) hpre'
    rw [List.append_assoc, List.cons_append, List.nil_append] at h1
    rw [h1]
    have h2 : searchDims (bits.toList ++ '_' :: (decimal X ++ 'x' :: (decimal Y ++ 'x' :: decimal Z)))
        = searchDims (decimal X ++ 'x' :: (decimal Y ++ 'x' :: decimal Z)) := by
      have hgen : ∀ r, searchDims (ds ++ (tail ++ '_' :: r)) = searchDims r := by
        intro r
        have ht' : ∀ c ∈ tail ++ ['_'], c.isDigit = false := by
          simp only [bitTails, List.mem_cons, List.not_mem_nil, or_false] at ht
          rcases ht with h | h | h | h | h | h <;> subst h <;> decide
        have h3 := searchDims_prefix (tail ++ ['_']) r ht'
        rw [List.append_assoc, List.cons_append, List.nil_append] at h3
        have hnox : ∃ c q, tail ++ '_' :: r = c :: q ∧ c.isDigit = false ∧ c ≠ 'x' := by
          simp only [bitTails, List.mem_cons, List.not_mem_nil, or_false] at ht
          rcases ht with h | h | h | h | h | h <;> subst h <;> exact ⟨_, _, rfl, by decide, by decide⟩
        obtain ⟨c, q, hcq, hc, hcx⟩ := hnox
        have hm : ∀ ds : Txt, (∀ c ∈ ds, c.isDigit = true) → matchDims (ds ++ (tail ++ '_' :: r)) = none := by
          intro ds hd
          unfold matchDims
          rw [takeDigits_append ds _ hd (by rw [hcq]; simp [hc])]
          simp only [hcq]
          split
          · rfl
          · split
            · rename_i heq; cases heq; exact absurd rfl hcx
            · rfl
        rcases ds with _ | ⟨d, _ | ⟨e', _ | ⟨f, ds⟩⟩⟩
        · simp at hl
        · rw [List.cons_append, searchDims, ← List.cons_append, hm _ hd, List.nil_append, h3]
        · rw [List.cons_append, searchDims, ← List.cons_append, hm _ hd, List.cons_append, searchDims,
            ← List.cons_append, hm _ (fun c hc => hd c (by simp at hc ⊢; right; exact hc)),
            List.nil_append, h3]
        · simp at hl
      rw [e, List.append_assoc]; exact hgen _
    rw [h2]
    apply searchDims_of_match
    have := matchDims_append (decimal X) (decimal Y) (decimal Z) []
      ⟨isNumber_decimal X, isNumber_decimal Y, isNumber_decimal Z⟩ (by simp)
    simpa using this
  have hbits : searchBits (pre ++ '_' :: (bits.toList ++ '_' :: (decimal X ++ 'x' ::
      (decimal Y ++ 'x' :: decimal Z)))) = some bits.toList := by
    have h1 := searchBits_prefix (pre ++ ['_'])
      (bits.toList ++ '_' :: (decimal X ++ 'x' :: (decimal Y ++ 'x' :: decimal Z))) hpre'
    rw [List.append_assoc, List.cons_append, List.nil_append] at h1
    rw [h1, e, List.append_assoc]
    apply searchBits_of_match
    exact matchBits_eq ds tail _ ht hd hl (by simp)
  unfold parseRawName
  simp only [hsplit, hdims, hbits, String.ofList_toList, digitsVal_decimal]
  rw [hp]

example : parseRawName (rawName' "scan".toList 512 400 7 "32fbit".toList) = .ok ([((512 : Nat) : Int), (400 : Nat), (7 : Nat)], .f32) :=
  C04_name_round_trip' _ _ _ _ _ _ (by decide) (by decide)

/-- **C04**, rejection: a name without a size raises "No dimension found", a name with a size
but without a bit depth raises "No bit depth found", and these errors occur in no other
case. -/
theorem C04_missing_parts (name : Txt) :
    (parseRawName name = .error (.valueError "No dimension found") ↔
      ¬ HasSize (splitext name).1) ∧
    (parseRawName name = .error (.valueError "No bit depth found") ↔
      HasSize (splitext name).1 ∧ ¬ HasBits (splitext name).1) := by
  have hs : HasSize (splitext name).1 ↔ (searchDims (splitext name).1).isSome := by
    constructor
    · rintro ⟨pre, a, b, c, post, ha, hb, hc, e⟩
      rw [e]; exact searchDims_isSome pre a b c post ⟨ha, hb, hc⟩
    · intro h
      obtain ⟨⟨a, b, c⟩, hm⟩ := Option.isSome_iff_exists.1 h
      obtain ⟨⟨h1, h2, h3⟩, pre, r, e⟩ := searchDims_some hm
      exact ⟨pre, a, b, c, r, h1, h2, h3, e⟩
  have hb : HasBits (splitext name).1 ↔ (searchBits (splitext name).1).isSome := by
    constructor
    · rintro ⟨pre, t, post, ht, e⟩
      rw [e]; exact searchBits_isSome pre t post ht
    · intro h
      obtain ⟨t, hm⟩ := Option.isSome_iff_exists.1 h
      obtain ⟨h1, pre, r, e⟩ := searchBits_some hm
      exact ⟨pre, t, r, h1, e⟩
  rw [hs, hb]
  unfold parseRawName
  simp only
  constructor
  · split
    · rename_i h; simp [h]
    · rename_i h
      simp only [h, Option.isSome_some, not_true_eq_false, iff_false]
      split
      · simp
      · split
        · rename_i e he
          unfold parseBitdepth at he
          split at he <;> simp at he
          subst he; simp
        · simp
  · split
    · rename_i h; simp [h]
    · rename_i h
      simp only [h, Option.isSome_some, true_and]
      split
      · rename_i h2; simp [h2]
      · rename_i h2
        simp only [h2, Option.isSome_some, not_true_eq_false, iff_false]
        split
        · rename_i e he
          unfold parseBitdepth at he
          split at he <;> simp at he
          subst he; simp
        · simp

example : parseRawName "scan_512x400x7_16ubit.raw".toList = .ok ([512, 400, 7], .u16) := by decide
example : parseRawName "scan_8ubit_512x400x7.raw".toList = .ok ([512, 400, 7], .u8) := by decide
example : parseRawName "scan_512x400_16ubit.raw".toList = .error (.valueError "No dimension found") := by
  decide
example : ¬ HasSize "scan_512x400_16ubit".toList := by
  have h := (C04_missing_parts "scan_512x400_16ubit.raw".toList).1.1 (by decide)
  exact h

/-! ### C05 bit depths -/

/-- **C05.** The accepted bit depth names are exactly the documented ones. -/
theorem C05_bitdepth_table (s : String) (dt : DType) :
    (parseBitdepth s = .ok dt ↔ (s, dt) ∈ documentedBits) ∧
    (parseBitdepth s = .error (.valueError "Bit depth not supported") ↔
      ∀ d, (s, d) ∉ documentedBits) := by
  unfold parseBitdepth documentedBits
  split <;> constructor
  all_goals first
    | (cases dt <;> simp_all; done)
    | (simp_all; done)
    | (simp; try exact ⟨_, rfl⟩)

example : parseBitdepth "24bit" = .error (.valueError "Bit depth not supported") :=
  (C05_bitdepth_table "24bit" .u8).2.2 (by intro d; cases d <;> decide)

/-- The documented element types of mhd headers. -/
def documentedTypes : List (String × DType) :=
  [("MET_UCHAR", .u8), ("MET_USHORT", .u16), ("MET_UINT", .u32), ("MET_FLOAT", .f32),
   ("MET_DOUBLE", .f64)]

/-- **C05** for mhd headers. -/
theorem C05_element_type_table (s : String) (dt : DType) :
    (elementType s = .ok dt ↔ (s, dt) ∈ documentedTypes) ∧
    (elementType s = .error (.valueError "Bit depth not supported") ↔
      ∀ d, (s, d) ∉ documentedTypes) := by
  unfold elementType documentedTypes
  split
  · rename_i h; subst h; constructor <;> simp [eq_comm]
  · split
    · rename_i h; subst h; constructor <;> simp [eq_comm]
    · split
      · rename_i h; subst h; constructor <;> simp [eq_comm]
      · split
        · rename_i h; subst h; constructor <;> simp [eq_comm]
        · split
          · rename_i h; subst h; constructor <;> simp [eq_comm]
          · simp_all

/-- `8bits` is found by the file name search but rejected afterwards. -/
example : parseRawName "a_1x2x3_8bits.raw".toList = .error (.valueError "Bit depth not supported") := by
  decide

/-! ### C03 round trip through a raw file -/

/-- **C03.** A volume written in `x`-fastest order, little endian, under a name of the
documented form is loaded back unchanged. For floating point types the values are the bit
patterns. -/
theorem C03_raw_round_trip (fs : FileSystem) (dir pre : Txt) (X Y Z : Nat) (bits : String)
    (dt : DType) (f : Nat → Nat → Nat → Nat)
    (hpre : ∀ c ∈ pre, c.isDigit = false) (hb : (bits, dt) ∈ documentedBits)
    (hf : ∀ x y z, x < X → y < Y → z < Z → f x y z < 256 ^ dt.itemsize)
    (hX : X < 2 ^ 63) (hY : Y < 2 ^ 63) (hZ : Z < 2 ^ 63)
    (hsize : X * Y * Z * dt.itemsize < 2 ^ 63)
    (hfs : fs (pathJoin dir (rawName pre X Y Z bits.toList)) =
      some (volumeBytes dt.itemsize X Y Z f)) :
    ∃ v, loadRaw fs dir (rawName pre X Y Z bits.toList) = .ok (dt, v) ∧ v.shape = [X, Y, Z] ∧
      ∀ x y z, x < X → y < Y → z < Z → v.get [x, y, z] = f x y z := by
  have hl := volumeBytes_length dt.itemsize X Y Z f
  obtain ⟨h1, -⟩ := loadBinary_three (volumeBytes dt.itemsize X Y Z f) dt X Y Z hX hY hZ (by omega)
  obtain ⟨v, hv, hsh, hval⟩ := h1 (by rw [hl, Nat.mul_div_cancel _ dt.itemsize_pos])
  refine ⟨v, ?_, hsh, ?_⟩
  · unfold loadRaw
    rw [C04_name_round_trip pre X Y Z bits dt hpre hb]
    simp only [readFile, hfs, hv]
  · intro x y z hx hy hz
    rw [hval x y z hx hy hz, fileItem_volumeBytes _ _ _ _ _ _ _ _ hx hy hz (hf x y z hx hy hz)]

/-- Non-trivial case: 16 bit values above 255 in a 2 × 1 × 2 volume. -/
example :
    let f := fun x _ z => 1000 * x + 300 * z + 7
    let name := rawName "scan".toList 2 1 2 "16ubit".toList
    ∃ v, loadRaw (fun p => if p = pathJoin "data".toList name then some (volumeBytes 2 2 1 2 f) else none)
      "data".toList name = .ok (.u16, v) ∧ v.get [1, 0, 1] = 1307 := by
  intro f name
  obtain ⟨v, h, -, hv⟩ := C03_raw_round_trip
    (fun p => if p = pathJoin "data".toList name then some (volumeBytes 2 2 1 2 f) else none)
    "data".toList "scan".toList 2 1 2 "16ubit" .u16 f (by decide) (by simp [documentedBits])
    (by intro x y z hx hy hz; simp only [f, DType.itemsize]; omega)
    (by decide) (by decide) (by decide) (by decide) (by simp [name, DType.itemsize])
  exact ⟨v, h, hv 1 0 1 (by decide) (by decide) (by decide)⟩

/-! ### C06, C07 mhd headers -/

/-- **C06.** A header of `key = value` lines with distinct keys yields exactly the values of
the three relevant keys, wherever they stand and whatever other keys are present. `last` is
anything that follows the last newline. -/
theorem C06_header_by_key (es : List (Txt × Txt)) (last : Txt) (file type : Txt) (ns : List Nat)
    (hg : ∀ e ∈ es, GoodEntry e) (hn : (es.map Prod.fst).Nodup) (hl : '\n' ∉ last)
    (hfile : ("ElementDataFile".toList, file) ∈ es)
    (hdim : ("DimSize".toList, sizesText ns) ∈ es)
    (htype : ("ElementType".toList, type) ∈ es) :
    parseMhd (headerText es ++ last) =
      (elementType (String.ofList type)).map (fun dt => (file, ns.map (fun n : Nat => (n : Int)), dt)) := by
  unfold parseMhd
  rw [parseHeader_text es hg last hl]
  simp only [bind, Except.bind, headerGet_mem es hn _ _ hfile, headerGet_mem es hn _ _ hdim,
    headerGet_mem es hn _ _ htype, splitWs_sizes, mapM_parseInt]
  cases elementType (String.ofList type) <;> rfl

/-- Reordering the lines or adding lines with other keys does not change what is loaded. -/
theorem C06_order_independent (es es' : List (Txt × Txt)) (file type : Txt) (ns : List Nat)
    (fs : FileSystem) (dir : Txt)
    (hg : ∀ e ∈ es, GoodEntry e) (hn : (es.map Prod.fst).Nodup)
    (hg' : ∀ e ∈ es', GoodEntry e) (hn' : (es'.map Prod.fst).Nodup)
    (hsub : ∀ e ∈ es, e ∈ es')
    (hfile : ("ElementDataFile".toList, file) ∈ es)
    (hdim : ("DimSize".toList, sizesText ns) ∈ es)
    (htype : ("ElementType".toList, type) ∈ es) :
    loadMhd fs dir (headerText es') = loadMhd fs dir (headerText es) := by
  have h1 := C06_header_by_key es [] file type ns hg hn (by simp) hfile hdim htype
  have h2 := C06_header_by_key es' [] file type ns hg' hn' (by simp) (hsub _ hfile) (hsub _ hdim)
    (hsub _ htype)
  rw [List.append_nil] at h1 h2
  unfold loadMhd
  rw [h1, h2]

/-- A permutation of the lines of a header: the special case named in C06. -/
theorem C06_permutation (es es' : List (Txt × Txt)) (file type : Txt) (ns : List Nat)
    (fs : FileSystem) (dir : Txt) (hp : es.Perm es')
    (hg : ∀ e ∈ es, GoodEntry e) (hn : (es.map Prod.fst).Nodup)
    (hfile : ("ElementDataFile".toList, file) ∈ es)
    (hdim : ("DimSize".toList, sizesText ns) ∈ es)
    (htype : ("ElementType".toList, type) ∈ es) :
    loadMhd fs dir (headerText es') = loadMhd fs dir (headerText es) :=
  C06_order_independent es es' file type ns fs dir hg hn
    (fun e he => hg e (hp.mem_iff.2 he)) ((hp.map _).nodup hn) (fun _ he => hp.mem_iff.1 he)
    hfile hdim htype

/-- A missing key is reported with a KeyError. -/
theorem C06_missing_key (es : List (Txt × Txt)) (hg : ∀ e ∈ es, GoodEntry e)
    (h : "ElementDataFile".toList ∉ es.map Prod.fst) :
    parseMhd (headerText es) = .error (.keyError "ElementDataFile") := by
  have h1 := parseHeader_text es hg [] (by simp)
  rw [List.append_nil] at h1
  unfold parseMhd
  rw [h1]
  simp only [bind, Except.bind, headerGet_not_mem es _ h]

def exampleHeader : List (Txt × Txt) :=
  [("NDims".toList, "3".toList), ("ElementType".toList, "MET_USHORT".toList),
   ("DimSize".toList, sizesText [4, 5, 6]), ("ElementDataFile".toList, "a.raw".toList)]

theorem noSep_of_noEq (v : Txt) (h : '=' ∉ v) : ¬ HasSep v := by
  rintro ⟨a, b, rfl⟩; simp [eqSep] at h

theorem exampleHeader_good : ∀ e ∈ exampleHeader, GoodEntry e := by
  have : ∀ e ∈ exampleHeader, '=' ∉ e.1 ∧ '=' ∉ e.2 ∧ '\n' ∉ e.1 ∧ '\n' ∉ e.2 := by
    simp [exampleHeader, sizesText, decimal]
  intro e he
  obtain ⟨h1, h2, h3, h4⟩ := this e he
  exact ⟨h1, noSep_of_noEq _ h2, h3, h4⟩

example : parseMhd (headerText exampleHeader) = .ok ("a.raw".toList, [4, 5, 6], .u16) := by
  have h := C06_header_by_key exampleHeader [] "a.raw".toList "MET_USHORT".toList [4, 5, 6]
    exampleHeader_good (by decide) (by simp) (by simp [exampleHeader]) (by simp [exampleHeader])
    (by simp [exampleHeader])
  simpa [elementType, Except.map] using h

/-- The header with its lines in another order, and with a line more. -/
example (fs : FileSystem) (dir : Txt) : loadMhd fs dir (headerText exampleHeader.reverse) = loadMhd fs dir (headerText exampleHeader) :=
  C06_permutation exampleHeader _ "a.raw".toList "MET_USHORT".toList [4, 5, 6] fs dir (List.reverse_perm _).symm
    exampleHeader_good (by decide) (by simp [exampleHeader]) (by simp [exampleHeader]) (by simp [exampleHeader])

example (fs : FileSystem) (dir : Txt) :
    loadMhd fs dir (headerText (("Comment".toList, "x".toList) :: exampleHeader)) = loadMhd fs dir (headerText exampleHeader) :=
  C06_order_independent exampleHeader _ "a.raw".toList "MET_USHORT".toList [4, 5, 6] fs dir exampleHeader_good (by decide)
    (by
      intro e he
      rcases List.mem_cons.1 he with rfl | he
      · exact ⟨by decide, noSep_of_noEq _ (by decide), by decide, by decide⟩
      · exact exampleHeader_good e he)
    (by decide) (fun e he => List.mem_cons_of_mem _ he) (by simp [exampleHeader]) (by simp [exampleHeader]) (by simp [exampleHeader])

/-- **C07** is false for the code: the text after the last newline is dropped, so without a
final newline the last entry is lost. -/
theorem C07_final_newline_refuted :
    ¬ ∀ (es : List (Txt × Txt)) (e : Txt × Txt), (∀ x ∈ es ++ [e], GoodEntry x) →
        ((es ++ [e]).map Prod.fst).Nodup →
        parseMhd (headerText es ++ headerLine e) = parseMhd (headerText (es ++ [e])) := by
  intro h
  have h1 := h (exampleHeader.take 3) ("ElementDataFile".toList, "a.raw".toList)
    (by intro x hx; exact exampleHeader_good x hx) (by decide)
  have h2 := C06_header_by_key exampleHeader [] "a.raw".toList "MET_USHORT".toList [4, 5, 6]
    exampleHeader_good (by decide) (by simp) (by simp [exampleHeader]) (by simp [exampleHeader])
    (by simp [exampleHeader])
  have h3 : parseMhd (headerText (exampleHeader.take 3) ++
      headerLine ("ElementDataFile".toList, "a.raw".toList)) =
      .error (.keyError "ElementDataFile") := by
    have := parseHeader_text (exampleHeader.take 3)
      (fun e he => exampleHeader_good e (List.mem_of_mem_take he))
      (headerLine ("ElementDataFile".toList, "a.raw".toList)) (by decide)
    unfold parseMhd
    rw [this]
    simp only [bind, Except.bind, headerGet_not_mem (exampleHeader.take 3) "ElementDataFile" (by decide)]
  rw [h3] at h1
  rw [List.append_nil] at h2
  have h4 : exampleHeader.take 3 ++ [("ElementDataFile".toList, "a.raw".toList)] = exampleHeader := rfl
  rw [h4, h2] at h1
  simp [elementType, Except.map] at h1

/-- What holds instead of C07: a header without final newline is read as if its last line
were not there; so it is read correctly exactly if that line carries none of the three
relevant keys. -/
theorem C07_last_line_dropped_partial (es : List (Txt × Txt)) (e : Txt × Txt)
    (hg : ∀ x ∈ es ++ [e], GoodEntry x) :
    parseMhd (headerText es ++ headerLine e) = parseMhd (headerText es) := by
  have h1 := parseHeader_text es (fun x hx => hg x (by simp [hx])) (headerLine e)
    (headerLine_nonl e (hg e (by simp)))
  have h2 := parseHeader_text es (fun x hx => hg x (by simp [hx])) [] (by simp)
  rw [List.append_nil] at h2
  unfold parseMhd
  rw [h1, h2]

/-- The two forms agree if the unterminated line carries none of the relevant keys. -/
theorem C07_irrelevant_last_line_partial (es : List (Txt × Txt)) (e : Txt × Txt)
    (hg : ∀ x ∈ es ++ [e], GoodEntry x) (hn : ((es ++ [e]).map Prod.fst).Nodup)
    (file type : Txt) (ns : List Nat)
    (hfile : ("ElementDataFile".toList, file) ∈ es)
    (hdim : ("DimSize".toList, sizesText ns) ∈ es)
    (htype : ("ElementType".toList, type) ∈ es) :
    parseMhd (headerText es ++ headerLine e) = parseMhd (headerText (es ++ [e])) := by
  rw [C07_last_line_dropped_partial es e hg]
  have h1 := C06_header_by_key es [] file type ns (fun x hx => hg x (by simp [hx]))
    (by rw [List.map_append] at hn; exact (List.nodup_append.1 hn).1) (by simp) hfile hdim htype
  have h2 := C06_header_by_key (es ++ [e]) [] file type ns hg hn (by simp) (List.mem_append_left _ hfile)
    (List.mem_append_left _ hdim) (List.mem_append_left _ htype)
  rw [List.append_nil] at h1 h2
  rw [h1, h2]

example : parseMhd (headerText exampleHeader ++ headerLine ("Comment".toList, "x".toList)) =
    .ok ("a.raw".toList, [4, 5, 6], .u16) := by
  rw [C07_last_line_dropped_partial]
  · have h := C06_header_by_key exampleHeader [] "a.raw".toList "MET_USHORT".toList [4, 5, 6]
      exampleHeader_good (by decide) (by simp) (by simp [exampleHeader]) (by simp [exampleHeader])
      (by simp [exampleHeader])
    simpa [elementType, Except.map] using h
  · intro x hx
    rcases List.mem_append.1 hx with h | h
    · exact exampleHeader_good x h
    · simp only [List.mem_singleton] at h; subst h
      exact ⟨by decide, noSep_of_noEq _ (by decide), by decide, by decide⟩

/-! ### C08 file types -/

/-- The readers by extension (without the dot), `.gz` apart. -/
def documentedReaders : List (String × Reader) :=
  [("mhd", .mhd), ("raw", .raw), ("nii", .nifti), ("png", .imread), ("jpg", .imread),
   ("jpeg", .imread), ("bmp", .imread), ("tiff", .imread)]

/-- The name contains `nii` after some character that is not a line break. -/
def HasNii (s : Txt) : Prop := ∃ pre c post, c ≠ '\n' ∧ s = pre ++ c :: ("nii".toList ++ post)

theorem searchNii_iff (s : Txt) : searchNii s = true ↔ HasNii s := by
  induction s with
  | nil => simp [searchNii, HasNii]
  | cons d s ih =>
    rw [searchNii, Bool.or_eq_true, ih]
    constructor
    · rintro (h | ⟨pre, c, post, hc, e⟩)
      · simp only [Bool.and_eq_true, decide_eq_true_eq] at h
        obtain ⟨post, hp⟩ := List.isPrefixOf_iff_prefix.1 h.2
        exact ⟨[], d, post, h.1, by rw [← hp]; rfl⟩
      · exact ⟨d :: pre, c, post, hc, by rw [e]; rfl⟩
    · rintro ⟨pre, c, post, hc, e⟩
      cases pre with
      | nil =>
        simp only [List.nil_append, List.cons.injEq] at e
        left
        simp only [Bool.and_eq_true, decide_eq_true_eq]
        exact ⟨by rw [e.1]; exact hc, List.isPrefixOf_iff_prefix.2 ⟨post, e.2.symm⟩⟩
      | cons p pre =>
        simp only [List.cons_append, List.cons.injEq] at e
        exact Or.inr ⟨pre, c, post, hc, e.2⟩

theorem diskReader_ext (name : Txt) (ext : String) (he : (splitext name).2 = '.' :: ext.toList) (r : Reader) :
    diskReader name = .ok r ↔
      ((ext, r) ∈ documentedReaders ∨ (ext = "gz" ∧ r = .nifti ∧ HasNii name)) := by
  have key : ∀ t : String, ('.' :: ext.toList = '.' :: t.toList) ↔ ext = t := by
    intro t; simp only [List.cons.injEq, true_and]; exact String.toList_inj
  unfold diskReader
  simp only [he, List.mem_cons, List.not_mem_nil, or_false]
  rw [show ".mhd".toList = '.' :: "mhd".toList from rfl, show ".raw".toList = '.' :: "raw".toList from rfl,
    show ".nii".toList = '.' :: "nii".toList from rfl, show ".gz".toList = '.' :: "gz".toList from rfl,
    show ".png".toList = '.' :: "png".toList from rfl, show ".jpg".toList = '.' :: "jpg".toList from rfl,
    show ".jpeg".toList = '.' :: "jpeg".toList from rfl, show ".bmp".toList = '.' :: "bmp".toList from rfl,
    show ".tiff".toList = '.' :: "tiff".toList from rfl]
  simp only [key]
  rw [← searchNii_iff]
  unfold documentedReaders
  split
  · rename_i h; subst h; cases r <;> simp
  · split
    · rename_i h; subst h; cases r <;> simp
    · split
      · rename_i h; subst h; cases r <;> simp
      · split
        · rename_i h; subst h
          split
          · rename_i h; cases r <;> simp [h]
          · rename_i h; cases r <;> simp [h]
        · split
          · rename_i h; cases r <;> simp_all
          · simp_all

/-- **C08.** The reader is chosen by the extension, that is by what follows the last dot. -/
theorem C08_reader_by_extension (root : Txt) (ext : String) (h : '.' ∉ ext.toList)
    (hr : ∃ c ∈ root, c ≠ '.') (r : Reader) :
    diskReader (root ++ '.' :: ext.toList) = .ok r ↔
      ((ext, r) ∈ documentedReaders ∨ (ext = "gz" ∧ r = .nifti ∧ HasNii (root ++ '.' :: ext.toList))) :=
  diskReader_ext _ ext (by rw [splitext_append root ext.toList h hr]) r

example : diskReader ("scan.1".toList ++ '.' :: "tiff".toList) = .ok .imread :=
  (C08_reader_by_extension _ "tiff" (by decide) ⟨'s', by decide, by decide⟩ .imread).2 (.inl (by decide))

/-- A name without extension (no dot, or only leading dots) is rejected. -/
theorem C08_no_extension (root ext : Txt) :
    ('.' ∉ ext → (∀ c ∈ root, c = '.') →
      diskReader (root ++ '.' :: ext) = .error (.valueError "File extension not supported")) ∧
    ('.' ∉ ext → diskReader ext = .error (.valueError "File extension not supported")) := by
  constructor
  · intro h hr
    unfold diskReader
    rw [splitext_dots root ext h hr]
    rfl
  · intro h
    unfold diskReader
    rw [splitext_none ext h]
    rfl

example : diskReader "README".toList = .error (.valueError "File extension not supported") :=
  (C08_no_extension [] "README".toList).2 (by decide)

/-- The only error of the choice is the documented ValueError. -/
theorem C08_only_error (name : Txt) (e : Exc) (h : diskReader name = .error e) :
    e = .valueError "File extension not supported" := by
  unfold diskReader at h
  simp only at h
  repeat' (split at h)
  all_goals simp at h <;> exact h.symm

example (e : Exc) (h : diskReader "archive.tar.gz".toList = .error e) : e = .valueError "File extension not supported" :=
  C08_only_error _ e h

/-- Any extension that differs from the documented ones, in particular in upper case, is
rejected. -/
theorem C08_other_extension (root : Txt) (ext : String) (h : '.' ∉ ext.toList)
    (hr : ∃ c ∈ root, c ≠ '.') (hne : ∀ r, (ext, r) ∉ documentedReaders) (hgz : ext ≠ "gz") :
    diskReader (root ++ '.' :: ext.toList) = .error (.valueError "File extension not supported") := by
  cases hd : diskReader (root ++ '.' :: ext.toList) with
  | error e => rw [C08_only_error _ e hd]
  | ok r =>
    rcases (C08_reader_by_extension root ext h hr r).1 hd with h1 | h1
    · exact absurd h1 (hne r)
    · exact absurd h1.1 hgz

example : diskReader "brain.nii.gz".toList = .ok .nifti ∧ diskReader "archive.tar.gz".toList =
    .error (.valueError "File extension not supported") ∧
    diskReader "VOLUME.RAW".toList = .error (.valueError "File extension not supported") ∧
    diskReader ".raw".toList = .error (.valueError "File extension not supported") ∧
    diskReader "a.b.raw".toList = .ok .raw := by decide

end Viqa
