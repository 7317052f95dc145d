import Verif.Model.Nifti
import Verif.Lemmas.Rounding
import Verif.Lemmas.Scripts
import Verif.Props.Loading
import Verif.Props.Workflow

/-!
Property C163: the format of the file does not matter.
-/

namespace Viqa
open Spec

theorem nat_representable (n : Nat) (h : n ≤ 2 ^ 53) : Representable 53 ((n : Nat) : Rat) := by
  have := representable_int (K := Rat) (p := 53) (n : Int) (by rw [Nat.abs_cast]; exact_mod_cast h)
  simpa using this

theorem signed_representable (b n : Nat) (hb : b ≤ 32) (h : n < 2 ^ b) : Representable 53 (signedItem b n) := by
  unfold signedItem
  have h53 : (2 : Nat) ^ b ≤ 2 ^ 32 := Nat.pow_le_pow_right (by norm_num) hb
  have hle : (2 : Nat) ^ 32 ≤ 2 ^ 53 := by norm_num
  split
  · exact nat_representable n (by omega)
  · have := representable_int (K := Rat) (p := 53) ((n : Int) - 2 ^ b) (by
      have h1 : ((n : Int)) < 2 ^ b := by exact_mod_cast h
      have h2 : ((2 : Int) ^ b) ≤ 2 ^ 53 := by exact_mod_cast h53.trans hle
      rw [abs_le]
      constructor <;> omega)
    push_cast at this
    exact this

theorem float_representable (e m n : Nat) (hm : m ≤ 52) (q : Rat) (h : floatItem e m n = some q) : Representable 53 q := by
  unfold floatItem at h
  have hpos : (0 : Nat) < 2 ^ m := by positivity
  have h1 : n % 2 ^ m < 2 ^ m := Nat.mod_lt _ hpos
  have h2 : (2 : Nat) ^ m ≤ 2 ^ 52 := Nat.pow_le_pow_right (by norm_num) hm
  have h3 : (2 : Nat) ^ 53 = 2 * 2 ^ 52 := by norm_num
  have sgn : ∀ (k : Nat) (z : Int), k ≤ 2 ^ 53 → ∀ c : Prop, ∀ [Decidable c],
      Representable 53 ((if c then (-1 : Rat) else 1) * (k : Rat) * 2 ^ z) := by
    intro k z hk c _
    refine ⟨(if c then -1 else 1) * k, z, ?_, ?_⟩
    · rw [abs_mul, Nat.abs_cast]
      have : |(if c then (-1 : Int) else 1)| = 1 := by split <;> simp
      rw [this, one_mul]
      exact_mod_cast hk
    · split <;> push_cast <;> rfl
  simp only at h
  split_ifs at h
  all_goals
    injection h with h
    rw [← h]
    first
      | exact sgn _ _ (by omega) _
      | (have := sgn (2 ^ m + n % 2 ^ m) (((n / 2 ^ m % 2 ^ e : Nat) : Int) + 1 - 2 ^ (e - 1) - m) (by omega) (n / 2 ^ (m + e) % 2 = 1)
         simpa [*] using this)
      | (have := sgn (n % 2 ^ m) ((2 : Int) - 2 ^ (e - 1) - m) (by omega) (n / 2 ^ (m + e) % 2 = 1)
         simpa [*] using this)

/-- Items of up to 32 bits and floating point items are numbers of double precision. -/
theorem item_representable (dt : DType) (h1 : dt ≠ .i64) (h2 : dt ≠ .u64) (n : Nat) (hn : n < 256 ^ dt.itemsize) (q : Rat)
    (h : itemValue dt n = some q) : Representable 53 q := by
  cases dt
  case i64 => exact absurd rfl h1
  case u64 => exact absurd rfl h2
  case f16 => exact float_representable 5 10 n (by norm_num) q h
  case f32 => exact float_representable 8 23 n (by norm_num) q h
  case f64 => exact float_representable 11 52 n (by norm_num) q h
  case complex => cases h
  case bool =>
    simp only [itemValue, Option.some.injEq] at h
    rw [← h]
    split
    · exact_mod_cast nat_representable 0 (by norm_num)
    · exact_mod_cast nat_representable 1 (by norm_num)
  case u8 =>
    simp only [itemValue, Option.some.injEq, DType.itemsize] at h hn
    rw [← h]; exact nat_representable n (by omega)
  case u16 =>
    simp only [itemValue, Option.some.injEq, DType.itemsize] at h hn
    rw [← h]; exact nat_representable n (by omega)
  case u32 =>
    simp only [itemValue, Option.some.injEq, DType.itemsize] at h hn
    rw [← h]; exact nat_representable n (by omega)
  case i8 =>
    simp only [itemValue, Option.some.injEq, DType.itemsize] at h hn
    rw [← h]; exact signed_representable 8 n (by norm_num) (by omega)
  case i16 =>
    simp only [itemValue, Option.some.injEq, DType.itemsize] at h hn
    rw [← h]; exact signed_representable 16 n (by norm_num) (by omega)
  case i32 =>
    simp only [itemValue, Option.some.injEq, DType.itemsize] at h hn
    rw [← h]; exact signed_representable 32 n (by norm_num) (by omega)

theorem storedItem_little (f : NiftiFile) (he : f.bigEndian = false) (s k : Nat) (hk : (k + 1) * s ≤ f.data.length) :
    storedItem f s k = fileItem f.data s k := by
  unfold storedItem
  rw [he]
  simp only [Bool.false_eq_true, if_false]
  have hl : ((f.data.drop (k * s)).take s).length = s := by
    simp only [List.length_take, List.length_drop]
    rw [Nat.add_mul] at hk
    omega
  rw [leValue_eq, hl, fileItem]
  congr 1
  apply List.map_congr_left
  intro j hj
  have hj : j < s := by simpa using hj
  congr 2
  simp only [List.getD_eq_getElem?_getD]
  rw [List.getElem?_take_of_lt hj, List.getElem?_drop]

/-- The header asks for no scaling of the gray values. -/
def Spec.Unscaled (f : NiftiFile) : Prop := f.slope = none ∨ f.slope = some 0 ∨ f.slope = some 1 ∧ f.inter = some 0

theorem unscaled_scaling (f : NiftiFile) (h : Unscaled f) : niftiScaling f = .ok (1, 0) := by
  unfold niftiScaling
  rcases h with h | h | ⟨h, h'⟩
  · rw [h]
  · rw [h]; simp
  · rw [h, h']; simp

/-- The image of a volume read by `load_raw` or `load_mhd`: numbers instead of bit patterns. -/
def Spec.ImageOf (dt : DType) (v : NDArray Nat) (a : Image Rat) : Prop :=
  a.dtype = dt ∧ a.arr.shape = v.shape ∧ ∀ X Y Z, v.shape = [X, Y, Z] → ∀ x y z, x < X → y < Y → z < Z →
    itemValue dt (v.get [x, y, z]) = some (a.arr.get [x, y, z])

theorem voxel_in_file {bytes : List UInt8} {dt : DType} {X Y Z : Nat} (hs : bytes.length / dt.itemsize = X * Y * Z) {x y z : Nat}
    (hx : x < X) (hy : y < Y) (hz : z < Z) : (voxelPos X Y x y z + 1) * dt.itemsize ≤ bytes.length := by
  have h1 : voxelPos X Y x y z + 1 ≤ X * Y * Z := by
    unfold voxelPos
    have a1 : y + Y * z + 1 ≤ Y * Z := by
      have : Y * (z + 1) ≤ Y * Z := Nat.mul_le_mul_left _ hz
      rw [Nat.mul_add] at this
      omega
    have a2 : X * (y + Y * z + 1) ≤ X * (Y * Z) := Nat.mul_le_mul_left _ a1
    rw [Nat.mul_add] at a2
    rw [Nat.mul_assoc]
    omega
  exact (Nat.mul_le_mul_right _ (h1.trans hs.ge)).trans (Nat.div_mul_le_self _ _)

/-- **C163.** A volume has the same voxels whether it is read from a raw or mhd file or from a NIfTI file with the same data. -/
theorem C163_voxels (f : NiftiFile) (dt : DType) (X Y Z : Nat) (v : NDArray Nat) (a : Image Rat) (hd : f.dims = [X, Y, Z])
    (hc : niftiType f.datatype = .ok dt) (h64 : dt ≠ .i64 ∧ dt ≠ .u64) (he : f.bigEndian = false) (hu : Unscaled f)
    (hX : X < 2 ^ 63) (hY : Y < 2 ^ 63) (hZ : Z < 2 ^ 63) (hb : f.data.length < 2 ^ 63)
    (h : loadBinary f.data dt [(X : Int), Y, Z] = .ok v) (ha : ImageOf dt v a) :
    ∃ n, loadNifti f = .ok n ∧ n.dtype = .f64 ∧ n.arr.shape = a.arr.shape ∧
      ∀ x y z, x < X → y < Y → z < Z → n.arr.get [x, y, z] = a.arr.get [x, y, z] := by
  have hsize : f.data.length / dt.itemsize = X * Y * Z := by
    by_contra hs
    obtain ⟨m, hm⟩ := (loadBinary_three f.data dt X Y Z hX hY hZ hb).2 hs
    rw [h] at hm; cases hm
  obtain ⟨hshape, hget⟩ := C01_voxel_order f.data dt X Y Z v hX hY hZ hb h
  have hlen : ¬ f.data.length < f.dims.prod * dt.itemsize := by
    rw [hd]
    simp only [List.prod_cons, List.prod_nil, Nat.mul_one, not_lt]
    rw [← Nat.mul_assoc, ← hsize]
    exact Nat.div_mul_le_self _ _
  refine ⟨⟨.f64, ⟨f.dims, fun i => scaledValue 1 0 ((itemValue dt (storedItem f dt.itemsize (fortranOffset f.dims i))).getD 0)⟩⟩, ?_, rfl,
    ?_, ?_⟩
  · unfold loadNifti
    rw [hc]
    simp only
    rw [unscaled_scaling f hu]
    simp only
    rw [if_neg hlen]
  · simp only
    rw [ha.2.1, hshape, hd]
  · intro x y z hx hy hz
    have hv := ha.2.2 X Y Z hshape x y z hx hy hz
    rw [hget x y z hx hy hz] at hv
    have hoff : fortranOffset f.dims [x, y, z] = voxelPos X Y x y z := by
      rw [hd]
      simp only [fortranOffset, voxelPos, Nat.mul_zero, Nat.add_zero]
    simp only
    rw [hoff, storedItem_little f he _ _ (voxel_in_file hsize hx hy hz), hv]
    simp only [Option.getD_some, scaledValue, true_and, if_true]
    exact fl_of_representable (by norm_num) (item_representable dt h64.1 h64.2 _ (fileItem_lt _ _ _) _ hv)

/-- **C163.** Volumes of double precision: the same image in every format. -/
theorem C163_double (f : NiftiFile) (X Y Z : Nat) (v : NDArray Nat) (a : Image Rat) (hd : f.dims = [X, Y, Z])
    (hc : f.datatype = 64) (he : f.bigEndian = false) (hu : Unscaled f)
    (hX : X < 2 ^ 63) (hY : Y < 2 ^ 63) (hZ : Z < 2 ^ 63) (hb : f.data.length < 2 ^ 63)
    (h : loadBinary f.data .f64 [(X : Int), Y, Z] = .ok v) (ha : ImageOf .f64 v a) :
    ∃ n, loadNifti f = .ok n ∧ n.dtype = a.dtype ∧ n.arr.shape = a.arr.shape ∧
      ∀ x y z, x < X → y < Y → z < Z → n.arr.get [x, y, z] = a.arr.get [x, y, z] := by
  obtain ⟨n, h1, h2, h3, h4⟩ := C163_voxels f .f64 X Y Z v a hd (by rw [hc]; decide) (by decide) he hu hX hY hZ hb h ha
  exact ⟨n, h1, h2.trans ha.1.symm, h3, h4⟩

/-- **C163.** With a slope and an intercept in the header, the gray values are scaled as the NIfTI standard says, up to rounding. -/
theorem C163_scaled (f : NiftiFile) (dt : DType) (X Y Z : Nat) (s b : Rat) (hd : f.dims = [X, Y, Z])
    (hc : niftiType f.datatype = .ok dt) (he : f.bigEndian = false) (hs : f.slope = some s) (hs0 : s ≠ 0) (hi : f.inter = some b)
    (hsize : f.data.length / dt.itemsize = X * Y * Z) :
    ∃ n, loadNifti f = .ok n ∧ n.arr.shape = [X, Y, Z] ∧ ∀ x y z q, x < X → y < Y → z < Z →
      itemValue dt (fileItem f.data dt.itemsize (voxelPos X Y x y z)) = some q →
      |n.arr.get [x, y, z] - (s * q + b)| ≤ (2 * |s * q| + |s * q + b|) / 2 ^ 53 := by
  have hlen : ¬ f.data.length < f.dims.prod * dt.itemsize := by
    rw [hd]
    simp only [List.prod_cons, List.prod_nil, Nat.mul_one, not_lt]
    rw [← Nat.mul_assoc, ← hsize]
    exact Nat.div_mul_le_self _ _
  refine ⟨⟨.f64, ⟨f.dims, fun i => scaledValue s b ((itemValue dt (storedItem f dt.itemsize (fortranOffset f.dims i))).getD 0)⟩⟩, ?_, hd, ?_⟩
  · unfold loadNifti niftiScaling
    rw [hc, hs, hi]
    simp only
    rw [if_neg hs0]
    simp only
    rw [if_neg hlen]
  · intro x y z q hx hy hz hv
    have hoff : fortranOffset f.dims [x, y, z] = voxelPos X Y x y z := by
      rw [hd]
      simp only [fortranOffset, voxelPos, Nat.mul_zero, Nat.add_zero]
    simp only
    rw [hoff, storedItem_little f he _ _ (voxel_in_file hsize hx hy hz), hv]
    simp only [Option.getD_some]
    unfold scaledValue
    split
    · rename_i h
      rw [h.1, h.2, one_mul, add_zero]
      refine (fl_error 53 q).trans ?_
      exact div_le_div_of_nonneg_right (by nlinarith [abs_nonneg q]) (by positivity)
    · rw [mul_comm q s]
      have e1 := fl_error 53 (s * q)
      have e2 := fl_error 53 (fl 53 (s * q) + b)
      have e3 : |fl 53 (s * q) + b| ≤ |s * q + b| + |s * q| / 2 ^ 53 := by
        have : fl 53 (s * q) + b = (s * q + b) + (fl 53 (s * q) - s * q) := by ring
        rw [this]
        exact (abs_add_le _ _).trans (by linarith)
      have e4 : |fl 53 (fl 53 (s * q) + b) - (s * q + b)| ≤ |fl 53 (fl 53 (s * q) + b) - (fl 53 (s * q) + b)| + |fl 53 (s * q) - s * q| := by
        have : fl 53 (fl 53 (s * q) + b) - (s * q + b) = (fl 53 (fl 53 (s * q) + b) - (fl 53 (s * q) + b)) + (fl 53 (s * q) - s * q) := by ring
        rw [this]
        exact abs_add_le _ _
      have h0 := abs_nonneg (s * q)
      have h1 := abs_nonneg (s * q + b)
      have e5 : |fl 53 (s * q) + b| / 2 ^ 53 ≤ (|s * q + b| + |s * q| / 2 ^ 53) / 2 ^ 53 :=
        div_le_div_of_nonneg_right e3 (by positivity)
      have e6 : |s * q| / 2 ^ 53 / 2 ^ 53 ≤ |s * q| / 2 ^ 53 := div_le_self (by positivity) (by norm_num)
      have e7 : (|s * q + b| + |s * q| / 2 ^ 53) / 2 ^ 53 = |s * q + b| / 2 ^ 53 + |s * q| / 2 ^ 53 / 2 ^ 53 := add_div _ _ _
      have e8 : (2 * |s * q| + |s * q + b|) / 2 ^ 53 = |s * q| / 2 ^ 53 + |s * q| / 2 ^ 53 + |s * q + b| / 2 ^ 53 := by ring
      linarith

/-- The bytes of each of the first `N` items in the opposite order. -/
def Spec.Swapped (size N : Nat) (l l' : List UInt8) : Prop :=
  l'.length = l.length ∧ ∀ k j, k < N → j < size → l'[k * size + j]? = l[k * size + (size - 1 - j)]?

/-- **C163.** The byte order of a NIfTI file does not matter. -/
theorem C163_byte_order (f f' : NiftiFile) (dt : DType) (X Y Z : Nat) (hd : f.dims = [X, Y, Z]) (hc : niftiType f.datatype = .ok dt)
    (he : f.bigEndian = false) (hf : f' = { f with bigEndian := true, data := f'.data })
    (hsw : Swapped dt.itemsize (X * Y * Z) f.data f'.data) (n : Image Rat) (hn : loadNifti f = .ok n) :
    ∃ n', loadNifti f' = .ok n' ∧ n'.dtype = n.dtype ∧ n'.arr.shape = n.arr.shape ∧
      ∀ x y z, x < X → y < Y → z < Z → n'.arr.get [x, y, z] = n.arr.get [x, y, z] := by
  have hd' : f'.dims = f.dims := by rw [hf]
  have hc' : f'.datatype = f.datatype := by rw [hf]
  have hs' : niftiScaling f' = niftiScaling f := by rw [hf]; rfl
  have he' : f'.bigEndian = true := by rw [hf]
  unfold loadNifti at hn ⊢
  rw [hc', hc, hd', hs']
  rw [hc] at hn
  simp only at hn ⊢
  cases hsc : niftiScaling f with
  | error e => rw [hsc] at hn; cases hn
  | ok sb =>
    obtain ⟨s, b⟩ := sb
    rw [hsc] at hn
    simp only at hn ⊢
    by_cases hl : f.data.length < f.dims.prod * dt.itemsize
    · rw [if_pos hl] at hn; cases hn
    · rw [if_neg hl] at hn
      injection hn with hn
      rw [hsw.1, if_neg hl]
      refine ⟨_, rfl, by rw [← hn], by rw [← hn], ?_⟩
      intro x y z hx hy hz
      rw [← hn]
      simp only
      have hoff : fortranOffset f.dims [x, y, z] = voxelPos X Y x y z := by
        rw [hd]
        simp only [fortranOffset, voxelPos, Nat.mul_zero, Nat.add_zero]
      have hlen : X * Y * Z * dt.itemsize ≤ f.data.length := by
        rw [hd] at hl
        simp only [List.prod_cons, List.prod_nil, Nat.mul_one, not_lt] at hl
        rw [← Nat.mul_assoc] at hl
        exact hl
      have hk : voxelPos X Y x y z < X * Y * Z := by
        have := voxel_in_file (bytes := List.replicate (X * Y * Z) 0) (dt := .u8) (by simp [DType.itemsize]) hx hy hz
        simpa [DType.itemsize] using this
      have hk1 : (voxelPos X Y x y z + 1) * dt.itemsize ≤ f.data.length := (Nat.mul_le_mul_right _ hk).trans hlen
      rw [hoff]
      generalize voxelPos X Y x y z = k at hk hk1
      have : storedItem f' dt.itemsize k = storedItem f dt.itemsize k := by
        unfold storedItem
        rw [he, he']
        simp only [Bool.false_eq_true, if_false, if_true]
        congr 1
        rw [Nat.add_mul, Nat.one_mul] at hk1
        apply List.ext_getElem?
        intro j
        by_cases hj : j < dt.itemsize
        · have hlen' : ((f'.data.drop (k * dt.itemsize)).take dt.itemsize).length = dt.itemsize := by
            simp only [List.length_take, List.length_drop]
            rw [hsw.1]
            omega
          rw [List.getElem?_reverse (by rw [hlen']; exact hj), hlen', List.getElem?_take_of_lt (by omega), List.getElem?_drop,
            List.getElem?_take_of_lt hj, List.getElem?_drop, hsw.2 k _ hk (by omega)]
          congr 2
          omega
        · rw [List.getElem?_eq_none, List.getElem?_eq_none]
          · simp only [List.length_take, List.length_drop]; omega
          · simp only [List.length_reverse, List.length_take, List.length_drop]; omega
      rw [this]

/-- **C163** is false for pairs of files: a volume that is not of double precision cannot be compared with a NIfTI file, which is always
read in double precision, unless both are normalized. -/
theorem C163_compare_refuted (disk : Txt → Py (Image Rat)) (p p' : Txt) (f : NiftiFile) (a n : Image Rat) (hp : disk p = .ok a)
    (hp' : disk p' = loadNifti f) (hn : loadNifti f = .ok n) (ht : a.dtype ≠ .f64) (chromatic : Bool)
    (hda : a.arr.shape.length = 2 ∨ a.arr.shape.length = 3) (hdn : n.arr.shape.length = 2 ∨ n.arr.shape.length = 3) :
    (checkImgs disk (.path p) (.path p') {} chromatic).val = .error (.valueError "Image types do not match") ∧
      (checkImgs disk (.path p') (.path p) {} chromatic).val = .error (.valueError "Image types do not match") := by
  have htn : n.dtype = .f64 := by
    unfold loadNifti at hn
    split at hn
    · cases hn
    · split at hn
      · cases hn
      · split at hn
        · cases hn
        · injection hn with hn
          rw [← hn]
  have load : ∀ (q : Txt) (img : Image Rat), disk q = .ok img → (img.arr.shape.length = 2 ∨ img.arr.shape.length = 3) →
      (loadData disk (.path q) {}).val = .ok (.single img) := by
    intro q img hq hd
    obtain ⟨l, hl, h⟩ := C10_identity disk (.path q) img {} rfl rfl rfl (.path q img hq) hd
    rcases h with ⟨h, -⟩ | ⟨-, h⟩
    · rw [hl, h]
    · cases h
  have l1 := load p a hp hda
  have l2 := load p' n (hp'.trans hn) hdn
  constructor
  · unfold checkImgs
    rw [PyW.bind_val_ok l1, PyW.bind_val_ok l2]
    simp only
    rw [if_pos (by rw [htn]; exact ht)]
    rfl
  · unfold checkImgs
    rw [PyW.bind_val_ok l2, PyW.bind_val_ok l1]
    simp only
    rw [if_pos (by rw [htn]; exact fun h => ht h.symm)]
    rfl

/-- **C163** is false for normalization: the gray values 0 and 100 of an 8 bit volume stay as they are if read from a raw file, and become
0 and 255 if read from a NIfTI file. -/
theorem C163_normalize_refuted : ∃ (f : NiftiFile) (v : NDArray Nat) (a n b c : Image Rat), f.dims = [2, 1, 1] ∧ f.datatype = 2 ∧
    loadBinary f.data .u8 [2, 1, 1] = .ok v ∧ ImageOf .u8 v a ∧ loadNifti f = .ok n ∧
    (loadData noFiles (.array a) { normalize := true, dataRange := some 255 }).val = .ok (.single b) ∧
    (loadData noFiles (.array n) { normalize := true, dataRange := some 255 }).val = .ok (.single c) ∧
    b.arr.get [1, 0, 0] = 100 ∧ c.arr.get [1, 0, 0] = 255 := by
  obtain ⟨b, hb, hb'⟩ := loaded_exists (loadData noFiles (.array ⟨.u8, ⟨[2, 1, 1], fun i => if i = [1, 0, 0] then 100 else 0⟩⟩)
    { normalize := true, dataRange := some 255 }) [1, 0, 0] 100 (by decide +kernel)
  have hn : loadNifti { dims := [2, 1, 1], datatype := 2, data := [0, 100] } = .ok ⟨.f64, ⟨[2, 1, 1],
      fun i => scaledValue 1 0 ((itemValue .u8 (storedItem { dims := [2, 1, 1], datatype := 2, data := [0, 100] } 1
        (fortranOffset [2, 1, 1] i))).getD 0)⟩⟩ := rfl
  obtain ⟨c, hc, hc'⟩ := loaded_exists (loadData noFiles (.array ⟨.f64, ⟨[2, 1, 1],
      fun i => scaledValue 1 0 ((itemValue .u8 (storedItem { dims := [2, 1, 1], datatype := 2, data := [0, 100] } 1
        (fortranOffset [2, 1, 1] i))).getD 0)⟩⟩) { normalize := true, dataRange := some 255 }) [1, 0, 0] 255 (by decide +kernel)
  obtain ⟨v, hv, hs, hg⟩ := (loadBinary_three [0, 100] .u8 2 1 1 (by norm_num) (by norm_num) (by norm_num) (by norm_num)).1 (by decide)
  refine ⟨{ dims := [2, 1, 1], datatype := 2, data := [0, 100] }, v, _, _, b, c, rfl, rfl, hv, ⟨rfl, hs.symm, ?_⟩, hn, hb, hc, hb', hc'⟩
  intro X Y Z hsh x y z hx hy hz
  rw [hs] at hsh
  injection hsh with h1 h2
  injection h2 with h2 h3
  injection h3 with h3
  subst h1 h2 h3
  rw [hg x y z hx hy hz]
  obtain rfl : y = 0 := by omega
  obtain rfl : z = 0 := by omega
  have : x = 0 ∨ x = 1 := by omega
  rcases this with rfl | rfl <;> decide +kernel

/-- **C163** is false for volumes stored with a time axis: `load_data` raises, even if there is only one time step. -/
theorem C163_time_refuted (disk : Txt → Py (Image Rat)) (p : Txt) (f : NiftiFile) (X Y Z : Nat) (hd : f.dims = [X, Y, Z, 1])
    (n : Image Rat) (hp : disk p = loadNifti f) (hn : loadNifti f = .ok n) (args : LoadArgs) : ∃ e, (loadData disk (.path p) args).val = .error e := by
  have hs : n.arr.shape = [X, Y, Z, 1] := by
    unfold loadNifti at hn
    split at hn
    · cases hn
    · split at hn
      · cases hn
      · split at hn
        · cases hn
        · injection hn with hn
          rw [← hn]
          exact hd
  cases h : (loadData disk (.path p) args).val with
  | error e => exact ⟨e, rfl⟩
  | ok l =>
    exfalso
    have hbody : (loadBody disk (.path p) args).val = .ok l := by
      unfold loadData at h
      split at h
      · cases h
      · split at h
        · cases h
        · split at h
          · rw [PyW.bind_val_ok (PyW.warn_val _)] at h
            exact h
          · exact h
    have hsrc : (loadSource disk (.path p)).val = .ok (false, n) := by
      unfold loadSource
      simp only
      rw [hp, hn]
      rfl
    unfold loadBody at hbody
    rw [PyW.bind_val_ok hsrc] at hbody
    simp only at hbody
    rw [PyW.bind_val] at hbody
    have hnd : (ndimStep n).val = .error (.valueError "Number of dimensions of input image should be 2 or 3") := by
      unfold ndimStep
      rw [if_pos (by left; unfold NDArray.ndim; rw [hs]; simp)]
      rfl
    rw [hnd] at hbody
    cases hbody

/-! ### Examples -/

/-- A volume of 2 × 1 × 1 voxels with the gray values 1 and 258 (16 bit). -/
def smallNifti : NiftiFile := { dims := [2, 1, 1], datatype := 512, data := [1, 0, 2, 1] }

theorem smallNifti_image : ∃ v, loadBinary smallNifti.data .u16 [((2 : Nat) : Int), (1 : Nat), (1 : Nat)] = .ok v ∧
    ImageOf .u16 v ⟨.u16, ⟨[2, 1, 1], fun i => if i = [1, 0, 0] then 258 else 1⟩⟩ := by
  obtain ⟨v, hv, hs, hg⟩ := (loadBinary_three smallNifti.data .u16 2 1 1 (by norm_num) (by norm_num) (by norm_num) (by decide)).1 (by decide)
  refine ⟨v, hv, rfl, hs.symm, ?_⟩
  intro X Y Z hsh x y z hx hy hz
  rw [hs] at hsh
  injection hsh with h1 h2
  injection h2 with h2 h3
  injection h3 with h3
  subst h1 h2 h3
  rw [hg x y z hx hy hz]
  obtain rfl : y = 0 := by omega
  obtain rfl : z = 0 := by omega
  have : x = 0 ∨ x = 1 := by omega
  rcases this with rfl | rfl <;> decide +kernel

example : ∃ n, loadNifti smallNifti = .ok n ∧ n.arr.get [1, 0, 0] = 258 := by
  obtain ⟨v, hv, ha⟩ := smallNifti_image
  obtain ⟨n, h1, -, -, h4⟩ := C163_voxels smallNifti .u16 2 1 1 v _ rfl (by decide) (by decide) rfl (.inl rfl) (by norm_num) (by norm_num)
    (by norm_num) (by decide) hv ha
  exact ⟨n, h1, h4 1 0 0 (by decide) (by decide) (by decide)⟩

/-- The number 1 in double precision. -/
example : ∃ n, loadNifti { dims := [1, 1, 1], datatype := 64, data := [0, 0, 0, 0, 0, 0, 0xF0, 0x3F] } = .ok n ∧ n.arr.get [0, 0, 0] = 1 := by
  obtain ⟨v, hv, hs, hg⟩ := (loadBinary_three [0, 0, 0, 0, 0, 0, 0xF0, 0x3F] .f64 1 1 1 (by norm_num) (by norm_num) (by norm_num)
    (by decide)).1 (by decide)
  obtain ⟨n, h1, -, -, h4⟩ := C163_double { dims := [1, 1, 1], datatype := 64, data := [0, 0, 0, 0, 0, 0, 0xF0, 0x3F] } 1 1 1 v
    ⟨.f64, ⟨[1, 1, 1], fun _ => 1⟩⟩ rfl rfl rfl (.inl rfl) (by norm_num) (by norm_num) (by norm_num) (by decide) hv ⟨rfl, hs.symm, by
      intro X Y Z hsh x y z hx hy hz
      rw [hs] at hsh
      injection hsh with h1 h2
      injection h2 with h2 h3
      injection h3 with h3
      subst h1 h2 h3
      rw [hg x y z hx hy hz]
      obtain rfl : x = 0 := by omega
      obtain rfl : y = 0 := by omega
      obtain rfl : z = 0 := by omega
      decide +kernel⟩
  exact ⟨n, h1, h4 0 0 0 (by decide) (by decide) (by decide)⟩

/-- Slope 2 and intercept -5: the stored value 258 means 511. -/
example : ∃ n, loadNifti { smallNifti with slope := some 2, inter := some (-5) } = .ok n ∧
    |n.arr.get [1, 0, 0] - 511| ≤ (2 * 516 + 511) / 2 ^ 53 := by
  obtain ⟨n, h1, -, h3⟩ := C163_scaled { smallNifti with slope := some 2, inter := some (-5) } .u16 2 1 1 2 (-5) rfl (by decide) rfl rfl
    (by norm_num) rfl (by decide)
  refine ⟨n, h1, ?_⟩
  have := h3 1 0 0 258 (by decide) (by decide) (by decide) (by decide +kernel)
  norm_num at this ⊢
  exact this

example : ∃ n n', loadNifti smallNifti = .ok n ∧ loadNifti { smallNifti with bigEndian := true, data := [0, 1, 1, 2] } = .ok n' ∧
    n'.arr.get [1, 0, 0] = n.arr.get [1, 0, 0] := by
  obtain ⟨v, hv, ha⟩ := smallNifti_image
  obtain ⟨n, h1, -, -, -⟩ := C163_voxels smallNifti .u16 2 1 1 v _ rfl (by decide) (by decide) rfl (.inl rfl) (by norm_num) (by norm_num)
    (by norm_num) (by decide) hv ha
  obtain ⟨n', h5, -, -, h6⟩ := C163_byte_order smallNifti { smallNifti with bigEndian := true, data := [0, 1, 1, 2] } .u16 2 1 1 rfl
    (by decide) rfl rfl ⟨rfl, by
      intro k j hk hj
      have hk : k = 0 ∨ k = 1 := by omega
      have hj : j = 0 ∨ j = 1 := by simp only [DType.itemsize] at hj; omega
      rcases hk with rfl | rfl <;> rcases hj with rfl | rfl <;> rfl⟩ n h1
  exact ⟨n, n', h1, h5, h6 1 0 0 (by decide) (by decide) (by decide)⟩

example (n : Image Rat) (hn : loadNifti smallNifti = .ok n) (hs : n.arr.shape = [2, 1, 1]) :
    (checkImgs (fun p => if p = "a.raw".toList then .ok ⟨.u16, ⟨[2, 1, 1], fun _ => 1⟩⟩ else loadNifti smallNifti) (.path "a.raw".toList)
      (.path "a.nii".toList) {} false).val = .error (.valueError "Image types do not match") :=
  (C163_compare_refuted _ "a.raw".toList "a.nii".toList smallNifti ⟨.u16, ⟨[2, 1, 1], fun _ => 1⟩⟩ n rfl rfl hn (by decide) false (.inr rfl)
    (.inr (by rw [hs]; rfl))).1

example (n : Image Rat) (hn : loadNifti { smallNifti with dims := [2, 1, 1, 1] } = .ok n) :
    ∃ e, (loadData (fun _ => loadNifti { smallNifti with dims := [2, 1, 1, 1] }) (.path "a.nii".toList) {}).val = .error e :=
  C163_time_refuted _ _ { smallNifti with dims := [2, 1, 1, 1] } 2 1 1 rfl n rfl hn {}

end Viqa
