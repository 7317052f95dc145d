import Verif.Model.Loading
import Verif.Model.Images
import Verif.Model.Rounding

/-!
Model of `load_nifti` (`src/viqa/utils/loading.py` 564-589). The package nibabel is modelled as far as the function depends on it: the
header is given as a structure, the voxels are read from the bytes behind the header. Compression of the file and the affine
transformation (which `get_fdata` does not apply) are left out.
-/

namespace Viqa

/-! ### Values of items -/

/-- Number of a floating point item with `e` bits of exponent and `m` bits of significand (IEEE 754); `none` for infinities and items that
are not a number. -/
def floatItem (e m bits : Nat) : Option Rat :=
  let man := bits % 2 ^ m
  let ex := bits / 2 ^ m % 2 ^ e
  let sign : Rat := if bits / 2 ^ (m + e) % 2 = 1 then -1 else 1
  if ex = 2 ^ e - 1 then none
  else if ex = 0 then some (sign * man * 2 ^ ((2 : Int) - 2 ^ (e - 1) - m))
  else some (sign * (2 ^ m + man : Nat) * 2 ^ ((ex : Int) + 1 - 2 ^ (e - 1) - m))

/-- Two's complement. -/
def signedItem (b bits : Nat) : Rat := if bits < 2 ^ (b - 1) then bits else (bits : Rat) - 2 ^ b

/-- Number of an item of a file, given its bit pattern. -/
def itemValue : DType → Nat → Option Rat
  | .bool, n => some (if n = 0 then 0 else 1)
  | .u8, n => some n
  | .u16, n => some n
  | .u32, n => some n
  | .u64, n => some n
  | .i8, n => some (signedItem 8 n)
  | .i16, n => some (signedItem 16 n)
  | .i32, n => some (signedItem 32 n)
  | .i64, n => some (signedItem 64 n)
  | .f16, n => floatItem 5 10 n
  | .f32, n => floatItem 8 23 n
  | .f64, n => floatItem 11 52 n
  | .complex, _ => none

/-! ### NIfTI files -/

/-- Types of the codes in the field `datatype`. Colours and complex numbers are left out; there is no code for half precision. -/
def niftiType (code : Nat) : Py DType :=
  if code = 2 then .ok .u8
  else if code = 4 then .ok .i16
  else if code = 8 then .ok .i32
  else if code = 16 then .ok .f32
  else if code = 64 then .ok .f64
  else if code = 256 then .ok .i8
  else if code = 512 then .ok .u16
  else if code = 768 then .ok .u32
  else if code = 1024 then .ok .i64
  else if code = 1280 then .ok .u64
  else .error (.valueError "HeaderDataError: data code not recognized")

/-- What the header of a NIfTI file tells about the voxels (`dim`, `datatype`, byte order, `scl_slope`, `scl_inter`, where `none` stands
for values that are not finite) and the bytes behind the header. -/
structure NiftiFile where
  dims : List Nat
  datatype : Nat
  bigEndian : Bool := false
  slope : Option Rat := none
  inter : Option Rat := some 0
  data : List UInt8

/-- nibabel `Nifti1Header.get_slope_inter`, and `ArrayProxy` for missing values: a slope that is zero or not finite means no scaling. -/
def niftiScaling (f : NiftiFile) : Py (Rat × Rat) :=
  match f.slope with
  | none => .ok (1, 0)
  | some s =>
    if s = 0 then .ok (1, 0)
    else match f.inter with
      | none => .error (.valueError "HeaderDataError: Valid slope but invalid intercept")
      | some b => .ok (s, b)

/-- Offset in items of an element: the first index runs fastest (`order="F"`). -/
def fortranOffset : List Nat → List Nat → Nat
  | n :: ns, i :: is => i + n * fortranOffset ns is
  | _, _ => 0

/-- Bit pattern of an item. -/
def storedItem (f : NiftiFile) (size k : Nat) : Nat :=
  let b := (f.data.drop (k * size)).take size
  leValue (if f.bigEndian then b.reverse else b)

/-- nibabel `apply_read_scaling` with 64 bit floats, then `astype(np.float64)`. -/
def scaledValue (s b v : Rat) : Rat := if s = 1 ∧ b = 0 then fl 53 v else fl 53 (fl 53 (v * s) + b)

/-- `loading.py` 564-589 `load_nifti`. Items that are not finite are left out (0). -/
def loadNifti (f : NiftiFile) : Py (Image Rat) :=
  match niftiType f.datatype with
  | .error e => .error e
  | .ok dt =>
    match niftiScaling f with
    | .error e => .error e
    | .ok (s, b) =>
      if f.data.length < f.dims.prod * dt.itemsize then .error (.runtimeError "OSError: Expected more bytes")
      else .ok ⟨.f64, ⟨f.dims, fun i => scaledValue s b ((itemValue dt (storedItem f dt.itemsize (fortranOffset f.dims i))).getD 0)⟩⟩

end Viqa
