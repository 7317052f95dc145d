import Verif.Model.Basic
import Mathlib.Data.Rat.Floor

/-!
Model of `normalize_data` (`src/viqa/utils/loading.py` 788-891).

Pixels are rational numbers. Every finite floating point number is rational; the result of
floating point arithmetic is modelled without rounding. Arithmetic on integer arrays is
modelled with its wrap-around and with the value based type promotion of NumPy 1.x (the
package requires `numpy < 2.0.0`).
-/

namespace Viqa

namespace DType

/-- Number of bits of an integer type (0 for the others). -/
def bits : DType → Nat
  | u8 | i8 => 8
  | u16 | i16 => 16
  | u32 | i32 => 32
  | u64 | i64 => 64
  | _ => 0

def isUnsigned : DType → Bool
  | u8 | u16 | u32 | u64 => true
  | _ => false

/-- `np.iinfo(dtype).min` -/
def intMin (dt : DType) : Int := if dt.isUnsigned then 0 else -(2 : Int) ^ (dt.bits - 1)

/-- `np.iinfo(dtype).max` -/
def intMax (dt : DType) : Int :=
  if dt.isUnsigned then 2 ^ dt.bits - 1 else (2 : Int) ^ (dt.bits - 1) - 1

end DType

/-- Wrap-around of integer array arithmetic: the value of type `dt` congruent to `x`. -/
def wrapInt (dt : DType) (x : Int) : Int := (x - dt.intMin) % 2 ^ dt.bits + dt.intMin

/-- Smallest width of an unsigned type that holds `k ≥ 0` (`np.min_scalar_type`). -/
def unsignedWidth (k : Int) : Option Nat :=
  if k < 2 ^ 8 then some 8 else if k < 2 ^ 16 then some 16 else if k < 2 ^ 32 then some 32
  else if k < 2 ^ 64 then some 64 else none

/-- Smallest width of a signed type that holds `k < 0`. -/
def signedWidth (k : Int) : Option Nat :=
  if -2 ^ 7 ≤ k then some 8 else if -2 ^ 15 ≤ k then some 16 else if -2 ^ 31 ≤ k then some 32
  else if -2 ^ 63 ≤ k then some 64 else none

def unsignedType : Nat → Option DType
  | 8 => some .u8 | 16 => some .u16 | 32 => some .u32 | 64 => some .u64 | _ => none

def signedType : Nat → Option DType
  | 8 => some .i8 | 16 => some .i16 | 32 => some .i32 | 64 => some .i64 | _ => none

/-- NumPy 1.x (`numpy/core/src/multiarray/convert_datatype.c`): type of `array ∘ k` for an integer array of type `dt` and a Python integer
`k` (value based casting). `none`: the result is not of an integer type (float64 or object)
and no wrap-around happens. -/
def arithType (dt : DType) (k : Int) : Option DType :=
  if dt.isUnsigned then
    if 0 ≤ k then (unsignedWidth k).bind (fun w => unsignedType (max dt.bits w))
    else (signedWidth k).bind (fun w => signedType (max (2 * dt.bits) w))
  else
    if 0 ≤ k then
      if k < 2 ^ (dt.bits - 1) then some dt
      else (unsignedWidth k).bind (fun w => signedType (2 * w))
    else (signedWidth k).bind (fun w => signedType (max dt.bits w))

/-- The same for a floating point array: its type is combined with the smallest integer type of `k`
(`promote_types`: float16 holds 8 bit integers, float32 16 bit integers). -/
def floatType (dt : DType) (k : Int) : DType :=
  match dt with
  | .f16 => if -2 ^ 7 ≤ k ∧ k < 2 ^ 8 then .f16 else if -2 ^ 15 ≤ k ∧ k < 2 ^ 16 then .f32 else .f64
  | .f32 => if -2 ^ 15 ≤ k ∧ k < 2 ^ 16 then .f32 else .f64
  | t => t

/-- The value that is stored when `x` is computed in type `t` (`none`: floating point). -/
def store (t : Option DType) (x : Rat) : Rat :=
  match t with
  | none => x
  | some dt => (wrapInt dt ⌊x⌋ : Int)

/-- `a is b` for two Python integers: equal small integers (−5..256) are the same object;
whether equal larger integers are the same object depends on where they come from
(`ident`). -/
def sameObject (ident : Bool) (a b : Int) : Bool :=
  a = b && ((-5 ≤ a && a ≤ 256) || ident)

/-- `loading.py` 852: the test for normalized data. The limits of a floating point type
(`np.finfo`) are never the same object as a Python integer. -/
def alreadyNormalized (ident : Bool) (dt : DType) (out : Int × Int) : Bool :=
  dt.isInteger && sameObject ident dt.intMax out.2 && sameObject ident dt.intMin out.1

/-- `np.min(img)`; ValueError for an empty array. -/
def arrMin (a : NDArray Rat) : Py Rat :=
  match a.toList with
  | [] => .error (.valueError "zero-size array to reduction operation")
  | x :: xs => .ok (xs.foldl min x)

/-- `np.max(img)` -/
def arrMax (a : NDArray Rat) : Py Rat :=
  match a.toList with
  | [] => .error (.valueError "zero-size array to reduction operation")
  | x :: xs => .ok (xs.foldl max x)

/-- `astype(np.uint8)`, `astype(np.uint16)` of a float64 value: truncation towards zero.
Values outside of the range are reduced modulo the range (platform dependent in C). -/
def castUnsigned (bits : Nat) (v : Rat) : Rat :=
  ((if 0 ≤ v then ⌊v⌋ else -⌊-v⌋) % 2 ^ bits : Int)

/-- `loading.py` 869-886: change of the data type according to the output range. -/
def castOutput (out : Int × Int) (a : NDArray Rat) : Py (Image Rat) :=
  if out.2 = 2 ^ 8 - 1 ∧ out.1 = 0 then .ok ⟨.u8, a.map (castUnsigned 8)⟩
  else if out.2 = 2 ^ 16 - 1 ∧ out.1 = 0 then .ok ⟨.u16, a.map (castUnsigned 16)⟩
  else if out.2 = 1 ∧ out.1 = 0 then .ok ⟨.f32, a⟩
  else .error (.valueError "Data range not supported")

/-- The largest float16 number is 65504; results of float16 arithmetic from 65520 on are infinite. -/
def halfOverflow (dt : DType) (values : List Rat) : Bool :=
  decide (dt = .f16) && values.any (fun v => decide (65520 ≤ |v|))

/-- Some pixels are infinite or not a number; the output range is still checked before the
result is returned. -/
def nanOutput {α} (out : Int × Int) (a : NDArray Rat) : Py α :=
  match castOutput out a with
  | .error e => .error e
  | .ok _ => .error .notANumber

/-- `loading.py` 863-867: `((img - img_min) * (hi - lo) / (img_max - img_min)) + lo`.
`t0` is the type of `img - img_min`, `lo`, `hi` the input range as used by the code,
`den` the value of `img_max - img_min`. Division by zero gives pixels that are not a
number. -/
def rescale (a : NDArray Rat) (t0 : Option DType) (imin den : Rat) (out : Int × Int) :
    Py (NDArray Rat) :=
  let k := out.2 - out.1
  let t1 := t0.bind (fun t => arithType t k)
  if den = 0 then nanOutput out a
  else .ok (a.map fun p => store t1 (store t0 (p - imin) * k) / den + out.1)

/-- `loading.py` 788-891 `normalize_data`. Differences and products of float16 images above the largest
float16 number are infinite, and results are infinite or not a number. -/
def normalizeData (ident : Bool) (img : Image Rat) (out : Int × Int)
    (input : Option (Int × Int)) (auto : Bool) : PyW (Image Rat) :=
  if ¬ (img.dtype.isInteger || img.dtype.isFloating) then
    .raise (.valueError "Data type not supported")
  else if alreadyNormalized ident img.dtype out then do
    PyW.warn "Data is already normalized."
    pure img
  else PyW.lift do
    let dt := img.dtype
    let t0auto : Option DType := if dt.isInteger then some dt else none
    let k : Int := out.2 - out.1
    if auto then do
      let mn ← arrMin img.arr
      let mx ← arrMax img.arr
      if halfOverflow dt [mx - mn] || halfOverflow (floatType dt k) [(mx - mn) * k] then nanOutput out img.arr
      else do
        let r ← rescale img.arr t0auto mn (store t0auto (mx - mn)) out
        castOutput out r
    else match input with
      | none => .error (.valueError
          "If automatic_data_range is False, data_range_input must be set.")
      | some (ilo, ihi) =>
        let t := floatType dt ilo
        if halfOverflow t (img.arr.toList.map (fun p => p - ilo)) ||
            halfOverflow (floatType t k) (img.arr.toList.map (fun p => (p - ilo) * k)) then nanOutput out img.arr
        else do
          let r ← rescale img.arr (t0auto.bind (fun t => arithType t ilo)) ilo
            ((ihi - ilo : Int) : Rat) out
          castOutput out r

end Viqa
