import Verif.Model.Basic
import Mathlib.Data.Rat.Floor

/-!
Model of `src/viqa/nr_metrics/qmeasure.py` 97-156 and of the native entry point
`src/viqa/nr_metrics/qmeasure_utils/qmeasurecalcmodule.cpp` 47-84. The native calculation itself is not part of the
repository; modelled is what is handed to it. Memory consists of 32 bit words; an item of a `float32` array is one word,
an item of a `float64` array two words (low word first). Arrays have three axes.
-/

namespace Viqa

/-- Item types as far as `_to_float` (`misc.py` 53-59) distinguishes them. -/
inductive ItemKind | float32 | float64 | other
  deriving DecidableEq

/-- An array in memory: the address of its first item (in words), and a stride per axis (in items). For item types other than
`float32` and `float64` the memory is not looked at; `conv` gives the bit pattern of an item converted to `float32`. -/
structure MemVolume where
  kind : ItemKind
  shape : List Nat
  strides : List Int
  base : Nat
  mem : Nat → Nat
  conv : List Nat → Nat

namespace MemVolume

/-- Distance of an item from the first one, in items. -/
def itemOffset (strides : List Int) (idx : List Nat) : Int :=
  (List.zipWith (fun s (i : Nat) => s * (i : Int)) strides idx).sum

/-- Bit pattern of the item at an index, for the two floating point types (`conv` for the others). -/
def item (v : MemVolume) (idx : List Nat) : Nat :=
  match v.kind with
  | .float32 => v.mem (v.base + itemOffset v.strides idx).toNat
  | .float64 =>
    let p := (v.base + 2 * itemOffset v.strides idx).toNat
    v.mem p + 2 ^ 32 * v.mem (p + 1)
  | .other => v.conv idx

/-- Strides of a packed array in C order (last axis fastest). -/
def cStrides : List Nat → List Int
  | [] => []
  | _ :: sh => (sh.prod : Int) :: cStrides sh

/-- Strides of a packed array in Fortran order (first axis fastest), starting with stride `s`. -/
def fStridesFrom (s : Nat) : List Nat → List Int
  | [] => []
  | n :: sh => (s : Int) :: fStridesFrom (s * n) sh

/-- Strides of a packed array in Fortran order. -/
def fStrides (sh : List Nat) : List Int := fStridesFrom 1 sh

/-- The axes ordered by decreasing absolute stride, equal strides in order of the axes (insertion sort of
`PyArray_CreateSortedStridePerm`). -/
def insertAxis (strides : List Int) (a : Nat) : List Nat → List Nat
  | [] => [a]
  | b :: bs =>
    if (strides.getD b 0).natAbs < (strides.getD a 0).natAbs then a :: b :: bs else b :: insertAxis strides a bs

/-- See `insertAxis`. -/
def sortedAxes (strides : List Int) : List Nat :=
  (List.range strides.length).foldl (fun acc a => insertAxis strides a acc) []

/-- Stride of axis `a` of a packed array whose axes, slowest first, are `axes`. -/
def packedStride (sh : List Nat) (a : Nat) : List Nat → Nat
  | [] => 0
  | b :: bs => if b = a then (bs.map (fun c => sh.getD c 1)).prod else packedStride sh a bs

/-- Strides chosen by `astype` (order `'K'`): packed, axes ordered like in the original. -/
def keepStrides (sh : List Nat) (strides : List Int) : List Int :=
  (List.range sh.length).map (fun a => (packedStride sh a (sortedAxes strides) : Int))

/-- The index with the given distance in a packed array with the given (natural) strides: digit by digit. -/
def packedIndex (sh : List Nat) (strides : List Int) (k : Nat) : List Nat :=
  List.zipWith (fun (n : Nat) (s : Int) => k / s.toNat % n) sh strides

/-- `misc.py` 53-59 `_to_float(img, np.float32)`: `float32` and `float64` arrays are returned as they are. -/
def toFloat32 (v : MemVolume) : MemVolume :=
  match v.kind with
  | .float32 => v
  | .float64 => v
  | .other =>
    let s := keepStrides v.shape v.strides
    ⟨.float32, v.shape, s, 0, fun k => v.conv (packedIndex v.shape s k), v.conv⟩

/-- `qmeasurecalcmodule.cpp` 62-78: the native code receives a pointer to the first item and the three sizes; these
are the words that belong to a packed `float` array of this size. -/
def nativeWords (v : MemVolume) : List Nat := (List.range v.shape.prod).map (fun k => v.mem (v.base + k))

end MemVolume

/-- `int(x)` of a finite number: the fractional part is dropped. -/
def truncInt (q : ℚ) : Int := if 0 ≤ q then ⌊q⌋ else ⌈q⌉

/-- `qmeasure.py` 143-144 and the `i` format of `PyArg_ParseTuple`: the range handed to the native code for the values of a
volume (all finite). -/
def qmeasureRange (values : List ℚ) : Py (Int × Int) :=
  match values with
  | [] => .error (.valueError "zero-size array to reduction operation")
  | v :: vs =>
    let lo := truncInt (vs.foldl min v)
    let hi := truncInt (vs.foldl max v)
    if -2 ^ 31 ≤ lo ∧ lo < 2 ^ 31 ∧ -2 ^ 31 ≤ hi ∧ hi < 2 ^ 31 then .ok (lo, hi) else .error .overflowError

/-- `qmeasure.py` 129-137: number of axes and the warning about colour images. -/
def qmeasureChecks (shape : List Nat) : Py Bool :=
  if shape.length < 3 then .error (.valueError "Q-Measure is only defined for 3D CT volumes.")
  else .ok (shape.getLast? = some 3)

end Viqa
