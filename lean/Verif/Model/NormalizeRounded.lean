import Verif.Model.Normalize
import Verif.Model.Rounding

/-!
`normalize_data` (`src/viqa/utils/loading.py` 788-891) with rounding: every floating point operation
gives the nearest number of its type. Model/Normalize is the same function without rounding. Overflow
of float32 and float64 and underflow are not modelled.
-/

namespace Viqa

/-- Significant bits of the floating point types; the quotient of integer arrays is float64. -/
def DType.floatBits : DType → ℕ
  | .f16 => 11
  | .f32 => 24
  | _ => 53

/-- The value that is stored when `x` is computed in type `t` (`none`: floating point with `q` bits). -/
def storeRounded (q : ℕ) (t : Option DType) (x : Rat) : Rat :=
  match t with
  | none => fl q x
  | some dt => (wrapInt dt ⌊x⌋ : Int)

/-- `loading.py` 863-867, see `rescale`: difference (`q0` bits), product (`q1` bits), quotient and sum
(`q2` bits) are rounded. -/
def rescaleRounded (q0 q1 q2 : ℕ) (a : NDArray Rat) (t0 : Option DType) (imin den : Rat) (out : Int × Int) :
    Py (NDArray Rat) :=
  let k := out.2 - out.1
  let t1 := t0.bind (fun t => arithType t k)
  if den = 0 then nanOutput out a
  else .ok (a.map fun p =>
    fl q2 (fl q2 (storeRounded q1 t1 (storeRounded q0 t0 (p - imin) * k) / den) + out.1))

/-- `loading.py` 869-886: the conversion to float32 rounds. -/
def castRounded (out : Int × Int) (a : NDArray Rat) : Py (Image Rat) :=
  match castOutput out a with
  | .error e => .error e
  | .ok r => if r.dtype = .f32 then .ok ⟨.f32, a.map (fl 24)⟩ else .ok r

/-- `loading.py` 788-891 `normalize_data` with rounding. -/
def normalizeRounded (ident : Bool) (img : Image Rat) (out : Int × Int)
    (input : Option (Int × Int)) (auto : Bool) : PyW (Image Rat) :=
  if ¬ (img.dtype.isInteger || img.dtype.isFloating) then
    .raise (.valueError "Data type not supported")
  else if alreadyNormalized ident img.dtype out then do
    PyW.warn "Data is already normalized."
    pure img
  else PyW.lift do
    let dt := img.dtype
    let q := dt.floatBits
    let t0auto : Option DType := if dt.isInteger then some dt else none
    let k : Int := out.2 - out.1
    if auto then do
      let mn ← arrMin img.arr
      let mx ← arrMax img.arr
      let q1 := (floatType dt k).floatBits
      if halfOverflow dt [mx - mn] || halfOverflow (floatType dt k) [fl q (mx - mn) * k] then nanOutput out img.arr
      else do
        let r ← rescaleRounded q q1 q1 img.arr t0auto mn (storeRounded q t0auto (mx - mn)) out
        castRounded out r
    else match input with
      | none => .error (.valueError
          "If automatic_data_range is False, data_range_input must be set.")
      | some (ilo, ihi) =>
        let t := floatType dt ilo
        let t1 := floatType t k
        let t2 := floatType t1 (ihi - ilo)
        if halfOverflow t (img.arr.toList.map (fun p => p - ilo)) ||
            halfOverflow t1 (img.arr.toList.map (fun p => fl t.floatBits (p - (ilo : Rat)) * k)) then nanOutput out img.arr
        else do
          let r ← rescaleRounded t.floatBits t1.floatBits t2.floatBits img.arr (t0auto.bind (fun t => arithType t ilo))
            (if dt.isInteger then (ilo : Rat) else fl t.floatBits (ilo : Rat)) (fl t2.floatBits ((ihi - ilo : Int) : Rat)) out
          castRounded out r

end Viqa
