import Verif.Model.Basic

namespace Viqa

/-! ### Border handling of `scipy.ndimage` -/

inductive BorderMode where
  | reflect | constant | nearest | mirror | wrap
  deriving DecidableEq, Repr

/-- The mode names SciPy knows (`scipy/ndimage/_ni_support.py` `_extend_mode_to_code`); any other
name raises RuntimeError. -/
def borderMode (name : String) : Py BorderMode :=
  if name = "reflect" ∨ name = "grid-mirror" then .ok .reflect
  else if name = "constant" ∨ name = "grid-constant" then .ok .constant
  else if name = "nearest" then .ok .nearest
  else if name = "mirror" then .ok .mirror
  else if name = "wrap" ∨ name = "grid-wrap" then .ok .wrap
  else .error (.runtimeError "boundary mode not supported")

/-- Index inside of an axis of length `n` from which the value at `i` is taken; `none` for the
fill value. -/
def extendIndex (mode : BorderMode) (n : Nat) (i : Int) : Option Nat :=
  if 0 ≤ i ∧ i < n then some i.toNat
  else match mode with
    | .constant => none
    | .nearest => some (if i < 0 then 0 else n - 1)
    | .wrap => some (i % n).toNat
    | .reflect =>
      let m := i % (2 * n)
      some (if m < n then m.toNat else (2 * n - 1 - m).toNat)
    | .mirror =>
      if n = 1 then some 0
      else
        let m := i % (2 * n - 2)
        some (if m < n then m.toNat else (2 * n - 2 - m).toNat)

/-- The same for all axes. -/
def extendIndices (mode : BorderMode) : List Nat → List Int → Option (List Nat)
  | n :: sh, i :: is =>
    match extendIndex mode n i, extendIndices mode sh is with
    | some j, some js => some (j :: js)
    | _, _ => none
  | _, _ => some []

/-- Position read by `scipy.ndimage.correlate` for the kernel index `o` and the output position `p`:
the kernel is centred at `shape // 2`. -/
def kernelPosition : List Nat → List Nat → List Nat → List Int
  | n :: sh, a :: p, o :: os => ((a : Int) + (o : Int) - ((n / 2 : Nat) : Int)) :: kernelPosition sh p os
  | _, _, _ => []

end Viqa
