import Verif.Model.Gsm

/-!
GSM of two dimensional floating point images with pixels that are not a number (`none`), `fr_metrics/gsm.py` 361-441.
-/

namespace Viqa

/-- `scipy.ndimage.correlate` at a position: nan if a pixel with a weight other than zero is nan; SciPy leaves out the weights
that are zero. -/
def correlateN (w : NDArray Int) (x : NDArray (Option Rat)) (p : List Nat) : Option Rat :=
  if (indices w.shape).any (fun o => w.get o != 0 &&
      match extendIndices .reflect x.shape (kernelPosition w.shape p o) with
      | some i => (x.get i).isNone
      | none => false) then none
  else some (correlateAt w ⟨x.shape, fun i => (x.get i).getD 0⟩ p)

/-- Gradient image for a kernel. -/
def gradientN (w : NDArray Int) (x : NDArray (Option Rat)) : NDArray (Option Rat) := ⟨x.shape, correlateN w x⟩

/-- The array of numbers, if there is no nan. -/
def cleanArray (g : NDArray (Option Rat)) : Option (NDArray Rat) :=
  if (indices g.shape).all (fun i => (g.get i).isSome) then some ⟨g.shape, fun i => (g.get i).getD 0⟩ else none

/-- `_mean_of_abs`: nan if there is a nan. -/
def meanAbsN (g : NDArray (Option Rat)) : Option Rat := (cleanArray g).map meanAbs

/-- `np.max` of an array that is not empty: nan if there is a nan. -/
def npMaxN (g : NDArray (Option Rat)) : Option Rat :=
  match cleanArray g with
  | none => none
  | some r => match r.toList with
    | a :: l => some (largest a l)
    | [] => none

/-- `b > a` of Python; every comparison with nan is false. -/
def greaterN (b a : Option Rat) : Bool :=
  match b, a with
  | some b, some a => a < b
  | _, _ => false

/-- `max(a, b)` of Python: `b` if it is greater, else `a`. -/
def pyMaxN (a b : Option Rat) : Option Rat := if greaterN b a then b else a

/-- `sorted(gradients, key=_mean_of_abs, reverse=True)[0]`. Without nan it is the first one with the largest key. If no key is a
number, no comparison holds and the order is kept. (A nan in the image makes all keys nan, `kernels_touched`.) -/
def sortedFirstN (g : NDArray (Option Rat)) (l : List (NDArray (Option Rat))) : NDArray (Option Rat) :=
  match cleanArray g, l.mapM cleanArray with
  | some g', some l' => let s := strongest g' l'
    ⟨s.shape, fun i => some (s.get i)⟩
  | _, _ => g

/-- Quality of one pixel; operations with nan give nan. -/
def qualityN (p k dr : Rat) (gr gm d a b : Option Rat) : Quality :=
  match gr, gm, d, a, b with
  | some gr, some gm, some d, some a, some b => quality floatOps p k dr gr gm d a b
  | _, _, _, _, _ => .nan

/-- `gsm.py` 418-441 for two dimensional images; a score that is nan is `notANumber`, as in `gradientSimilarity`. -/
def gsmN (dr c p : Rat) (x y : NDArray (Option Rat)) : Py Rat :=
  if x.ndim ≠ 2 then .error (.valueError "Images must be 2D or 3D.")
  else if x.size = 0 then .error (.valueError "zero-size array to reduction operation maximum which has no identity")
  else
    let gr := sortedFirstN (gradientN gsmKernel2dX x) (kernels2d.tail.map (fun w => gradientN w x))
    let gm := sortedFirstN (gradientN gsmKernel2dX y) (kernels2d.tail.map (fun w => gradientN w y))
    match pyMaxN (npMaxN gr) (npMaxN gm) with
    | none => .error .notANumber
    | some top =>
      if top = 0 then .error .notANumber
      else
        let d := if greaterN (meanAbsN gm) (meanAbsN gr) then gm else gr
        nanMean ((indices x.shape).map (fun i =>
          qualityN p (c / top) dr (gr.get i) (gm.get i) (d.get i) (x.get i) (y.get i)))

end Viqa
