import Verif.Model.Basic
import Mathlib.Data.Real.Basic

/-!
Model of the choice between slice, full volume and plane in the six 2D metrics:
`msssim.py` 189-284, `vif.py` 166-257, `fsim.py` 187-283, `vsi.py` 187-278, `gsm.py` 192-256,
`mad.py` 178-247, of `gradient_similarity_3d` (`gsm.py` 277-358), of
`most_apparent_distortion_3d` (`mad.py` 268-338) and of `_check_chromatic`
(`utils/misc.py` 420-439).

The 2D computations are parameters: `g` scores one sample (list of channels) of the piq metrics,
`f` is `gradient_similarity` or `most_apparent_distortion`. The argument `experimental` of the
gradient similarity is not modelled (False).
-/

namespace Viqa

inductive Kind where
  | msssim | vif | fsim | vsi | gsm | mad
  deriving DecidableEq, Repr

/-- Metrics computed by the library piq. -/
def Kind.isPiq : Kind → Bool
  | .msssim | .vif | .fsim | .vsi => true
  | .gsm | .mad => false

/-- Metrics that look at the last axis to recognise colour images (`msssim.py` 194, `vif.py` 168,
`fsim.py` 189); the other three only look at the number of axes. -/
def Kind.seesColour : Kind → Bool
  | .msssim | .vif | .fsim => true
  | _ => false

/-- The argument `im_slice`: None, an `int`, or anything else with its truth value. -/
inductive SliceArg where
  | none
  | int (i : Int)
  | other (truthy : Bool)
  deriving DecidableEq

/-- The argument `dim`: None, a number (integers, floats and booleans match by value), or anything
else with its truth value. -/
inductive DimArg where
  | none
  | num (v : Rat)
  | other (truthy : Bool)
  deriving DecidableEq

def SliceArg.truthy : SliceArg → Bool
  | .none => false
  | .int i => i ≠ 0
  | .other b => b

def DimArg.truthy : DimArg → Bool
  | .none => false
  | .num v => v ≠ 0
  | .other b => b

/-- `match dim: case 0 / case 1 / case 2 / case _`. -/
def DimArg.axis : DimArg → Option Nat
  | .num v => if v = 0 then some 0 else if v = 1 then some 1 else if v = 2 then some 2 else Option.none
  | _ => Option.none

variable {α : Type}

/-- `img[i, :, :]`, `img[:, i, :]` or `img[:, :, i]` for an index inside the axis. -/
def planeAt (a : NDArray α) (axis i : Nat) : NDArray α :=
  ⟨a.shape.eraseIdx axis, fun idx => a.get (idx.take axis ++ i :: idx.drop axis)⟩

/-- Indexing with a Python integer. -/
def takeSlice (a : NDArray α) (axis : Nat) (i : Int) : Py (NDArray α) :=
  match pyIndex (a.shape.getD axis 0) i with
  | .error e => .error e
  | .ok j => .ok (planeAt a axis j)

/-- All slices along an axis. -/
def slicesAlong (a : NDArray α) (axis : Nat) : List (NDArray α) :=
  (List.range (a.shape.getD axis 0)).map (planeAt a axis)

/-- `utils/misc.py` 420-439 `_check_chromatic` for one image: the batch of samples, each a list of
channels. -/
def checkChromatic (chromatic : Bool) (a : NDArray α) : Py (List (List (NDArray α))) :=
  if chromatic then
    if a.ndim = 3 then .ok [slicesAlong a 2]
    else .error (.runtimeError "permute(sparse_coo): number of dimensions in the tensor input does not match")
  else if a.ndim = 3 then .ok ((slicesAlong a 2).map (fun s => [s]))
  else if a.ndim = 2 then .ok [[a]]
  else .error (.valueError "Image format not supported.")

/-- All results or the first exception. -/
def collect {β} : List (Py β) → Py (List β)
  | [] => .ok []
  | .error e :: _ => .error e
  | .ok a :: l => match collect l with
    | .error e => .error e
    | .ok as => .ok (a :: as)

/-- Mean of real numbers; nothing has no mean. -/
noncomputable def meanOf (l : Py (List ℝ)) : Py ℝ :=
  match l with
  | .error e => .error e
  | .ok [] => .error .notANumber
  | .ok l => .ok (l.sum / l.length)

/-- A call of a piq metric with the default `reduction="mean"`: mean of the scores of all samples. -/
noncomputable def piqScore (g : List (NDArray α) → List (NDArray α) → Py ℝ) (chromatic : Bool)
    (x y : NDArray α) : Py ℝ :=
  match checkChromatic chromatic x, checkChromatic chromatic y with
  | .ok bx, .ok b => meanOf (collect (List.zipWith g bx b))
  | .error e, _ => .error e
  | _, .error e => .error e

/-- The documented values of the argument `reduction` of the piq metrics. -/
inductive Reduction where
  | none | mean | sum
  deriving DecidableEq

/-- A call of a piq metric with `reduction`: the elements of the tensor returned. -/
noncomputable def piqTensor (g : List (NDArray α) → List (NDArray α) → Py ℝ) (chromatic : Bool) (red : Reduction)
    (x y : NDArray α) : Py (List ℝ) :=
  match checkChromatic chromatic x, checkChromatic chromatic y with
  | .ok bx, .ok b =>
    match collect (List.zipWith g bx b) with
    | .error e => .error e
    | .ok l => match red with
      | .none => .ok l
      | .sum => .ok [l.sum]
      | .mean => match meanOf (.ok l) with
        | .error e => .error e
        | .ok v => .ok [v]
  | .error e, _ => .error e
  | _, .error e => .error e

/-- `self.score_val = float(score_val)` (`msssim.py` 283, `vif.py` 256, `fsim.py` 282, `vsi.py` 277): only tensors of one
element can be converted. -/
def tensorFloat (l : List ℝ) : Py ℝ :=
  match l with
  | [v] => .ok v
  | _ => .error (.runtimeError "a Tensor with several elements cannot be converted to Scalar")

/-- The end of `score` of the piq metrics for a full volume or a plane with the argument `reduction`. -/
noncomputable def piqScoreRed (g : List (NDArray α) → List (NDArray α) → Py ℝ) (chromatic : Bool) (red : Reduction)
    (x y : NDArray α) : Py ℝ :=
  match piqTensor g chromatic red x y with
  | .error e => .error e
  | .ok l => tensorFloat l

/-- Score of a plane. -/
noncomputable def score2 (k : Kind) (g : List (NDArray α) → List (NDArray α) → Py ℝ)
    (f : NDArray α → NDArray α → Py ℝ) (chromatic : Bool) (x y : NDArray α) : Py ℝ :=
  if k.isPiq then piqScore g chromatic x y else f x y

/-- `gsm.py` 329-356 and `mad.py` 311-338: mean over the slices along `dim`. -/
noncomputable def score3 (f : NDArray α → NDArray α → Py ℝ) (dim : DimArg) (x y : NDArray α) : Py ℝ :=
  match dim.axis with
  | Option.none => .error (.valueError "Invalid dim value. Must be integer of 0, 1 or 2.")
  | some a => meanOf (collect (List.zipWith f (slicesAlong x a) (slicesAlong y a)))

/-- The message if a volume has no `dim`, or a slice that is neither an integer nor None. The tests are
`type(im_slice) is not int or None` (`msssim.py` 260, `vif.py` 233, `vsi.py` 254, `gsm.py` 240), which is true for
None, `type(im_slice) is not int and im_slice is not None` (`fsim.py` 258), and
`… or type(im_slice) is not None` (`mad.py` 226-230), which is always true. -/
def volumeMessage (k : Kind) (sl : SliceArg) : String :=
  let dimMissing := "If images are 3D, dim and im_slice (optional) must be given."
  let sliceInvalid := "im_slice must be an integer."
  match k, sl with
  | .mad, _ => "im_slice must be an integer or None."
  | .fsim, .none => dimMissing
  | _, .int _ => dimMissing
  | _, _ => sliceInvalid

/-- The `score` methods after loading the images. -/
noncomputable def dispatch (k : Kind) (g : List (NDArray α) → List (NDArray α) → Py ℝ)
    (f : NDArray α → NDArray α → Py ℝ) (chromatic : Bool) (dim : DimArg) (sl : SliceArg)
    (x y : NDArray α) : PyW ℝ :=
  if x.ndim = 3 ∧ (k.seesColour → x.lastDim ≠ 3) then
    match dim, sl with
    | .none, sl => .raise (.valueError (volumeMessage k sl))
    | _, .other b => .raise (.valueError (volumeMessage k (.other b)))
    | d, .int i =>
      match d.axis with
      | Option.none => .raise (.valueError "Invalid dim value. Must be integer of 0, 1 or 2.")
      | some a =>
        match takeSlice x a i, takeSlice y a i with
        | .ok px, .ok p => .lift (score2 k g f chromatic px p)
        | .error e, _ => .raise e
        | _, .error e => .raise e
    | d, .none =>
      ⟨["im_slice is not given. Calculating for full volume."],
        if k.isPiq then piqScore g chromatic x y else score3 f d x y⟩
  else if x.ndim = 2 ∨ (k.seesColour ∧ x.ndim = 3 ∧ x.lastDim = 3) then
    ⟨if dim.truthy || sl.truthy then ["dim and im_slice are ignored for 2D images."] else [],
      score2 k g f chromatic x y⟩
  else .raise (.valueError "Images must be 2D or 3D.")

end Viqa
