import Verif.Model.Basic
import Mathlib.Algebra.Order.Ring.Rat
import Mathlib.Data.Nat.Sqrt
import Mathlib.Algebra.BigOperators.Group.List.Basic
import Mathlib.Algebra.Order.Floor.Defs
import Mathlib.Data.Rat.Floor
import Mathlib.Data.List.Sort

/-!
Model of the regions of `src/viqa/utils/misc.py` 442-639: border check, binary image, largest
region, cubic and spherical masks.
-/

namespace Viqa

/-! ### Arguments -/

/-- A Python value given as coordinate or radius: `int`, another real number, or an object that is
not a number. -/
inductive NumArg where
  | int (n : Int)
  | float (q : Rat)
  | other
  deriving DecidableEq, Repr

/-- `abs(center) - radius < 0`; TypeError if the radius is not a number. -/
def tooClose (c : Int) (radius : NumArg) : Py Bool :=
  match radius with
  | .int r => .ok (decide (|c| - r < 0))
  | .float q => .ok (decide (((|c| : Int) : Rat) - q < 0))
  | .other => .error (.typeError "unsupported operand type(s) for -")

/-- `misc.py` 442-449 `_check_border_too_close`; the loops in `cnr.py` 798-812 and `snr.py`
1021-1027 are the same, apart from the name of the centre in front of the messages of `cnr.py`. -/
def checkBorder : List NumArg → NumArg → Py Unit
  | [], _ => .ok ()
  | .int c :: cs, radius =>
    match tooClose c radius with
    | .error e => .error e
    | .ok true => .error (.valueError "Center has to be at least the radius away from the border.")
    | .ok false => checkBorder cs radius
  | _ :: _, _ => .error (.typeError "Center has to be a tuple of integers.")

/-- Kinds of region that the code distinguishes. -/
inductive RKind where
  | cubic | spherical | full | original | invalid
  deriving DecidableEq, Repr

/-- Meaning of the argument `region_type` (`misc.py` 572-582, `cnr.py` 822-834). -/
def regionKind (s : String) : RKind :=
  if s = "cubic" ∨ s = "cube" ∨ s = "square" then .cubic
  else if s = "spherical" ∨ s = "sphere" ∨ s = "circle" then .spherical
  else if s = "full" then .full
  else if s = "original" then .original
  else .invalid

/-! ### Masked arrays -/

/-- A masked array: an array and the pixels that are not masked. An array without a mask has all
pixels selected. -/
structure Region (α : Type) where
  arr : NDArray α
  sel : List Nat → Bool

/-- Indices of the selected pixels. -/
def Region.selected {α} (r : Region α) : List (List Nat) := (indices r.arr.shape).filter r.sel

/-- Values of the selected pixels. -/
def Region.values {α} (r : Region α) : List α := r.selected.map r.arr.get

/-- An image without mask. -/
def wholeImage {α} (a : NDArray α) : Region α := ⟨a, fun _ => true⟩

/-- `img.ndim == 3 and img.shape[-1] == 3`. -/
def isColour {α} (a : NDArray α) : Bool := a.ndim == 3 && a.lastDim == 3

/-- `img.ndim == 2 or (img.ndim == 3 and img.shape[-1] == 3)`. -/
def isPlane {α} (a : NDArray α) : Bool := a.ndim == 2 || isColour a

/-- Index `i` belongs to the slice `lo:hi` of an axis of length `n`. -/
def inSlice (n : Nat) (lo hi : Int) (i : Nat) : Bool :=
  decide ((sliceRange n lo hi).1 ≤ i ∧ i < (sliceRange n lo hi).1 + (sliceRange n lo hi).2)

/-- The pixels set by `mask[c0-r:c0+r, c1-r:c1+r, …] = 1`. -/
def boxMask : List Nat → List Int → Int → List Nat → Bool
  | n :: sh, c :: cs, r, i :: idx => inSlice n (c - r) (c + r) i && boxMask sh cs r idx
  | _, _, _, _ => true

/-- `misc.py` 615-639 `_to_cubic`. For a colour image line 627 repeats a mask that already has a
channel axis; `np.ma.array` accepts the result only if the image is empty. -/
def toCubic {α} (a : NDArray α) (center : List Int) (r : Int) : Py (Region α) :=
  if isPlane a then
    if center.length ≠ 2 then .error (.valueError "Center must be 2D.")
    else if isColour a ∧ a.size ≠ 0 then .error .maskError
    else .ok ⟨a, boxMask a.shape center r⟩
  else if a.ndim = 3 ∧ 3 < a.lastDim then
    if center.length ≠ 3 then .error (.valueError "Center must be 3D.")
    else .ok ⟨a, boxMask a.shape center r⟩
  else .error (.valueError "Image must be 2D or 3D.")

/-- Square of the distance between a pixel and the centre, over the axes of the centre. -/
def distSq : List Nat → List Int → Int
  | i :: idx, c :: cs => ((i : Int) - c) ^ 2 + distSq idx cs
  | _, _ => 0

/-- `misc.py` 587-612 `_to_spherical`; for a colour image the mask of the two spatial axes is
repeated for the channels. -/
def toSpherical {α} (a : NDArray α) (center : List Int) (r : Int) : Py (Region α) :=
  if isPlane a then
    if center.length ≠ 2 then .error (.valueError "Center must be 2D.")
    else .ok ⟨a, fun idx => decide (distSq idx center ≤ r ^ 2)⟩
  else if a.ndim = 3 ∧ 3 < a.lastDim then
    if center.length ≠ 3 then .error (.valueError "Center must be 3D.")
    else .ok ⟨a, fun idx => decide (distSq idx center ≤ r ^ 2)⟩
  else .error (.valueError "Center must be 2D or 3D.")

/-! ### Binary image -/

/-- `np.percentile(img, q)` (linear interpolation between the sorted pixels). -/
def percentile (l : List Rat) (q : Rat) : Rat :=
  let s := l.insertionSort (· ≤ ·)
  let pos : Rat := q / 100 * ((l.length : Rat) - 1)
  let k := pos.floor.toNat
  let lo := s.getD k 0
  let hi := s.getD (min (k + 1) (l.length - 1)) 0
  lo + (hi - lo) * (pos - (k : Rat))

/-- `misc.py` 452-490 `_get_binary` of a grayscale image. The percentile of no pixels raises
IndexError. -/
def getBinary (a : NDArray Rat) (lower upper : Rat) : Py (NDArray Bool) :=
  if ¬ (0 ≤ lower ∧ lower ≤ 100 ∧ 0 ≤ upper ∧ upper ≤ 100) then
    .error (.valueError "Percentiles must be in the range [0, 100]")
  else if a.size = 0 then .error .indexError
  else
    let lo := percentile a.toList lower
    let hi := percentile a.toList upper
    .ok (a.map (fun p => decide (lo < p ∧ p ≤ hi)))

/-! ### Morphology -/

/-- The pixel itself and its neighbours along the axes: the positions at which the structuring
elements of `misc.py` 536-548 are set. -/
def crossNeighbours (p : List Int) : List (List Int) :=
  p :: (List.range p.length).flatMap (fun k => [p.modify k (· - 1), p.modify k (· + 1)])

/-- Value at a possibly outside position; `border_value=0` counts as not set. -/
def boolAt (b : NDArray Bool) (p : List Int) : Bool :=
  p.all (fun c => decide (0 ≤ c)) &&
    (decide (InShape b.shape (p.map Int.toNat)) && b.get (p.map Int.toNat))

/-- One step of `ndi.binary_dilation`. -/
def dilateStep (b : NDArray Bool) : NDArray Bool :=
  ⟨b.shape, fun idx => (crossNeighbours (idx.map (fun i : Nat => (i : Int)))).any (boolAt b)⟩

/-- One step of `ndi.binary_erosion`. -/
def erodeStep (b : NDArray Bool) : NDArray Bool :=
  ⟨b.shape, fun idx => (crossNeighbours (idx.map (fun i : Nat => (i : Int)))).all (boolAt b)⟩

/-- Number of steps for `iterations`: SciPy repeats until nothing changes if the number is less
than one, which takes at most one step per pixel. -/
def morphSteps (iterations : Int) (size : Nat) : Nat :=
  if iterations < 1 then size else iterations.toNat

/-- Repeated application. -/
def iterateN {α} (f : α → α) : Nat → α → α
  | 0, x => x
  | n + 1, x => iterateN f n (f x)

/-- `misc.py` 560-563: dilation followed by one more erosion. -/
def cleanBinary (b : NDArray Bool) (iterations : Int) : NDArray Bool :=
  iterateN erodeStep (morphSteps (iterations + 1) b.size)
    (iterateN dilateStep (morphSteps iterations b.size) b)

/-! ### Distance transform and largest region -/

/-- Smallest element of a list. -/
def minList : List Int → Int
  | [] => 0
  | [x] => x
  | x :: y :: l => min x (minList (y :: l))

/-- Square of `distance_transform_edt`: squared distance to the nearest pixel that is not set. -/
def edtSq (b : NDArray Bool) (idx : List Nat) : Int :=
  minList (((indices b.shape).filter (fun q => !b.get q)).map
    (fun q => distSq idx (q.map (fun i : Nat => (i : Int)))))

/-- `np.argmax`: the first position of the largest value. -/
def argmaxBy {α} (f : α → Int) : List α → Option α
  | [] => none
  | x :: l => match argmaxBy f l with
    | none => some x
    | some y => if f y ≤ f x then some x else some y

/-- `misc.py` 566-569: centre and radius (`int` of the distance). -/
def centreRadius (b : NDArray Bool) : Option (List Nat × Nat) :=
  (argmaxBy (edtSq b) (indices b.shape)).map (fun c => (c, Nat.sqrt (edtSq b c).toNat))

/-- Result of the search in `find_largest_region` (`misc.py` 559-569): centre, radius and the
cleaned image. -/
structure Largest where
  centre : List Nat
  radius : Nat
  cleaned : NDArray Bool

/-- `misc.py` 531-569. The structuring element of a colour image has two axes, which SciPy rejects. -/
def findLargest (b : NDArray Bool) (iterations : Int) : Py Largest :=
  if ¬ (false ∈ b.toList ∧ true ∈ b.toList) then .error (.valueError "Image must be binary.")
  else if isColour b then .error (.runtimeError "structure and input must have same dimensionality")
  else if b.ndim = 2 ∨ (b.ndim = 3 ∧ 3 < b.lastDim) then
    match centreRadius (cleanBinary b iterations) with
    | none => .error .indexError
    | some (c, r) => .ok ⟨c, r, cleanBinary b iterations⟩
  else .error (.valueError "Image must be 2D or 3D.")

/-- `misc.py` 572-582: the third result, as a masked array of Boolean pixels. -/
def largestRegion (b : NDArray Bool) (l : Largest) (kind : RKind) : Py (Region Bool) :=
  let c := l.centre.map (fun i : Nat => (i : Int))
  match kind with
  | .cubic => toCubic l.cleaned c l.radius
  | .spherical => toSpherical l.cleaned c l.radius
  | .full => .ok ⟨l.cleaned, (erodeStep (erodeStep l.cleaned)).get⟩
  | .original => .ok (wholeImage b)
  | .invalid => .ok (wholeImage l.cleaned)

end Viqa
