import Verif.Model.Basic
import Verif.Model.Border

/-!
Model of the gradient kernels (`kernels.py`) and of the gradient similarity (`fr_metrics/gsm.py`
361-441). Everything here is rational arithmetic; rounding of floating point numbers is not modelled.
-/

namespace Viqa

/-! ### Kernels -/

/-- `np.array` of three nested lists. -/
def cube (l : List (List (List Int))) : NDArray Int :=
  ⟨[l.length, (l.headD []).length, ((l.headD []).headD []).length], fun i =>
    (((l.getD (i.getD 0 0) []).getD (i.getD 1 0) []).getD (i.getD 2 0) 0)⟩

/-- `np.array` of two nested lists. -/
def square (l : List (List Int)) : NDArray Int :=
  ⟨[l.length, (l.headD []).length], fun i => (l.getD (i.getD 0 0) []).getD (i.getD 1 0) 0⟩

/-- `np.rot90` where the axes are valid; the kernels never reach the other case. -/
def rotated (m : NDArray Int) (k a0 a1 : Nat) : NDArray Int :=
  match rot90 m k a0 a1 with
  | .ok r => r
  | .error _ => ⟨[], fun _ => 0⟩

/-- `kernels.py` 21-61. -/
def gsmKernelZ : NDArray Int := cube
  [[[0, 0, 0, 0, 0], [0, 0, 0, 0, 0], [0, -1, 0, 1, 0], [0, 0, 0, 0, 0], [0, 0, 0, 0, 0]],
   [[0, 0, 0, 0, 0], [0, -1, 0, 1, 0], [0, -3, 0, 3, 0], [0, -1, 0, 1, 0], [0, 0, 0, 0, 0]],
   [[0, -1, 0, 1, 0], [0, -3, 0, 3, 0], [0, -8, 0, 8, 0], [0, -3, 0, 3, 0], [0, -1, 0, 1, 0]],
   [[0, 0, 0, 0, 0], [0, -1, 0, 1, 0], [0, -3, 0, 3, 0], [0, -1, 0, 1, 0], [0, 0, 0, 0, 0]],
   [[0, 0, 0, 0, 0], [0, 0, 0, 0, 0], [0, -1, 0, 1, 0], [0, 0, 0, 0, 0], [0, 0, 0, 0, 0]]]

/-- `kernels.py` 64-66. -/
def gsmKernelY : NDArray Int := rotated gsmKernelZ 1 2 1

/-- `kernels.py` 69-71. -/
def gsmKernelX : NDArray Int := rotated gsmKernelZ 1 2 0

/-- `kernels.py` 74-114. -/
def gsmKernelYz1 : NDArray Int := cube
  [[[0, 0, 0, 0, 0], [0, -1, 0, 0, 0], [0, 0, 0, 0, 0], [0, 0, 0, 1, 0], [0, 0, 0, 0, 0]],
   [[0, 0, 0, 0, 0], [0, -3, -1, 0, 0], [0, -1, 0, 1, 0], [0, 0, 1, 3, 0], [0, 0, 0, 0, 0]],
   [[0, 0, -1, 0, 0], [0, -8, -3, 0, 0], [-1, -3, 0, 3, 1], [0, 0, 3, 8, 0], [0, 0, 1, 0, 0]],
   [[0, 0, 0, 0, 0], [0, -3, -1, 0, 0], [0, -1, 0, 1, 0], [0, 0, 1, 3, 0], [0, 0, 0, 0, 0]],
   [[0, 0, 0, 0, 0], [0, -1, 0, 0, 0], [0, 0, 0, 0, 0], [0, 0, 0, 1, 0], [0, 0, 0, 0, 0]]]

/-- `kernels.py` 117-119. -/
def gsmKernelYz2 : NDArray Int := rotated gsmKernelYz1 1 2 1

/-- `kernels.py` 122-124. -/
def gsmKernelXz1 : NDArray Int := rotated gsmKernelYz1 1 1 0

/-- `kernels.py` 127-129. -/
def gsmKernelXz2 : NDArray Int := rotated gsmKernelYz1 1 0 1

/-- `kernels.py` 132-134. -/
def gsmKernelXy1 : NDArray Int := rotated gsmKernelYz1 1 2 0

/-- `kernels.py` 137-139. -/
def gsmKernelXy2 : NDArray Int := rotated gsmKernelYz1 1 0 2

/-- `kernels.py` 142-182. -/
def gsmKernelXyz1 : NDArray Int := cube
  [[[0, -1, 0, 0, 0], [1, 0, 0, -1, 0], [0, 0, 0, 0, 0], [0, 1, 0, 0, -1], [0, 0, 0, 1, 0]],
   [[0, 0, 0, 0, 0], [0, 0, -3, 0, 0], [0, 3, 0, -3, 0], [0, 0, 3, 0, 0], [0, 0, 0, 0, 0]],
   [[0, 0, -1, 0, 0], [0, 0, 0, -8, 0], [1, 0, 0, 0, -1], [0, 8, 0, 0, 0], [0, 0, 1, 0, 0]],
   [[0, 0, 0, 0, 0], [0, 0, -3, 0, 0], [0, 3, 0, -3, 0], [0, 0, 3, 0, 0], [0, 0, 0, 0, 0]],
   [[0, -1, 0, 0, 0], [1, 0, 0, -1, 0], [0, 0, 0, 0, 0], [0, 1, 0, 0, -1], [0, 0, 0, 1, 0]]]

/-- `kernels.py` 185-187. -/
def gsmKernelXyz2 : NDArray Int := rotated gsmKernelXyz1 1 1 2

/-- `kernels.py` 190-192. -/
def gsmKernelXyz3 : NDArray Int := rotated gsmKernelXyz1 1 0 1

/-- `kernels.py` 195-197. -/
def gsmKernelXyz4 : NDArray Int := rotated gsmKernelXyz1 1 0 2

/-- `kernels.py` 200-220. -/
def sobelKernelZ : NDArray Int := cube
  [[[0, 0, 0], [-1, 0, 1], [0, 0, 0]],
   [[-1, 0, 1], [-2, 0, 2], [-1, 0, 1]],
   [[0, 0, 0], [-1, 0, 1], [0, 0, 0]]]

/-- `kernels.py` 223-225. -/
def sobelKernelY : NDArray Int := rotated sobelKernelZ 1 2 1

/-- `kernels.py` 228-230. -/
def sobelKernelX : NDArray Int := rotated sobelKernelZ 1 2 0

/-- `kernels.py` 233-253. -/
def prewittKernelZ : NDArray Int := cube
  [[[0, 0, 0], [0, 0, 0], [0, 0, 0]],
   [[-1, 0, 1], [-1, 0, 1], [-1, 0, 1]],
   [[0, 0, 0], [0, 0, 0], [0, 0, 0]]]

/-- `kernels.py` 256-258. -/
def prewittKernelY : NDArray Int := rotated prewittKernelZ 1 2 1

/-- `kernels.py` 261-263. -/
def prewittKernelX : NDArray Int := rotated prewittKernelZ 1 2 0

/-- `kernels.py` 266-286. -/
def scharrKernelZ : NDArray Int := cube
  [[[0, 0, 0], [-47, 0, 47], [0, 0, 0]],
   [[-47, 0, 47], [-162, 0, 162], [-47, 0, 47]],
   [[0, 0, 0], [-47, 0, 47], [0, 0, 0]]]

/-- `kernels.py` 289-291. -/
def scharrKernelY : NDArray Int := rotated scharrKernelZ 1 2 1

/-- `kernels.py` 294-296. -/
def scharrKernelX : NDArray Int := rotated scharrKernelZ 1 2 0

/-- `kernels.py` 301-309. -/
def prewittKernel2dX : NDArray Int := square
  [[1, 0, -1], [1, 0, -1], [1, 0, -1]]

/-- `kernels.py` 312-320. -/
def prewittKernel2dY : NDArray Int := square
  [[1, 1, 1], [0, 0, 0], [-1, -1, -1]]

/-- `kernels.py` 323-331. -/
def sobelKernel2dX : NDArray Int := square
  [[1, 0, -1], [2, 0, -2], [1, 0, -1]]

/-- `kernels.py` 334-342. -/
def sobelKernel2dY : NDArray Int := square
  [[1, 2, 1], [0, 0, 0], [-1, -2, -1]]

/-- `kernels.py` 345-353. -/
def scharrKernel2dX : NDArray Int := square
  [[3, 0, -3], [10, 0, -10], [3, 0, -3]]

/-- `kernels.py` 356-364. -/
def scharrKernel2dY : NDArray Int := square
  [[3, 10, 3], [0, 0, 0], [-3, -10, -3]]

/-- `kernels.py` 367-377. -/
def gsmKernel2dY : NDArray Int := square
  [[0, 0, 0, 0, 0], [-1, -3, -8, -3, -1], [0, 0, 0, 0, 0], [1, 3, 8, 3, 1], [0, 0, 0, 0, 0]]

/-- `kernels.py` 380-390. -/
def gsmKernel2dX : NDArray Int := square
  [[0, -1, 0, 1, 0], [0, -3, 0, 3, 0], [0, -8, 0, 8, 0], [0, -3, 0, 3, 0], [0, -1, 0, 1, 0]]

/-- `kernels.py` 393-403. -/
def gsmKernel2dXy : NDArray Int := square
  [[0, 0, -1, 0, 0], [0, 0, -3, -8, 0], [-1, -3, 0, 3, 1], [0, 8, 3, 0, 0], [0, 0, 1, 0, 0]]

/-- `kernels.py` 406-416. -/
def gsmKernel2dYx : NDArray Int := square
  [[0, 0, -1, 0, 0], [0, -8, -3, 0, 0], [1, 3, 0, -3, -1], [0, 0, 3, 8, 0], [0, 0, 1, 0, 0]]

/-- `gsm.py` 42-56 `KERNELS_3D`. -/
def kernels3d : List (NDArray Int) :=
  [gsmKernelX, gsmKernelY, gsmKernelZ, gsmKernelXy1, gsmKernelXy2, gsmKernelYz1, gsmKernelYz2,
   gsmKernelXz1, gsmKernelXz2, gsmKernelXyz1, gsmKernelXyz2, gsmKernelXyz3, gsmKernelXyz4]

/-- `gsm.py` 58-63 `KERNELS_2D`. -/
def kernels2d : List (NDArray Int) := [gsmKernel2dX, gsmKernel2dY, gsmKernel2dXy, gsmKernel2dYx]

/-- `scipy.ndimage.correlate(x, w)` at position `p` with the default mode `reflect` and the default
origin, before the result is stored. -/
def correlateAt (w : NDArray Int) (x : NDArray Rat) (p : List Nat) : Rat :=
  ((indices w.shape).map (fun o => (w.get o : Rat) *
    match extendIndices .reflect x.shape (kernelPosition w.shape p o) with
    | some i => x.get i
    | none => 0)).sum

/-- How the data type of the images acts: `store` converts a filter response to the data type,
`sub` is the difference of two pixels in the data type. -/
structure PixelOps where
  store : Rat → Rat
  sub : Rat → Rat → Rat

/-- Floating point images. -/
def floatOps : PixelOps := ⟨id, fun a b => a - b⟩

/-- Unsigned images of `n` bits: everything is reduced modulo `2^n` (responses are integers). -/
def unsignedOps (n : Nat) : PixelOps :=
  ⟨fun v => ((v.floor % (2 ^ n : Int) : Int) : Rat), fun a b => (((a - b).floor % (2 ^ n : Int) : Int) : Rat)⟩

/-- Gradient image for a kernel. -/
def gradient (ops : PixelOps) (w : NDArray Int) (x : NDArray Rat) : NDArray Rat :=
  ⟨x.shape, fun p => ops.store (correlateAt w x p)⟩

/-- Absolute value. -/
def ratAbs (q : Rat) : Rat := if q < 0 then -q else q

/-- `gsm.py` 423-424 `_mean_of_abs`. -/
def meanAbs (g : NDArray Rat) : Rat := (g.toList.map ratAbs).sum / g.toList.length

/-- `sorted(l, key=_mean_of_abs, reverse=True)[0]`, also `max(l, key=_mean_of_abs)`: the first
element with the largest key. -/
def strongest : NDArray Rat → List (NDArray Rat) → NDArray Rat
  | g, [] => g
  | g, h :: l => strongest (if meanAbs g < meanAbs h then h else g) l

/-- Largest element of a non-empty list. -/
def largest : Rat → List Rat → Rat
  | a, [] => a
  | a, b :: l => largest (if a < b then b else a) l

/-- Quality of a pixel (`gsm.py` 431-438): nan, a number, or infinite. -/
inductive Quality where
  | nan | val (q : Rat) | inf
  deriving DecidableEq

/-- The combination of structure and luminance (`gsm.py` 437-439). -/
def combine (p con lum : Rat) : Rat := (1 - p * con) * con + p * con * lum

/-- `gsm.py` 436 `con_struc_sim` for a finite `r`: numerator and denominator. -/
def conNum (k r : Rat) : Rat := 2 * (1 - r) + k

def conDen (k r : Rat) : Rat := 1 + (1 - r) ^ 2 + k

/-- `gsm.py` 438 `lum_sim`. -/
def lumSim (ops : PixelOps) (dr a b : Rat) : Rat := 1 - (ops.sub a b / dr) ^ 2

/-- Quality of one pixel with gradients `gr`, `gm`, divisor gradient `d` and pixel values `a`, `b`.
A divisor of zero gives nan or an infinite `r`, and then nan. -/
def quality (ops : PixelOps) (p k dr gr gm d a b : Rat) : Quality :=
  if d = 0 then .nan
  else
    let r := ratAbs (gr - gm) / d
    if conDen k r = 0 then (if conNum k r = 0 then .nan else .inf)
    else .val (combine p (conNum k r / conDen k r) (lumSim ops dr a b))

/-- `np.nanmean`; infinite qualities are not modelled further (`notANumber`), as is the mean of
nothing. -/
def nanMean (l : List Quality) : Py Rat :=
  if .inf ∈ l then .error .notANumber
  else
    let vs := l.filterMap (fun | .val q => some q | _ => none)
    if vs = [] then .error .notANumber else .ok (vs.sum / vs.length)

/-- `gsm.py` 418-441: the computation for the kernels `w :: ws`. If the largest gradient is zero, `k`
is infinite (or nan) and every quality is nan. -/
def gsmWith (ops : PixelOps) (dr c p : Rat) (x y : NDArray Rat) (w : NDArray Int) (ws : List (NDArray Int)) :
    Py Rat :=
  let gr := strongest (gradient ops w x) (ws.map (fun w => gradient ops w x))
  let gm := strongest (gradient ops w y) (ws.map (fun w => gradient ops w y))
  match gr.toList, gm.toList with
  | r0 :: rs, m0 :: ms =>
    let top := largest (largest r0 rs) [largest m0 ms]
    if top = 0 then .error .notANumber
    else
      let d := strongest gr [gm]
      nanMean ((indices x.shape).map (fun i =>
        quality ops p (c / top) dr (gr.get i) (gm.get i) (d.get i) (x.get i) (y.get i)))
  | _, _ => .error (.valueError "zero-size array to reduction operation maximum which has no identity")

/-- `gsm.py` 361-441 `gradient_similarity` for images of equal shape and a non-zero `data_range`. -/
def gradientSimilarity (ops : PixelOps) (dr c p : Rat) (x y : NDArray Rat) : Py Rat :=
  if x.ndim = 3 then gsmWith ops dr c p x y gsmKernelX kernels3d.tail
  else if x.ndim = 2 then gsmWith ops dr c p x y gsmKernel2dX kernels2d.tail
  else .error (.valueError "Images must be 2D or 3D.")

end Viqa
