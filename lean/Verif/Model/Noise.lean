import Verif.Model.Regions
import Verif.Model.Images
import Mathlib.Analysis.SpecialFunctions.Sqrt

/-!
Model of `src/viqa/nr_metrics/cnr.py` and `src/viqa/nr_metrics/snr.py`: calculation, arguments
remembered by the metric objects, and the interactive selection of regions. Pixels are rational,
mean and variance exact, the standard deviation a real number.
-/

namespace Viqa

/-! ### Statistics -/

/-- `np.mean` of at least one value. -/
def meanQ (l : List Rat) : Rat := l.sum / l.length

/-- Square of `np.std` of at least one value. -/
def varQ (l : List Rat) : Rat := (l.map (fun v => (v - meanQ l) ^ 2)).sum / l.length

/-- `np.std`. -/
noncomputable def stdQ (l : List Rat) : ℝ := Real.sqrt (varQ l)

/-- `cnr.py` 837-842. The statistics of no pixels are masked or not a number, which compares
unequal to zero. -/
noncomputable def cnrOf (signal background : List Rat) : Py ℝ :=
  if background = [] then .error .notANumber
  else if varQ background = 0 then .ok 0
  else if signal = [] then .error .notANumber
  else .ok (((meanQ signal - meanQ background : Rat) : ℝ) / stdQ background)

/-- `snr.py` 1096-1099. -/
noncomputable def snrOf (signal : List Rat) : Py ℝ :=
  if signal = [] then .error .notANumber
  else if varQ signal = 0 then .ok 0
  else .ok ((meanQ signal : ℝ) / stdQ signal)

/-! ### Regions -/

/-- Centre and radius found in an image (`cnr.py` 765-777, `snr.py` 995-1004). -/
def autoFind (a : NDArray Rat) (lower upper : Rat) (iterations : Int) : Py Largest :=
  match getBinary (if isColour a then (toGrayscale ⟨.f64, a⟩).arr else a) lower upper with
  | .error e => .error e
  | .ok b => findLargest b iterations

/-- `cnr.py` 781-794, `snr.py` 1007-1018: the region set before the checks. `np.ma.array` uses the
data of the masked array `~signal_region`, which is the inverted cleaned image for `full`, too. The
mask of a colour image lacks the channel axis. `None`: not set here. -/
def autoRegion (a : NDArray Rat) (l : Largest) (kind : RKind) : Py (Option (Region Rat)) :=
  match kind with
  | .cubic | .spherical => .ok none
  | .original => .ok (some (wholeImage a))
  | .full | .invalid =>
    if isColour a then .error .maskError else .ok (some ⟨a, l.cleaned.get⟩)

/-- `cnr.py` 822-834, `snr.py` 1046-1055 and 1084-1093: `preset` is the region set for
`auto_center`. -/
def selectRegion (a : NDArray Rat) (kind : RKind) (center : List Int) (r : Int)
    (preset : Option (Region Rat)) : Py (Region Rat) :=
  match kind with
  | .full | .original => .ok (preset.getD (wholeImage a))
  | .cubic => toCubic a center r
  | .spherical => toSpherical a center r
  | .invalid => match preset with
    | some reg => .ok reg
    | none => .error (.valueError "Region type not valid.")

/-- The coordinates of a centre that has passed the border check. -/
def centreInts (c : List NumArg) : List Int :=
  c.filterMap (fun | .int n => some n | _ => none)

/-- `cnr.py` 814-815, `snr.py` 1029-1030 (where the message speaks of a positive integer). -/
def checkRadius : NumArg → Py Int
  | .int r => if r ≤ 0 then .error (.typeError "Radius has to be an integer.") else .ok r
  | _ => .error (.typeError "Radius has to be an integer.")

/-- Centre as arguments. -/
def natCentre (c : List Nat) : List NumArg := c.map (fun i : Nat => .int i)

/-! ### CNR -/

structure CnrArgs where
  background : List NumArg
  signal : List NumArg
  radius : NumArg
  regionType : String := "cubic"
  auto : Bool := false
  iterations : Int := 5

/-- `cnr.py` 798-834: checks and regions for the given or found centres. -/
def cnrRegions (a : NDArray Rat) (signal background : List NumArg) (radius : NumArg) (kind : RKind)
    (preS preB : Option (Region Rat)) : Py (Region Rat × Region Rat) := do
  checkBorder signal radius
  checkBorder background radius
  let r ← checkRadius radius
  if a.ndim ≠ signal.length ∨ a.ndim ≠ background.length then
    .error (.valueError "Centers have to be in the same dimension as img.")
  else do
    let s ← selectRegion a kind (centreInts signal) r preS
    let b ← selectRegion a kind (centreInts background) r preB
    .ok (s, b)

/-- `cnr.py` 757-834: signal and background region. -/
def cnrSelect (a : NDArray Rat) (args : CnrArgs) : Py (Region Rat × Region Rat) :=
  let kind := regionKind args.regionType
  if args.auto then do
    let s ← autoFind a 90 100 args.iterations
    let b ← autoFind a 0 90 args.iterations
    let preS ← autoRegion a s kind
    let preB ← autoRegion a b kind
    cnrRegions a (natCentre s.centre) (natCentre b.centre) (.int (min s.radius b.radius : Nat)) kind preS preB
  else cnrRegions a args.signal args.background args.radius kind none none

/-- `cnr.py` 678-842 `contrast_to_noise_ratio` of a loaded image. -/
noncomputable def cnr (a : NDArray Rat) (args : CnrArgs) : Py ℝ :=
  match cnrSelect a args with
  | .error e => .error e
  | .ok (s, b) => cnrOf s.values b.values

/-! ### SNR -/

structure SnrArgs where
  /-- `None`: the object None -/
  center : Option (List NumArg)
  radius : NumArg
  regionType : String := "cubic"
  auto : Bool := false
  iterations : Int := 5
  lower : Rat := 90
  upper : Rat := 99
  yuv : Bool := true

/-- `misc.py` 42-48, rows and columns of the array `weights`. -/
def yuvWeights : List (List Rat) :=
  [[2126 / 10000, 7152 / 10000, 722 / 10000],
   [-9991 / 100000, -33609 / 100000, 436 / 1000],
   [615 / 1000, -55861 / 100000, -5639 / 100000]]

/-- Entry of `weights`. -/
def yuvWeight (row col : Nat) : Rat := (yuvWeights.getD row []).getD col 0

/-- `misc.py` 40-50 `_rgb_to_yuv`: `img @ weights`, channel `j` is the sum of `img[k] * weights[k, j]`. -/
def rgbToYuv (a : NDArray Rat) : NDArray Rat :=
  ⟨a.shape, fun idx =>
    let j := idx.getLast?.getD 0
    let p := idx.dropLast
    a.get (p ++ [0]) * yuvWeight 0 j + a.get (p ++ [1]) * yuvWeight 1 j + a.get (p ++ [2]) * yuvWeight 2 j⟩

/-- Values of the selected pixels of channel `i`. -/
def channelValues (r : Region Rat) (i : Nat) : List Rat :=
  ((indices r.arr.shape.dropLast).filter (fun p => r.sel (p ++ [i]))).map (fun p => r.arr.get (p ++ [i]))

/-- Result: a number together with the dictionary of parameters, or three numbers. -/
inductive SnrResult where
  | gray (v : ℝ)
  | colour (y u v : ℝ)

/-- One entry of the list in `snr.py` 1060-1063: zero for a constant channel; the deviation of a
channel without selected pixels is masked, which counts as false. -/
noncomputable def snrChannel (r : Region Rat) (i : Nat) : ℝ :=
  if channelValues r i = [] then 0
  else if varQ (channelValues r i) = 0 then 0
  else (meanQ (channelValues r 0) : ℝ) / stdQ (channelValues r i)

/-- `snr.py` 1020-1038: checks; the result is the centre and the radius. -/
def snrChecks (a : NDArray Rat) (center : Option (List NumArg)) (radius : NumArg) : Py (List Int × Int) :=
  match center with
  | none => .error (.typeError "'NoneType' object is not iterable")
  | some c => do
    checkBorder c radius
    let r ← checkRadius radius
    if a.ndim ≠ (if a.lastDim = 3 then c.length + 1 else c.length) then
      .error (.valueError "Center has to be in the same dimension as img.")
    else .ok (centreInts c, r)

/-- `snr.py` 1040-1124: calculation for the centre and radius that passed the checks. -/
noncomputable def snrCompute (a : NDArray Rat) (center : List Int) (r : Int) (kind : RKind) (yuv : Bool)
    (preset : Option (Region Rat)) : Py SnrResult :=
  if isColour a then
    match selectRegion (if yuv then rgbToYuv a else a) kind center r preset with
    | .error e => .error e
    | .ok reg =>
      if yuv then
        if reg.arr.size = 0 then .error .notANumber
        else .ok (.colour (snrChannel reg 0) (snrChannel reg 1) (snrChannel reg 2))
      -- lines 1066-1075: the recursive call takes a gray image of three columns for a colour image,
      else if a.shape.getD 1 0 = 3 then .error (.valueError "Center has to be in the same dimension as img.")
      -- and `np.float64` is applied to the pair it returns
      else .error (.typeError "float() argument must be a string or a real number, not 'dict'")
  else
    match selectRegion a kind center r preset with
    | .error e => .error e
    | .ok reg => match snrOf reg.values with
      | .error e => .error e
      | .ok v => .ok (.gray v)

/-- `snr.py` 862-1124 `signal_to_noise_ratio` of a loaded image. -/
noncomputable def snr (a : NDArray Rat) (args : SnrArgs) : Py SnrResult :=
  let kind := regionKind args.regionType
  if args.auto then do
    let l ← autoFind a args.lower args.upper args.iterations
    let pre ← autoRegion a l kind
    let (c, r) ← snrChecks a (some (natCentre l.centre)) (.int (l.radius : Nat))
    snrCompute a c r kind args.yuv pre
  else do
    let (c, r) ← snrChecks a args.center args.radius
    snrCompute a c r kind args.yuv none

/-! ### Arguments remembered by the metric -/

/-- A dictionary. -/
abbrev Dict (V : Type) := String → Option V

/-- `d.update(e)` -/
def Dict.update {V} (d e : Dict V) : Dict V := fun k => (e k).orElse (fun _ => d k)

/-- `{…}.issubset(d)` -/
def Dict.has {V} (d : Dict V) (keys : List String) : Bool := keys.all (fun k => (d k).isSome)

def cnrKeys : List String := ["signal_center", "background_center", "radius"]
def snrKeys : List String := ["signal_center", "radius"]

/-- `cnr.py` 126-138 and `snr.py` 132-144: the attribute `parameters` afterwards and the keyword
arguments of the calculation. -/
def regionKwargs {V} (keys : List String) (params kw : Dict V) : Py (Dict V × Dict V) :=
  if kw.has keys then .ok (params.update kw, kw)
  else if params.has keys then
    let kw' : Dict V := fun k => if k ∈ keys then params k else kw k
    .ok (params.update kw', kw')
  else .error (.valueError "No center or radius provided.")

/-- The attribute `parameters` after a sequence of calls; a call without regions raises and leaves
it unchanged. -/
def paramsAfter {V} (keys : List String) (params : Dict V) (calls : List (Dict V)) : Dict V :=
  calls.foldl (fun p kw => match regionKwargs keys p kw with
    | .ok (p', _) => p'
    | .error _ => p) params

/-- Values in the dictionary of SNR. -/
inductive NVal where
  | none
  | centre (c : List NumArg)
  | num (n : NumArg)
  | text (s : String)
  | flag (b : Bool)
  deriving DecidableEq, Repr

/-- Arguments of `signal_to_noise_ratio` for keyword arguments, as far as they are of the types the
widget saves. -/
def snrArgsOf (kw : Dict NVal) : SnrArgs where
  center := match kw "signal_center" with
    | some (.centre c) => some c
    | _ => Option.none
  radius := match kw "radius" with
    | some (.num n) => n
    | _ => .other
  regionType := match kw "region_type" with
    | some (.text s) => s
    | _ => "cubic"
  auto := match kw "auto_center" with
    | some (.flag b) => b
    | _ => false

/-- `snr.py` 110-148 `SNR.score`: the attribute `parameters` afterwards and the result. -/
noncomputable def snrScore (a : NDArray Rat) (params kw : Dict NVal) : Dict NVal × Py SnrResult :=
  match regionKwargs snrKeys params kw with
  | .error e => (params, .error e)
  | .ok (p, kw') => (p, snr a (snrArgsOf kw'))

/-- `snr.py` 407-448 `_save_values`: the saved entries (without the thresholds). -/
def snrSaved (regionType : String) (center : List NumArg) (radius : NumArg) : Dict NVal := fun k =>
  if regionType = "full" then
    if k = "region_type" then some (.text regionType)
    else if k = "auto_center" then some (.flag true)
    else if k = "signal_center" ∨ k = "radius" then some .none
    else Option.none
  else if regionType = "cubic" ∨ regionType = "spherical" then
    if k = "region_type" then some (.text regionType)
    else if k = "auto_center" then some (.flag false)
    else if k = "signal_center" then some (.centre center)
    else if k = "radius" then some (.num radius)
    else Option.none
  else
    if k = "region_type" then some (.text regionType)
    else if k = "auto_center" then some (.flag false)
    else if k = "signal_center" ∨ k = "radius" then some .none
    else Option.none

end Viqa
