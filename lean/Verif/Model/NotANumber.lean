import Verif.Model.Ssim
import Verif.Model.Distance
import Verif.Model.Noise

/-!
Images with pixels that are not a number (nan), as floating point volumes can contain them. `none` is nan. `load_data`
(`src/viqa/utils/loading.py`) does not look for such pixels, they reach the metrics. Operations with nan give nan.
-/

namespace Viqa

/-- `a + b` -/
def nanAdd (a b : Option ℝ) : Option ℝ :=
  match a, b with
  | some a, some b => some (a + b)
  | _, _ => none

/-- Sum of an array. -/
def nanSum (l : List (Option ℝ)) : Option ℝ := l.foldr nanAdd (some 0)

/-- `(a - b) ** 2` -/
def nanSquaredDifference (a b : Option ℝ) : Option ℝ :=
  match a, b with
  | some a, some b => some ((a - b) ^ 2)
  | _, _ => none

/-- `skimage.metrics.mean_squared_error`; the result is a number or nan. -/
noncomputable def meanSquaredErrorN (x y : NDArray (Option ℝ)) : Py (Option ℝ) :=
  if x.shape ≠ y.shape then .error (.valueError "Input images must have the same dimensions.")
  else if x.size = 0 then .ok none
  else .ok ((nanSum ((indices x.shape).map (fun i => nanSquaredDifference (x.get i) (y.get i)))).map (· / x.size))

/-- rmse.py 114: `np.sqrt(mean_squared_error(img_r, img_m))`. -/
noncomputable def rmseN (x y : NDArray (Option ℝ)) : Py (Option ℝ) :=
  match meanSquaredErrorN x y with
  | .error e => .error e
  | .ok v => .ok (v.map Real.sqrt)

open Classical in
/-- psnr.py 95-147; `np.array_equal` is false if there is a nan, also at the same position of both arrays. -/
noncomputable def psnrN (dataRange : ℝ) (x y : NDArray (Option ℝ)) : Py (Option Psnr) :=
  if x.shape = y.shape ∧ ∀ i ∈ indices x.shape, ∃ v, x.get i = some v ∧ y.get i = some v then .ok (some .infinite)
  else match meanSquaredErrorN x y with
    | .error e => .error e
    | .ok none => .ok none
    | .ok (some err) => if dataRange ^ 2 / err = 0 then .ok (some .minusInfinite)
        else .ok (some (.finite (10 * Real.logb 10 (dataRange ^ 2 / err))))

/-! ### SSIM

`scipy.ndimage.gaussian_filter` multiplies every pixel of the window with its weight and adds, so that a window with a nan
gives nan. `uniform_filter` keeps a running sum along each axis (`NI_UniformFilter1D`: the next pixel is added, the last one
subtracted), in which a nan stays until the end of the line. -/

/-- Offsets, from the position `p`, of all pixels that have entered the running sums: along each axis from the first pixel (of the
line that is continued by the radius) to the end of the window. -/
def runningOffsets (r : Nat) : List Nat → List (List Int)
  | [] => [[]]
  | i :: p => ((List.range (i + 2 * r + 1)).map (fun k : Nat => (k : Int) - r - i)).flatMap (fun o => (runningOffsets r p).map (o :: ·))

/-- The pixels that the value at `p` depends on as far as nan is concerned; filters of size one are skipped by SciPy. -/
def Filter.readOffsets (f : Filter) (running : Bool) (d : Nat) (p : List Nat) : List (List Int) :=
  if running ∧ f.radius ≠ 0 then runningOffsets f.radius p else offsets f.radius d

/-- Value of an array at a possibly outside position. -/
def sampleN (f : Filter) (x : NDArray (Option ℝ)) (p : List Int) : Option ℝ :=
  match extendIndices f.mode x.shape p with
  | some i => x.get i
  | none => some f.cval

/-- Value of the filtered array at position `p`. -/
noncomputable def Filter.applyN (f : Filter) (running : Bool) (x : NDArray (Option ℝ)) (p : List Nat) : Option ℝ :=
  if (f.readOffsets running x.ndim p).any (fun o => (sampleN f x (shiftIndex p o)).isNone) then none
  else some (f.apply ⟨x.shape, fun i => (x.get i).getD 0⟩ p)

/-- `img_r * img_m` -/
def nanProduct (x y : NDArray (Option ℝ)) : NDArray (Option ℝ) :=
  NDArray.zip (fun a b => match a, b with | some a, some b => some (a * b) | _, _ => none) x y

/-- ssim.py 384-391: `cov_norm * (uxy - ux * uy)` -/
def nanCovariance (norm : ℝ) (uxy ux uy : Option ℝ) : Option ℝ :=
  match uxy, ux, uy with
  | some uxy, some ux, some uy => some (norm * (uxy - ux * uy))
  | _, _, _ => none

/-- ssim.py 373-411: the index at one position. -/
noncomputable def ssimAtN (big : ℝ) (f : Filter) (norm : ℝ) (dr : ℝ) (a : SsimArgs) (x y : NDArray (Option ℝ)) (p : List Nat) : Py ℝ :=
  let ux := f.applyN (!a.gaussian) x p
  let uy := f.applyN (!a.gaussian) y p
  let vx := nanCovariance norm (f.applyN (!a.gaussian) (nanProduct x x) p) ux ux
  let vy := nanCovariance norm (f.applyN (!a.gaussian) (nanProduct y y) p) uy uy
  let vxy := nanCovariance norm (f.applyN (!a.gaussian) (nanProduct x y) p) ux uy
  let c1 := (a.k1 * dr) ^ 2
  let c2 := (a.k2 * dr) ^ 2
  let c3 := c2 / 2
  let stru := nanToNum big (match vx, vy, vxy with
    | some vx, some vy, some vxy => structureTerm vx vy vxy c3
    | _, _, _ => .nan)
  let con := nanToNum big (match vx, vy with
    | some vx, some vy => contrastTerm vx vy c2
    | _, _ => .nan)
  let lum := nanToNum big (match ux, uy with
    | some ux, some uy => luminanceTerm ux uy c1
    | _, _ => .nan)
  match npPow lum a.alpha.cast, npPow con a.beta.cast, npPow stru a.gamma.cast with
  | .ok l, .ok c, .ok s => .ok (l * c * s)
  | _, _, _ => .error .notANumber

/-- `ssim.py` 200-421 `structural_similarity`. -/
noncomputable def structuralSimilarityN (big : ℝ) (a : SsimArgs) (dr : ℝ) (x y : NDArray (Option ℝ)) : Py ℝ := by
  classical exact
  if a.k1 < 0 then .error (.valueError "K1 must be positive")
  else if a.k2 < 0 then .error (.valueError "K2 must be positive")
  else if a.sigma < 0 then .error (.valueError "sigma must be positive")
  else if x.shape.any (fun n => n < a.window) then .error (.valueError "win_size exceeds image extent.")
  else if a.window % 2 ≠ 1 then .error (.valueError "win_size must be odd.")
  else match covNorm a x.ndim with
    | .error e => .error e
    | .ok norm =>
      match (if a.gaussian ∧ a.sigma = 0 then .ok .reflect else borderMode a.mode) with
      | .error e => .error e
      | .ok m =>
        match allOk ((cropPositions ((a.window - 1) / 2) x.shape).map
            (ssimAtN big (a.filter m) norm dr a x y)) with
        | .error e => .error e
        | .ok l => meanList l

/-! ### SNR and CNR -/

/-- The numbers, if there is no nan. -/
def allNumbers : List (Option Rat) → Option (List Rat)
  | [] => some []
  | none :: _ => none
  | some v :: l => (allNumbers l).map (v :: ·)

/-- cnr.py 833-838, for the values of the two regions: `np.std(background) == 0` is false for nan. -/
noncomputable def cnrOfN (signal background : List (Option Rat)) : Py (Option ℝ) :=
  match allNumbers background with
  | none => .ok none
  | some b =>
    if b = [] then .ok none
    else if varQ b = 0 then .ok (some 0)
    else match allNumbers signal with
      | none => .ok none
      | some s => if s = [] then .ok none else .ok (some (((meanQ s - meanQ b : Rat) : ℝ) / stdQ b))

/-- snr.py 1095-1098, for the values of the region. -/
noncomputable def snrOfN (signal : List (Option Rat)) : Py (Option ℝ) :=
  match allNumbers signal with
  | none => .ok none
  | some s => if s = [] then .ok none
      else if varQ s = 0 then .ok (some 0) else .ok (some ((meanQ s : ℝ) / stdQ s))

end Viqa
