import Verif.Model.NotANumber

/-!
Images with infinite pixels, as floating point volumes can contain them (a division by zero in the reconstruction or an
overflow of float32). `load_data` (`src/viqa/utils/loading.py`) does not look for them. The rules of IEEE 754 for infinities and nan; finite
results are exact, overflow is not modelled.
-/

namespace Viqa

namespace NF

/-- The value of a finite number. -/
def num : NF → Option ℝ
  | fin v => some v
  | _ => none

def neg : NF → NF
  | fin v => fin (-v)
  | nan => nan
  | pinf => ninf
  | ninf => pinf

/-- `a + b` -/
noncomputable def add : NF → NF → NF
  | fin a, fin b => fin (a + b)
  | nan, _ => nan
  | _, nan => nan
  | pinf, ninf => nan
  | ninf, pinf => nan
  | pinf, _ => pinf
  | ninf, _ => ninf
  | _, b => b

/-- `a - b` -/
noncomputable def sub (a b : NF) : NF := add a (neg b)

open Classical in
/-- An infinity, positive for `true`, times a number. -/
noncomputable def scale (s : Bool) (b : ℝ) : NF :=
  if b = 0 then nan else if (0 < b) = (s = true) then pinf else ninf

/-- `a * b` -/
noncomputable def mul : NF → NF → NF
  | fin a, fin b => fin (a * b)
  | nan, _ => nan
  | _, nan => nan
  | pinf, fin b => scale true b
  | ninf, fin b => scale false b
  | fin a, pinf => scale true a
  | fin a, ninf => scale false a
  | pinf, pinf => pinf
  | ninf, ninf => pinf
  | _, _ => ninf

open Classical in
/-- `a / b` -/
noncomputable def div : NF → NF → NF
  | fin a, fin b => npDiv a b
  | nan, _ => nan
  | _, nan => nan
  | pinf, fin b => if b < 0 then ninf else pinf
  | ninf, fin b => if b < 0 then pinf else ninf
  | fin _, _ => fin 0
  | _, _ => nan

open Classical in
/-- `np.sqrt` -/
noncomputable def sqrt : NF → NF
  | fin v => if v < 0 then nan else fin (Real.sqrt v)
  | pinf => pinf
  | _ => nan

open Classical in
/-- `np.minimum` -/
noncomputable def minimum : NF → NF → NF
  | nan, _ => nan
  | _, nan => nan
  | ninf, _ => ninf
  | _, ninf => ninf
  | pinf, b => b
  | a, pinf => a
  | fin a, fin b => fin (min a b)

open Classical in
/-- `np.maximum` -/
noncomputable def maximum : NF → NF → NF
  | nan, _ => nan
  | _, nan => nan
  | pinf, _ => pinf
  | _, pinf => pinf
  | ninf, b => b
  | a, ninf => a
  | fin a, fin b => fin (max a b)

/-- Sum of an array. -/
noncomputable def sum (l : List NF) : NF := l.foldr add (fin 0)

/-- Mean and standard deviation of an array that is not empty. -/
noncomputable def mean (l : List NF) : NF := div (sum l) (fin l.length)
noncomputable def std (l : List NF) : NF :=
  sqrt (mean (l.map (fun v => mul (sub v (mean l)) (sub v (mean l)))))

end NF

/-- `skimage.metrics.mean_squared_error` for images that are not empty. -/
noncomputable def meanSquaredErrorX (x y : NDArray NF) : Py NF :=
  if x.shape ≠ y.shape then .error (.valueError "Input images must have the same dimensions.")
  else if x.size = 0 then .ok .nan
  else .ok (NF.mean ((indices x.shape).map (fun i => NF.mul (NF.sub (x.get i) (y.get i)) (NF.sub (x.get i) (y.get i)))))

/-- rmse.py 114: `np.sqrt(mean_squared_error(img_r, img_m))`. -/
noncomputable def rmseX (x y : NDArray NF) : Py NF :=
  match meanSquaredErrorX x y with
  | .error e => .error e
  | .ok v => .ok (NF.sqrt v)

open Classical in
/-- `np.log10` -/
noncomputable def log10X : NF → NF
  | .fin v => if v < 0 then .nan else if v = 0 then .ninf else .fin (Real.logb 10 v)
  | .pinf => .pinf
  | _ => .nan

open Classical in
/-- psnr.py 113-130: `np.array_equal` is true for equal infinities. -/
noncomputable def psnrX (dataRange : ℝ) (x y : NDArray NF) : Py NF :=
  if x.shape = y.shape ∧ ∀ i ∈ indices x.shape, x.get i = y.get i ∧ x.get i ≠ .nan then .ok .pinf
  else match meanSquaredErrorX x y with
    | .error e => .error e
    | .ok err => .ok (NF.mul (.fin 10) (log10X (NF.div (.fin (dataRange ^ 2)) err)))

open Classical in
/-- snr.py 1095-1098, for the values of the region. -/
noncomputable def snrOfX (signal : List NF) : Py NF :=
  if signal = [] then .ok .nan
  else if NF.std signal = .fin 0 then .ok (.fin 0) else .ok (NF.div (NF.mean signal) (NF.std signal))

open Classical in
/-- cnr.py 833-838, for the values of the two regions. -/
noncomputable def cnrOfX (signal background : List NF) : Py NF :=
  if background = [] then .ok .nan
  else if NF.std background = .fin 0 then .ok (.fin 0)
  else if signal = [] then .ok .nan
  else .ok (NF.div (NF.sub (NF.mean signal) (NF.mean background)) (NF.std background))

/-- loading.py 856-880 for floating point images that are not empty: `normalize_data` to (0, 1). -/
noncomputable def normalizeUnitX (x : NDArray NF) : NDArray NF :=
  let mn := ((indices x.shape).map x.get).foldr NF.minimum .pinf
  let mx := ((indices x.shape).map x.get).foldr NF.maximum .ninf
  ⟨x.shape, fun i => NF.add (NF.div (NF.mul (NF.sub (x.get i) mn) (.fin (1 - 0))) (NF.sub mx mn)) (.fin 0)⟩

/-! ### SSIM -/

/-- The finite pixels, the others counted as nan. -/
def NDArray.nums (x : NDArray NF) : NDArray (Option ℝ) := ⟨x.shape, fun i => (x.get i).num⟩

/-- Value of the filtered array at position `p`: if an infinite pixel has been read (Model/NotANumber), the sum gives `bad`, which
is infinite or nan depending on the order of the additions. -/
noncomputable def Filter.applyX (bad : NDArray NF → List Nat → NF) (f : Filter) (running : Bool) (x : NDArray NF) (p : List Nat) : NF :=
  match f.applyN running x.nums p with
  | some v => .fin v
  | none => bad x p

/-- What is known of sums with an infinite summand: they are not finite, and not negative infinite if no summand is. -/
structure InfiniteSums (bad : NDArray NF → List Nat → NF) : Prop where
  notFinite : ∀ x p v, bad x p ≠ .fin v
  notNegative : ∀ x p, (∀ i, x.get i ≠ .ninf) → bad x p ≠ .ninf

/-- The mean of a line under a window of `size` pixels as `scipy.ndimage.uniform_filter1d` computes it: the difference of the
pixel that enters and the one that leaves is added. -/
noncomputable def runningMean (size : Nat) (line : Nat → NF) : Nat → NF
  | 0 => NF.div (NF.sum ((List.range size).map line)) (.fin size)
  | n + 1 => NF.add (runningMean size line n) (NF.div (NF.sub (line (n + size)) (line n)) (.fin size))

/-- A weighted sum, as `scipy.ndimage.correlate1d` computes it. -/
noncomputable def weightedSum (l : List (ℝ × NF)) : NF := NF.sum (l.map (fun p => NF.mul (.fin p.1) p.2))

/-- `img_r * img_m` -/
noncomputable def productX (x y : NDArray NF) : NDArray NF := NDArray.zip NF.mul x y

/-- ssim.py 384-391: `cov_norm * (uxy - ux * uy)` -/
noncomputable def covarianceX (norm : ℝ) (uxy ux uy : NF) : NF := NF.mul (.fin norm) (NF.sub uxy (NF.mul ux uy))

/-- ssim.py 397 -/
noncomputable def structureTermX (vx vy vxy : NF) (c3 : ℝ) : NF :=
  NF.div (NF.add vxy (.fin c3)) (NF.add (NF.mul (NF.sqrt vx) (NF.sqrt vy)) (.fin c3))

/-- ssim.py 402 -/
noncomputable def contrastTermX (vx vy : NF) (c2 : ℝ) : NF :=
  NF.div (NF.add (NF.mul (NF.mul (.fin 2) (NF.sqrt vx)) (NF.sqrt vy)) (.fin c2)) (NF.add (NF.add vx vy) (.fin c2))

/-- ssim.py 407 -/
noncomputable def luminanceTermX (ux uy : NF) (c1 : ℝ) : NF :=
  NF.div (NF.add (NF.mul (NF.mul (.fin 2) ux) uy) (.fin c1)) (NF.add (NF.add (NF.mul ux ux) (NF.mul uy uy)) (.fin c1))

/-- ssim.py 373-411: the index at one position. -/
noncomputable def ssimAtX (bad : NDArray NF → List Nat → NF) (big : ℝ) (f : Filter) (norm : ℝ) (dr : ℝ) (a : SsimArgs) (x y : NDArray NF)
    (p : List Nat) : Py ℝ :=
  let ux := f.applyX bad (!a.gaussian) x p
  let uy := f.applyX bad (!a.gaussian) y p
  let vx := covarianceX norm (f.applyX bad (!a.gaussian) (productX x x) p) ux ux
  let vy := covarianceX norm (f.applyX bad (!a.gaussian) (productX y y) p) uy uy
  let vxy := covarianceX norm (f.applyX bad (!a.gaussian) (productX x y) p) ux uy
  let c1 := (a.k1 * dr) ^ 2
  let c2 := (a.k2 * dr) ^ 2
  let c3 := c2 / 2
  let stru := nanToNum big (structureTermX vx vy vxy c3)
  let con := nanToNum big (contrastTermX vx vy c2)
  let lum := nanToNum big (luminanceTermX ux uy c1)
  match npPow lum a.alpha.cast, npPow con a.beta.cast, npPow stru a.gamma.cast with
  | .ok l, .ok c, .ok s => .ok (l * c * s)
  | _, _, _ => .error .notANumber

/-- `ssim.py` 200-421 `structural_similarity`. -/
noncomputable def structuralSimilarityX (bad : NDArray NF → List Nat → NF) (big : ℝ) (a : SsimArgs) (dr : ℝ) (x y : NDArray NF) : Py ℝ := by
  classical exact
  if a.k1 < 0 then .error (.valueError "K1 must be positive")
  else if a.k2 < 0 then .error (.valueError "K2 must be positive")
  else if a.sigma < 0 then .error (.valueError "sigma must be positive")
  else if x.shape.any (fun n => n < a.window) then .error (.valueError "win_size exceeds image extent.")
  else if a.window % 2 ≠ 1 then .error (.valueError "win_size must be odd.")
  else match covNorm a x.ndim with
    | .error e => .error e
    | .ok norm =>
      match (if a.gaussian ∧ a.sigma = 0 then .ok .reflect else borderMode a.mode) with
      | .error e => .error e
      | .ok m =>
        match allOk ((cropPositions ((a.window - 1) / 2) x.shape).map
            (ssimAtX bad big (a.filter m) norm dr a x y)) with
        | .error e => .error e
        | .ok l => meanList l

end Viqa
