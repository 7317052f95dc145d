import Verif.Model.Border
import Mathlib.Analysis.SpecialFunctions.Exp
import Mathlib.Analysis.SpecialFunctions.Sqrt
import Mathlib.Algebra.Order.Floor.Ring

/-!
Model of `src/viqa/fr_metrics/ssim.py` (`structural_similarity` and `SSIM.score`) and of
`src/viqa/fr_metrics/uqi.py`, with the SciPy filters they call. Real arithmetic: the conversion
to 32 bit floats (ssim.py 366-367) and rounding are not modelled.
-/

namespace Viqa

/-! ### Filters -/

/-- `-r, …, r`. -/
def offsets1 (r : Nat) : List Int := (List.range (2 * r + 1)).map (fun j : Nat => (j : Int) - (r : Int))

/-- All offsets of a window of radius `r` in `d` dimensions. -/
def offsets (r : Nat) : Nat → List (List Int)
  | 0 => [[]]
  | d + 1 => (offsets1 r).flatMap (fun o => (offsets r d).map (o :: ·))

/-- Weight of an offset for a separable filter. -/
def offsetWeight (k : Int → ℝ) (o : List Int) : ℝ := (o.map k).prod

/-- Normalized Gaussian weights (`scipy.ndimage._filters._gaussian_kernel1d`). -/
noncomputable def gaussWeight (σ : ℝ) (r : Nat) (o : Int) : ℝ :=
  Real.exp (-((o : ℝ) ^ 2) / (2 * σ ^ 2)) /
    ((offsets1 r).map (fun j : Int => Real.exp (-((j : ℝ) ^ 2) / (2 * σ ^ 2)))).sum

/-- Weights of `scipy.ndimage.uniform_filter`. -/
noncomputable def boxWeight (r : Nat) (_ : Int) : ℝ := 1 / (2 * r + 1 : Nat)

/-- A separable filter: radius and weights. -/
structure Filter where
  radius : Nat
  weight : Int → ℝ
  mode : BorderMode
  cval : ℝ

/-- Value of an array at a possibly outside position. -/
noncomputable def sample (f : Filter) (x : NDArray ℝ) (p : List Int) : ℝ :=
  match extendIndices f.mode x.shape p with
  | some i => x.get i
  | none => f.cval

/-- Position plus offset. -/
def shiftIndex (p : List Nat) (o : List Int) : List Int := List.zipWith (fun (a : Nat) (b : Int) => (a : Int) + b) p o

/-- Value of the filtered array at position `p`. -/
noncomputable def Filter.apply (f : Filter) (x : NDArray ℝ) (p : List Nat) : ℝ :=
  ((offsets f.radius x.ndim).map (fun o => offsetWeight f.weight o * sample f x (shiftIndex p o))).sum

/-! ### The index -/

/-- Result of a floating point division. -/
inductive NF where
  | fin (v : ℝ) | nan | pinf | ninf

open Classical in
/-- Division of real numbers with IEEE results for the divisor zero. -/
noncomputable def npDiv (a b : ℝ) : NF :=
  if b = 0 then (if a = 0 then .nan else if 0 < a then .pinf else .ninf) else .fin (a / b)

/-- `np.nan_to_num(x, nan=1.0)`: infinities become the largest finite number `big`. -/
def nanToNum (big : ℝ) : NF → ℝ
  | .fin v => v
  | .nan => 1
  | .pinf => big
  | .ninf => -big

open Classical in
/-- ssim.py 397: `(vxy + c_3) / (np.sqrt(vx) * np.sqrt(vy) + c_3)`; the square root of a negative
number is nan. -/
noncomputable def structureTerm (vx vy vxy c3 : ℝ) : NF :=
  if vx < 0 ∨ vy < 0 then .nan else npDiv (vxy + c3) (Real.sqrt vx * Real.sqrt vy + c3)

open Classical in
/-- ssim.py 402: `(2 * np.sqrt(vx) * np.sqrt(vy) + c_2) / (vx + vy + c_2)`. -/
noncomputable def contrastTerm (vx vy c2 : ℝ) : NF :=
  if vx < 0 ∨ vy < 0 then .nan else npDiv (2 * Real.sqrt vx * Real.sqrt vy + c2) (vx + vy + c2)

/-- ssim.py 407: `(2 * ux * uy + c_1) / (ux**2 + uy**2 + c_1)`. -/
noncomputable def luminanceTerm (ux uy c1 : ℝ) : NF :=
  npDiv (2 * ux * uy + c1) (ux ^ 2 + uy ^ 2 + c1)

open Classical in
/-- `x ** k` for an integer exponent; zero to a negative power is infinite. -/
noncomputable def npPow (x : ℝ) (k : Int) : Py ℝ :=
  if x = 0 ∧ k < 0 then .error .notANumber else .ok (x ^ k)

/-- An exponent argument: Python int or another number. -/
inductive ExpArg where
  | int (k : Int)
  | float (r : ℝ)

/-- ssim.py 355-363: numbers that are not `int` are cast (truncated), with a warning. -/
noncomputable def ExpArg.cast : ExpArg → Int
  | .int k => k
  | .float r => if 0 ≤ r then ⌊r⌋ else ⌈r⌉

def ExpArg.warns : ExpArg → Bool
  | .int _ => false
  | .float _ => true

/-- Keyword arguments of `structural_similarity` (ssim.py 200-210 and the popped ones). Negative
window sizes are not modelled. -/
structure SsimArgs where
  winSize : Option Nat := none
  gaussian : Bool := true
  alpha : ExpArg := .int 1
  beta : ExpArg := .int 1
  gamma : ExpArg := .int 1
  k1 : ℝ := 1 / 100
  k2 : ℝ := 3 / 100
  sigma : ℝ := 3 / 2
  mode : String := "reflect"
  cval : ℝ := 0

/-- ssim.py 324: `int(truncate * sigma + 0.5)` with `truncate = 3.5`. -/
noncomputable def gaussRadius (σ : ℝ) : Nat := ⌊(7 / 2 : ℝ) * σ + 1 / 2⌋₊

/-- ssim.py 321-328: the window size. -/
noncomputable def SsimArgs.window (a : SsimArgs) : Nat :=
  match a.winSize with
  | some w => w
  | none => if a.gaussian then 2 * gaussRadius a.sigma + 1 else 7

/-- ssim.py 369-371: `cov_norm`; ZeroDivisionError for a window of one pixel. -/
noncomputable def covNorm (a : SsimArgs) (ndim : Nat) : Py ℝ :=
  if a.gaussian ∧ a.winSize = none then .ok 1
  else
    let n := a.window ^ ndim
    if n = 1 then .error .zeroDivisionError else .ok ((n : ℝ) / ((n : ℝ) - 1))

/-- ssim.py 348-353: the filter. -/
noncomputable def SsimArgs.filter (a : SsimArgs) (m : BorderMode) : Filter :=
  if a.gaussian then ⟨gaussRadius a.sigma, gaussWeight a.sigma (gaussRadius a.sigma), m, a.cval⟩
  else ⟨(a.window - 1) / 2, boxWeight ((a.window - 1) / 2), m, a.cval⟩

/-- ssim.py 373-411: the index at one position. -/
noncomputable def ssimAt (big : ℝ) (f : Filter) (norm : ℝ) (dr : ℝ) (a : SsimArgs) (x y : NDArray ℝ)
    (p : List Nat) : Py ℝ :=
  let ux := f.apply x p
  let uy := f.apply y p
  let uxx := f.apply (NDArray.zip (· * ·) x x) p
  let uyy := f.apply (NDArray.zip (· * ·) y y) p
  let uxy := f.apply (NDArray.zip (· * ·) x y) p
  let vx := norm * (uxx - ux * ux)
  let vy := norm * (uyy - uy * uy)
  let vxy := norm * (uxy - ux * uy)
  let c1 := (a.k1 * dr) ^ 2
  let c2 := (a.k2 * dr) ^ 2
  let c3 := c2 / 2
  let stru := nanToNum big (structureTerm vx vy vxy c3)
  let con := nanToNum big (contrastTerm vx vy c2)
  let lum := nanToNum big (luminanceTerm ux uy c1)
  match npPow lum a.alpha.cast, npPow con a.beta.cast, npPow stru a.gamma.cast with
  | .ok l, .ok c, .ok s => .ok (l * c * s)
  | _, _, _ => .error .notANumber

/-- `crop(ssim, pad)`: the positions that remain. -/
def cropPositions (pad : Nat) (shape : List Nat) : List (List Nat) :=
  (indices (shape.map (fun n => n - pad - pad))).map (fun p => p.map (· + pad))

/-- All results of a list of computations, or the first exception. -/
def allOk {α} : List (Py α) → Py (List α)
  | [] => .ok []
  | .error e :: _ => .error e
  | .ok a :: l => match allOk l with
    | .error e => .error e
    | .ok as => .ok (a :: as)

/-- Mean of a list; the mean of nothing is not a number. -/
noncomputable def meanList (l : List ℝ) : Py ℝ :=
  if l.length = 0 then .error .notANumber else .ok (l.sum / l.length)

/-- `ssim.py` 200-421 `structural_similarity`. Both images have the same shape
(guaranteed by `load_images`). `big` is the largest 32 bit float. The mode name is looked at
only when a filter runs (SciPy skips axes with σ = 0). -/
noncomputable def structuralSimilarity (big : ℝ) (a : SsimArgs) (dr : ℝ) (x y : NDArray ℝ) : Py ℝ := by
  classical exact
  if a.k1 < 0 then .error (.valueError "K1 must be positive")
  else if a.k2 < 0 then .error (.valueError "K2 must be positive")
  else if a.sigma < 0 then .error (.valueError "sigma must be positive")
  else if x.shape.any (fun n => n < a.window) then .error (.valueError "win_size exceeds image extent.")
  else if a.window % 2 ≠ 1 then .error (.valueError "win_size must be odd.")
  else match covNorm a x.ndim with
    | .error e => .error e
    | .ok norm =>
      match (if a.gaussian ∧ a.sigma = 0 then .ok .reflect else borderMode a.mode) with
      | .error e => .error e
      | .ok m =>
        match allOk ((cropPositions ((a.window - 1) / 2) x.shape).map
            (ssimAt big (a.filter m) norm dr a x y)) with
        | .error e => .error e
        | .ok l => meanList l

/-- Keyword arguments as the caller writes them: a name and a number. Only `K1`, `K2`, `sigma` and
`cval` are looked up (ssim.py 306-308, 345-346); unknown names are ignored. -/
noncomputable def withKwargs (a : SsimArgs) (kw : List (String × ℝ)) : SsimArgs :=
  { a with
    k1 := ((kw.find? (fun e => e.1 = "K1")).map Prod.snd).getD (1 / 100)
    k2 := ((kw.find? (fun e => e.1 = "K2")).map Prod.snd).getD (3 / 100)
    sigma := ((kw.find? (fun e => e.1 = "sigma")).map Prod.snd).getD (3 / 2)
    cval := ((kw.find? (fun e => e.1 = "cval")).map Prod.snd).getD 0 }

/-- `uqi.py` 152-163: the call of `structural_similarity` by `UQI.score`. -/
noncomputable def uqi (big dr : ℝ) (winSize : Option Nat) (x y : NDArray ℝ) : Py ℝ :=
  structuralSimilarity big
    (withKwargs { gaussian := false, alpha := .int 1, beta := .int 1, gamma := .int 1, winSize := winSize }
      [("k_1", 0), ("k_2", 0)]) dr x y

/-- One channel of a colour image: `img[..., c]`. -/
def channel (x : NDArray ℝ) (c : Nat) : NDArray ℝ := ⟨x.shape.dropLast, fun i => x.get (i ++ [c])⟩

/-- `ssim.py` 159-179: `SSIM.score` after loading, for gray and for colour images. The mean of the
weighted channel scores is taken. -/
noncomputable def ssimScore (big : ℝ) (a : SsimArgs) (dr : ℝ) (chromatic : Bool) (weights : Option (List ℝ))
    (x y : NDArray ℝ) : Py ℝ :=
  if chromatic then
    match weights with
    | none => .error (.valueError "Color weights must be set for chromatic images.")
    | some w =>
      match allOk ((List.range x.lastDim).map
          (fun c => structuralSimilarity big a dr (channel x c) (channel y c))) with
      | .error e => .error e
      | .ok scores =>
        if w.length ≠ scores.length ∧ w.length ≠ 1 ∧ scores.length ≠ 1 then
          .error (.valueError "operands could not be broadcast together")
        else if w.length = scores.length then meanList (List.zipWith (· * ·) w scores)
        else if w.length = 1 then meanList (scores.map (fun s => w.getD 0 0 * s))
        else meanList (w.map (fun c => c * scores.getD 0 0))
  else structuralSimilarity big a dr x y

end Viqa
