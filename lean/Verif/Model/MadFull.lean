import Verif.Model.Gabor
import Verif.Model.Csf
import Verif.Model.Noise
import Mathlib.Analysis.SpecialFunctions.Trigonometric.Basic

/-!
Model of `most_apparent_distortion` (mad.py 345-534) as a whole: its keyword arguments, `_high_quality`
(537-703) from the pixels on, `_low_quality` (706-805) and the combination. The functions of the C extension
and the window of `scipy.ndimage.convolve` are parameters; the theorems hold for all of them. Real arithmetic.
-/

namespace Viqa

/-! ### Keyword arguments -/

/-- The keyword arguments read by `_high_quality` and `_low_quality`; `none`: not given. -/
structure MadKwargs where
  accountMonitor : Option Bool
  display : Option (Dict ℝ)
  csf : Option (Dict ℝ)
  luminance : Option (Dict ℝ)
  msScale : Option ℝ
  orientations : Option Nat
  scales : Option Nat
  weights : Option (List ℝ)

/-- No keyword argument. -/
def noKwargs : MadKwargs := ⟨none, none, none, none, none, none, none, none⟩

/-- A dictionary literal. -/
def dictOf {V : Type} : List (String × V) → Dict V
  | [] => fun _ => none
  | (k, v) :: l => fun x => if x = k then some v else dictOf l x

/-- `d[key]`. -/
def paramGet {V : Type} (d : Dict V) (key : String) : Py V :=
  match d key with
  | some v => .ok v
  | none => .error (.keyError key)

/-- mad.py 571-585: cycles per degree. -/
noncomputable def cyclesPerDegree (kw : MadKwargs) : Py ℝ :=
  if kw.accountMonitor.getD false then
    match kw.display with
    | none => .error (.valueError "If account_monitor is True, display_function must be given.")
    | some d =>
      match paramGet d "disp_res", paramGet d "view_dis" with
      | .error e, _ => .error e
      | _, .error e => .error e
      | .ok res, .ok dis => .ok (res * dis * Real.tan (Real.pi / 180) / 2)
  else .ok 32

/-- mad.py 587-595: the parameters of the contrast sensitivity function. -/
noncomputable def csfParams (kw : MadKwargs) : Py (ℝ × ℝ) :=
  let d := kw.csf.getD (dictOf [("lambda_csf", 0.114), ("f_peak", 7.8909)])
  match paramGet d "lambda_csf", paramGet d "f_peak" with
  | .error e, _ => .error e
  | _, .error e => .error e
  | .ok l, .ok f => .ok (l, f)

open Classical in
/-- mad.py 598-602 and 808-814: the dictionary is passed as keyword arguments, so the defaults of the
signature complete it, and a name that is not in the signature, or is given already, is refused. -/
noncomputable def luminanceParams (kw : MadKwargs) : Py (ℝ × ℝ × ℝ) :=
  let d := kw.luminance.getD (dictOf [("k", 0.02874), ("gamma", 2.2)])
  if ∃ key, key ≠ "b" ∧ key ≠ "k" ∧ key ≠ "gamma" ∧ d key ≠ none then
    .error (.typeError "_pixel_to_lightness() got an unexpected keyword argument")
  else .ok ((d "b").getD 0, (d "k").getD 0.02874, (d "gamma").getD 2.2)

/-! ### Pixels -/

/-- The pixels of an image: integers, or floating point numbers. -/
inductive MadPixels where
  | ints (get : Nat → Nat → Int)
  | floats (get : Nat → Nat → ℝ)

/-- The pixels as numbers, as the Fourier transform of `gabor_convolve` and `_to_float` see them. -/
def MadPixels.value : MadPixels → Nat → Nat → ℝ
  | .ints g => fun p q => (g p q : ℝ)
  | .floats g => g

/-- `x ** e` is not a number: a negative number to a broken exponent, or infinite: zero to a negative one. -/
def powFails (x e : ℝ) : Prop := (x < 0 ∧ ¬ ∃ n : ℤ, e = n) ∨ (x = 0 ∧ e < 0)

open Classical in
/-- mad.py 838-846 at one pixel. An integer is looked up in the table, whose first entry is that of zero. -/
noncomputable def pixelLightness (b k gamma : ℝ) (dr : Nat) (x : MadPixels) (p q : Nat) : Py ℝ :=
  match x with
  | .ints g => match pyIndex (dr + 1) (g p q) with
    | .error e => .error e
    | .ok j => if powFails j (gamma / 3) then .error .notANumber else lightnessInt b k gamma dr (g p q)
  | .floats g => if powFails (g p q) (gamma / 3) then .error .notANumber else .ok (lightness b k gamma (g p q))

open Classical in
/-- mad.py 808-846 for a whole image: an integer that is not in the table makes the look-up fail. `none`: some
pixel is not a number, which makes the Fourier transform useless. Only pixels of the image matter. -/
noncomputable def lightnessMap (M N : Nat) (b k gamma : ℝ) (dr : Nat) (x : MadPixels) :
    Py (Option (Nat → Nat → ℝ)) :=
  if ∃ p q, p < M ∧ q < N ∧ pixelLightness b k gamma dr x p q = .error .indexError then .error .indexError
  else if ∃ p q, p < M ∧ q < N ∧ pixelLightness b k gamma dr x p q = .error .notANumber then .ok none
  else .ok (some (fun p q => if p < M ∧ q < N then
    match pixelLightness b k gamma dr x p q with
    | .ok v => v
    | .error _ => 0
    else 0))

/-- `_fft` (misc.py 195-197). -/
noncomputable def shiftedFft (M N : Nat) (x : Nat → Nat → ℝ) (u v : Nat) : ℂ :=
  dft2 M N (fun p q => (x p q : ℂ)) (fftshiftSource M u) (fftshiftSource N v)

/-- `_ifft` (misc.py 200-202). -/
noncomputable def shiftedIfft (M N : Nat) (X : Nat → Nat → ℂ) : Nat → Nat → ℂ :=
  idft2 M N (fun k l => X (ifftshiftSource M k) (ifftshiftSource N l))

/-- mad.py 605-609: an image filtered by the contrast sensitivity function. -/
noncomputable def csfFiltered (M N : Nat) (csf : Nat → Nat → ℝ) (lum : Nat → Nat → ℝ) (p q : Nat) : ℝ :=
  (shiftedIfft M N (fun u v => (csf u v : ℂ) * shiftedFft M N lum u v) p q).re

/-- A two-dimensional array. -/
def array2 {α : Type} (M N : Nat) (f : Nat → Nat → α) : NDArray α :=
  ⟨[M, N], fun i => f (i.getD 0 0) (i.getD 1 0)⟩

/-! ### The two components and the score -/

/-- The parts of other libraries: `statisticscalc.minstd` and `statisticscalc.getstatistics` of an array with
`M` rows and `N` columns, block size and stride, and the pixels of the window of `convolve` at a position. -/
structure MadLibs where
  minstd : Nat → Nat → Nat → Nat → (Nat → Nat → ℝ) → Nat → Nat → NF
  getstatistics : Nat → Nat → Nat → Nat → (Nat → Nat → ℝ) → Nat → Nat → ℝ × ℝ × ℝ
  window : Nat → Nat → Nat → Nat → Nat → List (Nat × Nat)

/-- The code goes on with values that are not a number: only an exception can still prevent such a result. -/
def thenNaN {α : Type} (x : Py α) : Py α :=
  match x with
  | .error e => .error e
  | .ok _ => .error .notANumber

/-- mad.py 904-908 and 688: the weights are not numbers for a negative `lambda_csf` (if a frequency lies above the
peak), the mask is not for a scale of zero. -/
noncomputable def nanWeights (M N : Nat) (cpd lam fpeak msScale : ℝ) : Prop :=
  (lam < 0 ∧ ∃ i j, i < M ∧ j < N ∧ fpeak ≤ csfRadius (csfPlane M N cpd i j) ∧ csfRadius (csfPlane M N cpd i j) ≠ 0) ∨
    msScale = 0

open Classical in
/-- mad.py 537-703 for images of `M` rows and `N` columns, block size `bs` and stride `s`. -/
noncomputable def detection (L : MadLibs) (M N bs s dr : Nat) (kw : MadKwargs) (r m : MadPixels) : Py ℝ :=
  match cyclesPerDegree kw with
  | .error e => .error e
  | .ok cpd =>
  match csfParams kw with
  | .error e => .error e
  | .ok (lam, fpeak) =>
  match luminanceParams kw with
  | .error e => .error e
  | .ok (b, k, gamma) =>
  match lightnessMap M N b k gamma dr r, lightnessMap M N b k gamma dr m with
  | .error e, _ => .error e
  | _, .error e => .error e
  | .ok lumR, .ok lumM =>
    let csf := contrastSensitivity M N cpd lam fpeak
    let org := csfFiltered M N csf (lumR.getD 0)
    let dst := csfFiltered M N csf (lumM.getD 0)
    let index := highQuality (array2 M N org) (array2 M N (fun p q => dst p q - org p q)) (L.minstd M N bs s org)
      (localMse bs (L.window M N bs) (array2 M N r.value) (array2 M N m.value)) bs s (kw.msScale.getD 1)
    if lumR.isNone ∨ lumM.isNone ∨ nanWeights M N cpd lam fpeak (kw.msScale.getD 1) then thenNaN index else index

/-- mad.py 706-805. -/
noncomputable def appearance (L : MadLibs) (M N bs s : Nat) (kw : MadKwargs) (r m : MadPixels) : Py ℝ :=
  lowQuality M N bs (kw.scales.getD 5) (kw.orientations.getD 4) (kw.weights.getD [0.5, 0.75, 1, 5, 6])
    (L.getstatistics M N bs s) r.value m.value

/-- The arguments of `most_apparent_distortion` besides the images (mad.py 345-356). -/
structure MadCall where
  dataRange : Nat
  blockSize : Int
  overlap : Rat
  beta1 : ℝ
  beta2 : ℝ
  thresh1 : Option ℝ
  thresh2 : Option ℝ
  kw : MadKwargs

open Classical in
/-- mad.py 495-534 for two images of `M` rows and `N` columns. A detection index that is not a number does not keep
the appearance index from being computed. -/
noncomputable def mostApparentDistortion (L : MadLibs) (M N : Nat) (c : MadCall) (r m : MadPixels) : Py ℝ :=
  match madArgs M N c.blockSize c.overlap with
  | .error e => .error e
  | .ok (bs, s) =>
  match detection L M N bs s c.dataRange c.kw r m with
  | .error e => if e = .notANumber then thenNaN (appearance L M N bs s c.kw r m) else .error e
  | .ok d =>
  match appearance L M N bs s c.kw r m with
  | .error e => .error e
  | .ok a =>
    let p := madBetas c.beta1 c.beta2 c.thresh1 c.thresh2
    if d = 0 ∧ p.2.2 < 0 ∧ p.2.1 = 0 then .error .notANumber
    else .ok (madCombine p.2.1 p.2.2 d a)

end Viqa
