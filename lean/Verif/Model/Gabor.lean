import Verif.Model.Filters
import Verif.Model.Mad
import Mathlib.Analysis.SpecialFunctions.Complex.Arg
import Mathlib.Analysis.SpecialFunctions.Log.Basic
import Mathlib.Algebra.BigOperators.Group.Finset.Basic

/-!
Model of `gabor_convolve` (`utils/misc.py` 210-417) and of `_low_quality` (mad.py 706-805) over the reals and
the complex numbers. The frequency grids are the ones of `Model/Filters.lean`. The discrete Fourier transform
is written out; rounding is not modelled.
-/

namespace Viqa

/-- The parameters of `gabor_convolve` (misc.py 210-218). -/
structure GaborArgs where
  scales : Nat
  orientations : Nat
  minWavelength : ℝ
  scaling : ℝ
  bandwidth : ℝ
  thetaOnSigma : ℝ

/-- mad.py 748-765: the values `_low_quality` passes. -/
noncomputable def madGabor (scales orientations : Nat) : GaborArgs :=
  ⟨scales, orientations, 3, 3, 55 / 100, 3 / 2⟩

/-- `fft.fftn` of a two-dimensional array of shape `M, N`. -/
noncomputable def dft2 (M N : Nat) (x : Nat → Nat → ℂ) (k l : Nat) : ℂ :=
  ∑ p ∈ Finset.range M, ∑ q ∈ Finset.range N,
    x p q * (Complex.exp (-(2 * Real.pi * Complex.I / M)) ^ (k * p) *
      Complex.exp (-(2 * Real.pi * Complex.I / N)) ^ (l * q))

/-- `fft.ifftn` of a two-dimensional array of shape `M, N`. -/
noncomputable def idft2 (M N : Nat) (X : Nat → Nat → ℂ) (p q : Nat) : ℂ :=
  (∑ k ∈ Finset.range M, ∑ l ∈ Finset.range N,
    X k l * (Complex.exp (2 * Real.pi * Complex.I / M) ^ (k * p) *
      Complex.exp (2 * Real.pi * Complex.I / N) ^ (l * q))) / ((M : ℂ) * N)

/-- misc.py 329-332: wavelength of a scale. -/
noncomputable def gaborWavelength (a : GaborArgs) (s : Nat) : ℝ := a.minWavelength * a.scaling ^ s

/-- misc.py 359-360: distance from the centre; zero is replaced by one. -/
noncomputable def gaborRadius (y x : ℝ) : ℝ :=
  open Classical in if Real.sqrt (x ^ 2 + y ^ 2) = 0 then 1 else Real.sqrt (x ^ 2 + y ^ 2)

/-- misc.py 372-379: the radial component before the centre is set to zero. -/
noncomputable def gaborRadial (a : GaborArgs) (s : Nat) (y x : ℝ) : ℝ :=
  Real.exp ((Real.log (gaborRadius y x) - Real.log (1 / gaborWavelength a s / (1 / 2))) ^ 2 /
    -(2 * Real.log a.bandwidth ^ 2))

/-- `np.arctan2(y, x)`; the angle of the complex number `x + i y`, zero for `x = y = 0`. -/
noncomputable def arctan2 (y x : ℝ) : ℝ := Complex.arg ⟨x, y⟩

/-- misc.py 362-366, 393-403: the absolute angular distance to the orientation `o`. -/
noncomputable def gaborDistance (a : GaborArgs) (o : Nat) (y x : ℝ) : ℝ :=
  let theta := arctan2 (-y) x
  let angle := (o : ℝ) * Real.pi / a.orientations
  |arctan2 (Real.sin theta * Real.cos angle - Real.cos theta * Real.sin angle)
    (Real.cos theta * Real.cos angle + Real.sin theta * Real.sin angle)|

/-- misc.py 368, 404-406: the angular component. -/
noncomputable def gaborSpread (a : GaborArgs) (o : Nat) (y x : ℝ) : ℝ :=
  Real.exp (-(gaborDistance a o y x ^ 2) / (2 * (Real.pi / a.orientations / a.thetaOnSigma) ^ 2))

/-- misc.py 380, 411-412: the filter of one scale and orientation. -/
noncomputable def gaborGain (M N : Nat) (a : GaborArgs) (s o k l : Nat) : ℝ :=
  gaborFilter M N (fun y x => gaborRadial a s y x * gaborSpread a o y x) k l

/-- misc.py 335, 415: the response of one filter. -/
noncomputable def gaborBand (M N : Nat) (a : GaborArgs) (s o : Nat) (img : Nat → Nat → ℝ) : Nat → Nat → ℂ :=
  idft2 M N (fun k l => dft2 M N (fun p q => (img p q : ℂ)) k l * (gaborGain M N a s o k l : ℂ))

/-- mad.py 742-745: the weights divided by their sum; their number has to be the number of scales. A sum of
zero gives infinite or undefined weights, if there are any. -/
noncomputable def madWeights (scales : Nat) (weights : List ℝ) : Py (List ℝ) :=
  open Classical in
  if weights.length ≠ scales then .error (.valueError "weights must be of length scales_num")
  else if weights ≠ [] ∧ weights.sum = 0 then .error .notANumber
  else .ok (weights.map (· / weights.sum))

/-- mad.py 767-798: the bands of the two images with their weights, scale by scale. `stat` is
`statisticscalc.getstatistics` with the block size and stride. The decomposition of the distorted image is
called `gabor_org` and the one of the reference `gabor_dst`. -/
noncomputable def madBands (M N : Nat) (a : GaborArgs) (stat : (Nat → Nat → ℝ) → Nat → Nat → ℝ × ℝ × ℝ)
    (w : List ℝ) (r m : Nat → Nat → ℝ) : List (ℝ × (Nat → Nat → ℝ × ℝ × ℝ) × (Nat → Nat → ℝ × ℝ × ℝ)) :=
  (List.range a.scales).flatMap (fun s => (List.range a.orientations).map (fun o =>
    (w.getD s 0, stat (fun p q => ‖gaborBand M N a s o m p q‖), stat (fun p q => ‖gaborBand M N a s o r p q‖))))

/-- mad.py 706-805: the appearance index. The spread of the filters is divided by the number of orientations
(misc.py 369), after the weights have been checked. -/
noncomputable def lowQuality (M N bs scales orientations : Nat) (weights : List ℝ)
    (stat : (Nat → Nat → ℝ) → Nat → Nat → ℝ × ℝ × ℝ) (r m : Nat → Nat → ℝ) : Py ℝ :=
  if weights.length = scales ∧ orientations = 0 then .error .zeroDivisionError
  else match madWeights scales weights with
  | .error e => .error e
  | .ok w => appearIndex M N bs (madBands M N (madGabor scales orientations) stat w r m)

end Viqa
