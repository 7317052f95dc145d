import Verif.Model.Basic
import Mathlib.Analysis.SpecialFunctions.Log.Base
import Mathlib.Analysis.SpecialFunctions.Sqrt

/-!
Model of `src/viqa/fr_metrics/rmse.py` and `src/viqa/fr_metrics/psnr.py`, including the two
scikit-image functions they call. Pixels are real numbers: scikit-image converts both images to
floating point first, so no integer arithmetic takes place.
-/

namespace Viqa

/-- `skimage.metrics.mean_squared_error`: ValueError for different shapes, mean of the squared
differences otherwise; the mean of no pixels is not a number. -/
noncomputable def meanSquaredError (a b : NDArray ℝ) : Py ℝ :=
  if a.shape ≠ b.shape then .error (.valueError "Input images must have the same dimensions.")
  else if a.size = 0 then .error .notANumber
  else .ok (((indices a.shape).map (fun i => (a.get i - b.get i) ^ 2)).sum / a.size)

/-- `rmse.py` 114: `np.sqrt(mean_squared_error(img_r, img_m))`. -/
noncomputable def rmse (a b : NDArray ℝ) : Py ℝ :=
  match meanSquaredError a b with
  | .error e => .error e
  | .ok v => .ok (Real.sqrt v)

/-- A PSNR value: a number or (minus) infinity. -/
inductive Psnr where
  | infinite
  | minusInfinite
  | finite (v : ℝ)

/-- `np.array_equal`: same shape and all pixels equal. -/
def arrayEqual (a b : NDArray ℝ) : Prop :=
  a.shape = b.shape ∧ ∀ i ∈ indices a.shape, a.get i = b.get i

open Classical in
/-- `psnr.py` 95-147: infinite for equal arrays, otherwise
`skimage.metrics.peak_signal_noise_ratio`, which is `10 * log10(data_range ** 2 / err)`
(minus infinity for data range zero). -/
noncomputable def psnr (dataRange : ℝ) (a b : NDArray ℝ) : Py Psnr :=
  if arrayEqual a b then .ok .infinite
  else match meanSquaredError a b with
    | .error e => .error e
    | .ok err => if dataRange ^ 2 / err = 0 then .ok .minusInfinite
        else .ok (.finite (10 * Real.logb 10 (dataRange ^ 2 / err)))

/-- `psnr.py` 86-93 `PSNR.__init__`: data range that the calculation uses. -/
def psnrInit (dataRange : Option ℝ) : Py ℝ :=
  match dataRange with
  | none => .error (.valueError "Parameter data_range must be set.")
  | some d => .ok d

end Viqa
