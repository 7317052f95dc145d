import Verif.Model.Keywords
import Verif.Model.Batch

/-!
Model of the two notebooks `notebooks/Image_Comparison.ipynb` (cells are numbered from 0) and
`notebooks/Image_Comparison_batch.ipynb`: the metrics chosen by the flags `calc_*`, the keywords in the dictionaries
`*_calc_parameters` and the cells before the calculation that use the loaded images. Values of the parameters are not
modelled here.
-/

namespace Viqa

/-- Which notebook. -/
inductive NotebookKind where
  | single | batch
  deriving DecidableEq, Repr

/-- The order in which the metrics are appended: `Image_Comparison.ipynb` cell 43,
`Image_Comparison_batch.ipynb` cells 12, 17, 20, …, 47. -/
def notebookOrder : NotebookKind → List MetricClass
  | .single => [.psnr, .rmse, .ssim, .msssim, .fsim, .vif, .vsi, .mad, .gsm, .cnr, .snr, .qmeasure]
  | .batch => [.cnr, .snr, .psnr, .rmse, .ssim, .msssim, .fsim, .vif, .vsi, .mad, .gsm, .qmeasure]

/-- The flags `calc_*` as delivered (cell 4 of both). There is no flag for UQI. -/
def notebookDefaults : MetricClass → Bool
  | .psnr | .rmse | .ssim | .fsim | .cnr | .snr | .qmeasure => true
  | _ => false

/-- The metrics for given flags. -/
def notebookChosen (k : NotebookKind) (flags : MetricClass → Bool) : List MetricClass :=
  (notebookOrder k).filter flags

/-- The keywords of `*_calc_parameters`: `Image_Comparison.ipynb` cells 17, 20, …, 41,
`Image_Comparison_batch.ipynb` cells 10, 15, …, 46. -/
def notebookKeywords (k : NotebookKind) : MetricClass → List String
  | .psnr | .rmse | .uqi => []
  | .ssim => ["gaussian_weights", "use_sample_covariance", "sigma", "alpha", "beta", "gamma"]
  | .msssim | .fsim | .vsi => ["dim"]
  | .vif => ["dim", "sigma_n_sq"]
  | .mad => ["dim", "block_size", "block_overlap", "beta_1", "beta_2", "luminance_function", "orientations_num",
      "scales_num", "weights"]
  | .gsm => ["dim", "experimental", "c", "p"]
  | .cnr => ["background_center", "signal_center", "radius"] ++
      (match k with | .single => [] | .batch => ["region_type", "auto_center"])
  | .snr => ["signal_center", "radius"] ++ (match k with | .single => [] | .batch => ["region_type", "auto_center"])
  | .qmeasure => ["hist_bins", "num_peaks"]

/-- The metrics as `MultipleMetrics` sees them. `full` and `single` are the scores of the metrics that compare with a
reference and of the others. -/
def notebookMetrics {I S : Type} (full : MetricClass → I → I → Py (Score S)) (single : MetricClass → I → Py (Score S))
    (cs : List MetricClass) : List (BMetric I S) :=
  cs.map fun c => ⟨storedName false c,
    match c with
    | .cnr | .snr | .qmeasure => .inl (single c)
    | _ => .inr (full c)⟩

/-- What kind of object an image is. -/
inductive ImageObject where
  | imageArray | ndarray
  deriving DecidableEq, Repr

/-- `Image_Comparison.ipynb` cells 8-13: a modified image of another shape is resized by `skimage.transform.resize`,
which returns an array of numpy (trusted), and the statistics of both images are computed by a method that only
`ImageArray` has (`loading.py` 198). Result: the shapes of the two images. -/
def notebookStatistics (shapeR shapeM : List Nat) : Py (List Nat × List Nat) :=
  let (obj, shape) := if shapeR ≠ shapeM then (ImageObject.ndarray, shapeR) else (ImageObject.imageArray, shapeM)
  if obj = .imageArray then .ok (shapeR, shape)
  else .error (.attributeError "'numpy.ndarray' object has no attribute 'calculate_statistics'")

end Viqa
