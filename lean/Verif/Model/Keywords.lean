import Verif.Model.Report
import Verif.Model.Noise

/-!
Model of the keyword arguments of the `score` methods: which names are accepted by Python, which reach the computation
and which are dropped in a dictionary nobody reads. Only names are modelled, not values. The signatures of the library
piq are those of its documentation (trusted); they take no further keywords.
-/

namespace Viqa

/-- The signature of a Python function: names of its parameters and whether it takes further keywords (`**kwargs`). -/
structure Signature where
  params : List String
  rest : Bool

/-- The call `f(a₁, …, aₙ, name=…, **kw)` with `n` positional arguments: the names that end up in the `**kwargs` of `f`,
or the `TypeError` raised by Python. All parameters that have no default are among the positional ones here. -/
def Signature.bind (f : Signature) (n : Nat) (named kw : List String) : Py (List String) :=
  if kw.any (named.contains ·) then .error (.typeError "got multiple values for keyword argument")
  else if (named ++ kw).any ((f.params.take n).contains ·) then .error (.typeError "got multiple values for argument")
  else
    let extra := (named ++ kw).filter (fun k => !f.params.contains k)
    if !extra.isEmpty && !f.rest then .error (.typeError "got an unexpected keyword argument")
    else .ok extra

/-- Whether one slice (or a 2D image) is scored, or all slices of a volume. The volume has at least one slice. -/
inductive ScoredPart where
  | plane | volume
  deriving DecidableEq, Repr

/-- `score` of each class: `rmse.py` 92, `psnr.py` 105, `ssim.py` 127, `uqi.py` 129, `msssim.py` 111, `fsim.py` 102,
`vsi.py` 103, `vif.py` 104, `gsm.py` 130, `mad.py` 127, `cnr.py` 106, `snr.py` 110, `qmeasure.py` 97. -/
def scoreSignature : MetricClass → Signature
  | .rmse | .psnr => ⟨["self", "img_r", "img_m"], false⟩
  | .ssim => ⟨["self", "img_r", "img_m", "color_weights"], true⟩
  | .uqi => ⟨["self", "img_r", "img_m"], true⟩
  | .msssim | .fsim | .vsi | .vif | .gsm | .mad => ⟨["self", "img_r", "img_m", "dim", "im_slice"], true⟩
  | .cnr | .snr | .qmeasure => ⟨["self", "img"], true⟩

/-- The images are given by position: `metric.score(img_r, img_m, …)` or `metric.score(img, …)`. -/
def scorePositional : MetricClass → Nat
  | .cnr | .snr | .qmeasure => 2
  | _ => 3

/-- `ssim.py` 200-210 `structural_similarity` -/
def structuralSignature : Signature :=
  ⟨["img_r", "img_m", "win_size", "data_range", "gaussian_weights", "alpha", "beta", "gamma"], true⟩

/-- `ssim.py` 306-308, 345, 346: the names taken out of `kwargs`. -/
def structuralPopped : List String := ["K1", "K2", "sigma", "mode", "cval"]

/-- `gsm.py` 361 `gradient_similarity` -/
def gradientSignature : Signature := ⟨["img_r", "img_m", "data_range", "c", "p"], false⟩

/-- `gsm.py` 277 `gradient_similarity_3d` -/
def gradient3dSignature : Signature := ⟨["img_r", "img_m", "dim", "experimental"], true⟩

/-- `mad.py` 341-352 `most_apparent_distortion` -/
def madSignature : Signature :=
  ⟨["img_r", "img_m", "data_range", "block_size", "block_overlap", "beta_1", "beta_2", "thresh_1", "thresh_2"], true⟩

/-- `mad.py` 268-270 `most_apparent_distortion_3d` -/
def mad3dSignature : Signature := ⟨["img_r", "img_m", "dim"], true⟩

/-- The names taken out of `kwargs` by `_high_quality` (`mad.py` 572-680) and `_low_quality` (740-742).
`display_function` is read only if the monitor is accounted for. -/
def madPopped : List String :=
  ["account_monitor", "display_function", "csf_function", "luminance_function", "ms_scale", "orientations_num",
    "scales_num", "weights"]

/-- `cnr.py` 678-687 `contrast_to_noise_ratio` -/
def cnrSignature : Signature :=
  ⟨["img", "background_center", "signal_center", "radius", "region_type", "auto_center", "iterations"], true⟩

/-- `snr.py` 862-873 `signal_to_noise_ratio` -/
def snrSignature : Signature :=
  ⟨["img", "signal_center", "radius", "region_type", "auto_center", "iterations", "lower_threshold",
    "upper_threshold", "yuv"], true⟩

/-- `loading.py` 615-621 `load_data` -/
def loadSignature : Signature := ⟨["img", "data_range", "normalize", "batch", "roi"], false⟩

/-- The functions of piq, after the two images. -/
def piqSignature : MetricClass → Signature
  | .msssim =>
    ⟨["x", "y", "kernel_size", "kernel_sigma", "data_range", "reduction", "scale_weights", "k1", "k2"], false⟩
  | .vif => ⟨["x", "y", "sigma_n_sq", "data_range", "reduction"], false⟩
  | .fsim =>
    ⟨["x", "y", "reduction", "data_range", "chromatic", "scales", "orientations", "min_length", "mult", "sigma_f",
      "delta_theta", "k"], false⟩
  | _ =>
    ⟨["x", "y", "reduction", "data_range", "c1", "c2", "c3", "alpha", "beta", "omega_0", "sigma_f", "sigma_d",
      "sigma_c"], false⟩

/-- `if not {…}.issubset(kwargs)` (`cnr.py` 127-135, `snr.py` 133-138): unless all required names are given, all of
them are taken from the object, which has them here. -/
def completed (required kw : List String) : List String :=
  kw ++ required.filter (fun k => !kw.contains k)

/-- The names whose values are replaced by `completed`. -/
def replacedNames (required kw : List String) : List String :=
  if required.all (kw.contains ·) then [] else kw.filter (required.contains ·)

/-- `qmeasure.py` 148, 149 -/
def qmeasurePopped : List String := ["hist_bins", "num_peaks"]

/-- The keywords of `metric.score(img_r, img_m, **kws)` that nobody reads, or the `TypeError` for the keywords:
`ssim.py` 166-177, `uqi.py` 154-165, `msssim.py` 206-279, `fsim.py` 201-278, `vsi.py` 201-273, `vif.py` 180-252,
`gsm.py` 201-251 and 336-358, `mad.py` 188-242, 318-335 and 527-529, `cnr.py` 127-140 and 757, `snr.py` 133-146
and 986, `qmeasure.py` 148-149. -/
def unreadKeywords (c : MetricClass) (part : ScoredPart) (kws : List String) : Py (List String) := do
  let kw ← (scoreSignature c).bind (scorePositional c) [] kws
  match c with
  | .rmse | .psnr => pure kw
  | .ssim =>
    let rest ← structuralSignature.bind 2 ["data_range"] kw
    pure (rest.filter (fun k => !structuralPopped.contains k))
  | .uqi =>
    let rest ← structuralSignature.bind 2
      ["data_range", "k_1", "k_2", "alpha", "beta", "gamma", "gaussian_weights"] kw
    pure ((rest.filter (fun k => !structuralPopped.contains k)).filter (kws.contains ·))
  | .msssim | .vsi | .vif => (piqSignature c).bind 2 ["data_range"] kw
  | .fsim => (piqSignature c).bind 2 ["data_range", "chromatic"] kw
  | .gsm =>
    match part with
    | .plane => gradientSignature.bind 2 ["data_range"] kw
    | .volume =>
      let rest ← gradient3dSignature.bind 2 ["data_range", "dim"] kw
      gradientSignature.bind 2 [] rest
  | .mad =>
    let rest ← match part with
      | .plane => madSignature.bind 2 ["data_range"] kw
      | .volume => do
        let inner ← mad3dSignature.bind 2 ["data_range", "dim"] kw
        madSignature.bind 2 [] inner
    pure (rest.filter (fun k => !madPopped.contains k))
  | .cnr =>
    let rest ← cnrSignature.bind 1 [] (completed cnrKeys kw)
    let unread ← loadSignature.bind 1 [] rest
    pure (unread ++ replacedNames cnrKeys kw)
  | .snr =>
    let rest ← snrSignature.bind 1 [] (completed snrKeys kw)
    let unread ← loadSignature.bind 1 [] rest
    pure (unread ++ replacedNames snrKeys kw)
  | .qmeasure => pure (kw.filter (fun k => !qmeasurePopped.contains k))

end Viqa
