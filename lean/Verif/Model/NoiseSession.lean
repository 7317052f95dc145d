import Verif.Model.Noise
import Verif.Model.Keywords
import Verif.Model.Images
import Verif.Model.Metric

/-!
Sequences of calls of `score` on one object: `CNR.score` (`src/viqa/nr_metrics/cnr.py` 106-142), `SNR.score`
(`src/viqa/nr_metrics/snr.py` 110-148), with the attribute `parameters` that the calls change, and both loadings of the
image: by `load_images` (`src/viqa/_metrics.py` 144-166) with the parameters of the object, and by
`contrast_to_noise_ratio` (`cnr.py` 757) or `signal_to_noise_ratio` (`snr.py` 986) with the keyword arguments of the call.
Left out: the deprecated list input and `batch`, and values of other types than the ones below.
-/

namespace Viqa

/-- Values of keyword arguments and parameters. -/
inductive NoiseVal where
  | none
  | centre (c : List NumArg)
  | num (n : NumArg)
  | text (s : String)
  | flag (b : Bool)
  | range (n : Int)
  | roi (r : Roi)

/-- An object of class CNR or SNR: the attributes `parameters` and `score_val`. -/
structure NoiseObject (S : Type) where
  params : Dict NoiseVal
  score : Option S

/-- The arguments of `load_data` among the entries of a dictionary. -/
def loadArgsOf (d : Dict NoiseVal) : LoadArgs where
  normalize := match d "normalize" with
    | some (.flag b) => b
    | _ => false
  dataRange := match d "data_range" with
    | some (.range n) => some n
    | _ => Option.none
  roi := match d "roi" with
    | some (.roi r) => some r
    | _ => Option.none

/-- `load_data` with these arguments. -/
def noiseLoad (disk : Txt → Py (Image Rat)) (x : Input) (d : Dict NoiseVal) : Py (Image Rat) :=
  match (loadData disk x (loadArgsOf d)).val with
  | .error e => .error e
  | .ok (.single a) => .ok a
  | .ok (.list _) => .error (.attributeError "ndim")

open Classical in
/-- The functions `contrast_to_noise_ratio` and `signal_to_noise_ratio`: names that neither they nor `load_data` know raise
TypeError; the image is loaded; `finish` is the rest of the function. -/
noncomputable def noiseCompute {S : Type} (sig : Signature) (finish : Dict NoiseVal → NDArray Rat → Py S)
    (disk : Txt → Py (Image Rat)) (kw : Dict NoiseVal) (img : Image Rat) : Py S :=
  if ∃ k, (kw k).isSome ∧ k ∉ sig.params ++ loadSignature.params then .error (.typeError "got an unexpected keyword argument")
  else match noiseLoad disk (.array img) kw with
    | .error e => .error e
    | .ok b => finish kw b.arr

/-- `CNR.score`, `SNR.score`: load the image with the parameters, complete the regions, update the parameters, compute. -/
noncomputable def noiseCall {S : Type} (keys : List String) (sig : Signature) (finish : Dict NoiseVal → NDArray Rat → Py S)
    (disk : Txt → Py (Image Rat)) (x : Input) (kw : Dict NoiseVal) (m : NoiseObject S) : NoiseObject S × Py S :=
  match noiseLoad disk x m.params with
  | .error e => (m, .error e)
  | .ok img =>
    match regionKwargs keys m.params kw with
    | .error e => (m, .error e)
    | .ok (p, kw') =>
      match noiseCompute sig finish disk kw' img with
      | .error e => (⟨p, m.score⟩, .error e)
      | .ok v => (⟨p, some v⟩, .ok v)

/-- The object after a sequence of calls. -/
noncomputable def noiseAfter {S : Type} (keys : List String) (sig : Signature) (finish : Dict NoiseVal → NDArray Rat → Py S)
    (disk : Txt → Py (Image Rat)) (m : NoiseObject S) (calls : List (Input × Dict NoiseVal)) : NoiseObject S :=
  calls.foldl (fun m c => (noiseCall keys sig finish disk c.1 c.2 m).1) m

def centreOf (d : Dict NoiseVal) (key : String) : List NumArg :=
  match d key with
  | some (.centre c) => c
  | _ => []

def numOf (d : Dict NoiseVal) (key : String) : NumArg :=
  match d key with
  | some (.num n) => n
  | _ => .other

/-- The arguments of `contrast_to_noise_ratio` without automatic centres (`auto_center`, `iterations`). -/
def cnrArgsOf (kw : Dict NoiseVal) : CnrArgs where
  background := centreOf kw "background_center"
  signal := centreOf kw "signal_center"
  radius := numOf kw "radius"
  regionType := match kw "region_type" with
    | some (.text s) => s
    | _ => "cubic"

/-- `CNR.score` -/
noncomputable def cnrCall (disk : Txt → Py (Image Rat)) (x : Input) (kw : Dict NoiseVal) (m : NoiseObject ℝ) : NoiseObject ℝ × Py ℝ :=
  noiseCall cnrKeys cnrSignature (fun kw a => cnr a (cnrArgsOf kw)) disk x kw m

/-- `Metric.__init__` (`_metrics.py` 27-38) for `CNR()` and `SNR()` without arguments. -/
def noiseInit {S : Type} : NoiseObject S :=
  ⟨fun k => if k = "data_range" then some (.range 255) else if k = "normalize" then some (.flag false)
    else if k = "chromatic" then some (.flag false) else if k = "roi" then some .none else Option.none, Option.none⟩

/-- The full-reference metrics and the Q-measure: load the images with the parameters of the object, compute with the keyword
arguments, store the score (e.g. `ssim.py` 127-179). No call assigns to `parameters`. -/
def fullCall {S I J K : Type} (load : Params → I → Py J) (compute : Params → K → J → Py S) (x : I) (kw : K) (m : MetricObj S) :
    MetricObj S × Py S :=
  scoreCall (load m.params x) (compute m.params kw) m

def fullAfter {S I J K : Type} (load : Params → I → Py J) (compute : Params → K → J → Py S) (m : MetricObj S) (calls : List (I × K)) :
    MetricObj S :=
  calls.foldl (fun m c => (fullCall load compute c.1 c.2 m).1) m

end Viqa
