import Verif.Model.Keywords

/-!
Model of the keyword arguments of the constructors of the metrics: every class takes `**kwargs` and stores them in the
attribute `parameters`, from which other methods read some entries by name. Only names are modelled, not values.
-/

namespace Viqa

/-- `__init__` of each class: `rmse.py` 84, `psnr.py` 95, `ssim.py` 120, `uqi.py` 122, `msssim.py` 104, `fsim.py` 92, `vsi.py` 96,
`vif.py` 97, `gsm.py` 123, `mad.py` 120, `cnr.py` 101, `snr.py` 104, `qmeasure.py` 92. -/
def constructorSignature : MetricClass → Signature
  | .snr => ⟨["self", "data_range", "normalize", "name"], true⟩
  | _ => ⟨["self", "data_range", "normalize"], true⟩

/-- `_metrics.py` 27 and 107, 140: `__init__(self, data_range, normalize, **kwargs)` of the base classes. -/
def baseSignature : Signature := ⟨["self", "data_range", "normalize"], true⟩

/-- The entries of `parameters` that are read without being set by the class itself, besides `data_range` and `normalize`:
`load_images` (`_metrics.py` 130-135 and 160-165), for CNR and SNR also by `score` (`cnr.py` 127-135, `snr.py` 133-138). The
entries that only the widgets for choosing the centres read (`snr.py` 233-252, 551-586) are left out. -/
def readParameters : MetricClass → List String
  | .cnr => "roi" :: cnrKeys
  | .snr => "roi" :: snrKeys
  | .qmeasure => ["roi"]
  | _ => ["chromatic", "roi"]

/-- The call `Class(**kw)` of a constructor: the names that nobody reads, or the exception. SNR hands its `name` on as one more
entry of the dictionary (`snr.py` 106-108). -/
def unreadConstructorKeywords (c : MetricClass) (kw : List String) : Py (List String) := do
  let rest ← (constructorSignature c).bind 1 [] kw
  let named := if c = .snr then ["data_range", "normalize", "name"] else ["data_range", "normalize"]
  let stored ← baseSignature.bind 1 named rest
  pure ((stored.filter (fun k => !(readParameters c).contains k)).filter (kw.contains ·))

end Viqa
