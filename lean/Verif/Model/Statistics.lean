import Verif.Model.ImageArray
import Verif.Model.Metric
import Verif.Model.Normalize
import Verif.Model.PairFile

/-!
Model of `ImageArray.calculate_statistics` with the size of its histogram and of `ImageArray.describe`
(`src/viqa/utils/loading.py` 198-287).
-/

namespace Viqa

/-- loading.py 218-224: number of bins of the histogram. -/
def histogramBins (dt : DType) : Nat := if dt.isInteger then dt.intMax.toNat else 255

/-- `np.histogram` allocates the edges of the bins as 64 bit floats: `bins + 1` numbers, with `mem` bytes of
memory. The counts and temporary arrays are left out, so it needs more than this. -/
def allocateEdges (mem : Nat) (bins : Nat) : Py Unit :=
  if 2 ^ 63 ≤ 8 * (bins + 1) then .error (.valueError "Maximum allowed size exceeded")
  else if mem < 8 * (bins + 1) then .error (.runtimeError "Unable to allocate")
  else .ok ()

/-- loading.py 212-217: the attributes set before the histogram. -/
def earlyStats : List Stat := [.mean, .median, .variance, .standarddev, .skewness, .kurtosis]

/-- loading.py 198-227 `calculate_statistics`: the object afterwards, also after an exception. The histogram
of an integer image is assigned to a temporary view. -/
def calculateStatistics {D V} (stat : Stat → D → V) (mem : Nat) (dt : DType) (o : ArrObj D V) : ArrObj D V × Py Unit :=
  let early : ArrObj D V := { o with attr := fun s => if s ∈ earlyStats then some (stat s o.data) else o.attr s }
  match allocateEdges mem (histogramBins dt) with
  | .error e => (early, .error e)
  | .ok _ =>
    ({ o with attr := fun s =>
        if s ∈ earlyStats then some (stat s o.data)
        else if s = .minimum ∨ s = .maximum then some (stat s o.data)
        else if dt.isInteger then o.attr s else some (stat s o.data) }, .ok ())

/-- The names used by `describe`, loading.py 261-270. -/
def statName : Stat → Txt
  | .mean => "mean".toList
  | .median => "median".toList
  | .variance => "variance".toList
  | .standarddev => "standarddev".toList
  | .skewness => "skewness".toList
  | .kurtosis => "kurtosis".toList
  | .histogram => "histogram".toList
  | .minimum => "minimum".toList
  | .maximum => "maximum".toList

/-- Text of an attribute (`str`); `str` is the text of a number. -/
def attrText {V} (str : V → Txt) : Option V → Txt
  | some v => str v
  | none => "Not set. Run calculate_statistics() first.".toList

/-- What a call of `describe` returns and does: the dictionary, the file written and its text, and the
warnings. -/
structure Described (V : Type) where
  stats : List (Txt × Option V)
  file : Option (Txt × Txt)
  warns : List String

/-- loading.py 229-287 `describe` (writing succeeds). -/
def describe {D V} (str : V → Txt) (o : ArrObj D V) (path filename : Option Txt) : Described V :=
  let stats := describeStats.map (fun s => (statName s, o.attr s))
  let text := writeRows ',' [stats.map Prod.fst, stats.map (fun e => attrText str e.2)]
  match path, filename with
  | some p, some f =>
    if p ≠ [] ∧ f ≠ [] then ⟨stats, some (pathJoin p (csvName f), text), []⟩
    else ⟨stats, none, ["No path or filename provided. Statistics not exported."]⟩
  | _, _ => ⟨stats, none, ["No path or filename provided. Statistics not exported."]⟩

end Viqa
