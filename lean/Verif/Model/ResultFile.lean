import Verif.Model.Batch
import Verif.Model.Metric
import Verif.Model.PairFile

/-!
The text of result files: `csv.writer` in the dialect `excel` (Model/PairFile) applied to the rows of
`BatchMetrics.export_results`, `MultipleMetrics.export_results` (`src/viqa/multiple.py`), `export_results`
(`src/viqa/utils/export.py`) and `ImageArray.describe` (`src/viqa/utils/loading.py`). All files are opened with
`newline=""`. The text of a number (`repr`) is a parameter.
-/

namespace Viqa

/-- What the writer makes of a cell: a text is itself, `None` is empty. -/
def cellText {S} (num : S → Txt) : Cell S → Txt
  | .text s => s
  | .key k => (k.getD "").toList
  | .value v => num v

/-- `multiple.py` 400-416: the file of `BatchMetrics.export_results`. -/
def batchFile {S} (num : S → Txt) (pairs : List Pair) (results : ODict Txt (ODict Key S)) : Py Txt :=
  match exportBatch pairs results with
  | .error e => .error e
  | .ok (header, rows) => .ok (writeRows ',' ((header :: rows).map (fun r => r.map (cellText num))))

/-- `multiple.py` 645-650: the file of `MultipleMetrics.export_results`. -/
def multipleFile {S} (num : S → Txt) (results : ODict Key S) : Txt :=
  writeRows ',' [results.map (fun kv => (kv.1.getD "").toList), results.map (fun kv => num kv.2)]

/-- The attribute `score_val` as the writer sees it. -/
def valueText {S} (num : S → Txt) : ScoreVal S → Txt
  | .unset => []
  | .na => "n/a".toList
  | .num v => num v

/-- `export.py` 91-98: the file of `export_results`. -/
def exportFile {S} (num : S → Txt) (ms : List (MetricObj S)) : Txt :=
  writeRows ',' (["Metric".toList, "Value".toList] ::
    (exportResults ms).1.map (fun r => [r.name.toList, valueText num r.value]))

/-- `loading.py` 278-281: the file of `ImageArray.describe`, `csv.DictWriter` with the names of the statistics. -/
def statsFile {V} (num : V → Txt) (stats : List (String × V)) : Txt :=
  writeRows ',' [stats.map (fun s => s.1.toList), stats.map (fun s => num s.2)]

end Viqa
