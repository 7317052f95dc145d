import Verif.Model.Batch
import Verif.Model.Metric
import Verif.Model.Display

/-!
Model of what is told to the user: `print_score` of the metric classes, `report` of `BatchMetrics` and
`MultipleMetrics` (`src/viqa/multiple.py`), and the preparation of the images in `export_image`
(`src/viqa/utils/export.py`). Effects are collected in a list, also those before an exception. Drawing itself
is trusted; rounding (`numpy.round`) is a parameter.
-/

namespace Viqa

/-! ### print_score -/

/-- The metrics of the package. -/
inductive MetricClass where
  | rmse | psnr | ssim | msssim | uqi | fsim | vsi | vif | gsm | mad | cnr | snr | qmeasure
  deriving DecidableEq, Repr

/-- The attribute `_name`, set by the constructor (`rmse.py` 87-90, `psnr.py` 100-103, `fsim.py` 97-100, one line
in the other classes); `SNR` leaves it `None`. -/
def storedName (chromatic : Bool) : MetricClass → Option String
  | .rmse => some (if chromatic then "RMSEc" else "RMSE")
  | .psnr => some (if chromatic then "PSNRc" else "PSNR")
  | .fsim => some (if chromatic then "FSIMc" else "FSIM")
  | .ssim => some "SSIM"
  | .msssim => some "MS-SSIM"
  | .uqi => some "UQI"
  | .vsi => some "VSI"
  | .vif => some "VIFp"
  | .gsm => some "GSM"
  | .mad => some "MAD"
  | .cnr => some "CNR"
  | .snr => none
  | .qmeasure => some "Q-Measure"

/-- The name in the text of `print_score`. -/
def printedName : MetricClass → String
  | .rmse => "RMSE"
  | .psnr => "PSNR"
  | .fsim => "FSIM"
  | .ssim => "SSIM"
  | .msssim => "MS-SSIM"
  | .uqi => "UQI"
  | .vsi => "VSI"
  | .vif => "VIFp"
  | .gsm => "GSM"
  | .mad => "MAD"
  | .cnr => "CNR"
  | .snr => "SNR"
  | .qmeasure => "Q-Measure"

/-- A line on the console. -/
inductive PrintedLine (S : Type) where
  /-- `NAME: value` -/
  | score (name : String) (value : S)
  /-- `No score value for NAME. Run score() first.` -/
  | notice (name : String)
  deriving DecidableEq, Repr

/-- `print_score(decimals)` (`rmse.py` 114-130, `psnr.py` 131-147, `ssim.py` 181-197, `msssim.py` 286-302, `uqi.py`
169-185, `fsim.py` 285-301, `vsi.py` 280-296, `vif.py` 259-275, `gsm.py` 258-274, `mad.py` 249-265, `cnr.py` 144-160,
`snr.py` 150-166, `qmeasure.py` 156-172). Without a score, three classes print the notice, the others warn. The text
"n/a" cannot be rounded. -/
def printScore {S} (round : S → Int → S) (c : MetricClass) (score : ScoreVal S) (decimals : Int) :
    PyW (List (PrintedLine S)) :=
  match score with
  | .num v => pure [.score (printedName c) (round v decimals)]
  | .na => .raise (.typeError "ufunc 'rint' not supported for the input types")
  | .unset => match c with
    | .msssim | .vif | .vsi => pure [.notice (printedName c)]
    | c => do
      PyW.warn ("No score value for " ++ printedName c ++ ". Run score() first.")
      pure []

/-! ### Names of files -/

/-- `os.path.splitext(p)[1]` of any path: only the part after the last slash counts. -/
def pathExt (p : Txt) : Txt := (splitext (basename p)).2

/-- `multiple.py` 340-344, 349-353, 367-371, 584-588, 597-601, 606-610: the name with the project in front. -/
def reportName (project : Option Txt) (base : Txt) : Txt :=
  match project with
  | none => base
  | some p => p ++ '_' :: base

/-- The files of reports. -/
inductive ReportFile where
  | results
  | metadata
  /-- image of a pair of a batch -/
  | image (num : Nat)
  /-- image of `MultipleMetrics` -/
  | comparison
  deriving DecidableEq, Repr

/-- Their names without project. -/
def ReportFile.base : ReportFile → Txt
  | .results => "results.csv".toList
  | .metadata => "metadata.txt".toList
  | .image n => "image_comparison_".toList ++ Spec.decimal n ++ ".png".toList
  | .comparison => "image_comparison.png".toList

/-! ### export_image -/

/-- `export.py` 213-251 on two paths: load, compare the number of axes, resize, crop, check, select the plane. -/
def exportImage (resize : NDArray Rat → List Nat → NDArray Rat) (cast : DType → Rat → Rat)
    (disk : Txt → Py (Image Rat)) (r m : Txt) (roi : Option Roi) (x y z : Option Int) :
    Py (NDArray Rat × NDArray Rat) := do
  let a ← loadImage disk {} r
  let b ← loadImage disk {} m
  if a.arr.ndim ≠ b.arr.ndim then .error (.valueError "Images must have the same number of dimensions.")
  else
    let b := resizeImage resize cast a b
    match roi with
    | none => exportPair disk a b x y z
    | some q => do
      let ca ← (cropImage a.arr q.x q.y q.z).val
      let cb ← (cropImage b.arr q.x q.y q.z).val
      exportPair disk ⟨a.dtype, ca⟩ ⟨b.dtype, cb⟩ x y z

/-! ### report -/

/-- What is in a file. `D` is a drawing. -/
inductive Content (D S : Type) where
  | table (header : List (Cell S)) (rows : List (List (Cell S)))
  | parameters (entries : List MetaEntry)
  | drawing (d : D) (values : ODict Key S)

/-- An effect. A file without content was opened for writing (and emptied), then an exception was raised. -/
inductive Effect (D S : Type) where
  | wrote (path : Txt) (content : Option (Content D S))
  | shown (d : D) (values : ODict Key S)
  | printed (values : ODict Key S)

/-- A computation with effects. -/
abbrev Eff (D S : Type) := List (Effect D S) × Py Unit

/-- One after the other, until an exception. -/
def Eff.seq {D S} (a b : Eff D S) : Eff D S :=
  match a.2 with
  | .error e => (a.1, .error e)
  | .ok _ => (a.1 ++ b.1, b.2)

/-- Only if asked for. -/
def Eff.only {D S} (flag : Bool) (a : Eff D S) : Eff D S := if flag then a else ([], .ok ())

/-- Exports of a table (`multiple.py` 395-416, 650-660) and of the parameters (`export.py` 130-149): the extension is
checked, the path is joined (`None` raises TypeError), the file is opened, then the content is made. -/
def writeFile {D S} (filePath : Option Txt) (name ext : Txt) (content : Py (Content D S)) : Eff D S :=
  if pathExt name ≠ ext then ([], .error (.valueError "The file name must have the extension."))
  else match filePath with
    | none => ([], .error (.typeError "expected str, bytes or os.PathLike object, not NoneType"))
    | some dir => match content with
      | .error e => ([.wrote (pathJoin dir name) none], .error e)
      | .ok c => ([.wrote (pathJoin dir name) (some c)], .ok ())

/-- `export.py` 308-318: after drawing, the extension is checked; with a directory the image is saved, without one (or
with an empty one) it is shown. -/
def writeImage {D S} (filePath : Option Txt) (name : Txt) (alsoShow : Bool) (d : Py D) (values : ODict Key S) : Eff D S :=
  match d with
  | .error e => ([], .error e)
  | .ok d =>
    if pathExt name ≠ ".png".toList then ([], .error (.valueError "The file name must have the extension."))
    else match filePath with
      | none => ([.shown d values], .ok ())
      | some [] => ([.shown d values], .ok ())
      | some dir => ([.wrote (pathJoin dir name) (some (.drawing d values))] ++
          (if alsoShow then [.shown d values] else []), .ok ())

/-- `BatchMetrics` at the time of a report: rows of the pairs file, regions, results, the parameters for the
metadata file, and `global_roi` (an attribute since the first call of `calculate`). -/
structure BatchObj (R S : Type) where
  pairs : List Pair
  rois : Option (List (Option R))
  results : ODict Txt (ODict Key S)
  entries : Py (List MetaEntry)
  globalRoi : Option (Option R)

/-- `multiple.py` 356-377: the images of the pairs from number `num` on. `draw` stands for `export_image` on a row of
the pairs file with a region. -/
def reportImages {D R S} (draw : Pair → Option R → Py D) (obj : BatchObj R S) (global : Option R)
    (filePath project : Option Txt) : List Pair → Nat → Eff D S
  | [], _ => ([], .ok ())
  | p :: ps, num =>
    Eff.seq
      (match pairRoi global obj.rois num with
        | .error e => ([], .error e)
        | .ok roi => match ODict.get obj.results (Spec.decimal num) with
          | .error e => ([], .error e)
          | .ok values =>
            writeImage filePath (reportName project (ReportFile.image num).base) false (draw p roi) values)
      (reportImages draw obj global filePath project ps (num + 1))

/-- `multiple.py` 296-377 `BatchMetrics.report`. -/
def batchReport {D R S} (draw : Pair → Option R → Py D) (obj : BatchObj R S) (csv metadata image : Bool)
    (filePath project : Option Txt) : Eff D S :=
  Eff.seq (Eff.only csv (writeFile filePath (reportName project ReportFile.results.base) ".csv".toList
    ((exportBatch obj.pairs obj.results).map (fun t => Content.table t.1 t.2))))
  (Eff.seq (Eff.only metadata (writeFile filePath (reportName project ReportFile.metadata.base) ".txt".toList
    (obj.entries.map Content.parameters)))
  (Eff.only image (match obj.globalRoi with
    | none => ([], .error (.attributeError "global_roi"))
    | some g => reportImages draw obj g filePath project obj.pairs 0)))

/-- `multiple.py` 507-612 `MultipleMetrics.report`. `draw` stands for `export_image` on the images of the call (with
the region of the call); `none` if one of them is missing. -/
def multipleReport {D S} (draw : Option (Py D)) (results : ODict Key S) (entries : Py (List MetaEntry))
    (csv metadata text image saveImage : Bool) (filePath project : Option Txt) : Eff D S :=
  Eff.seq (Eff.only text ([.printed results], .ok ()))
  (Eff.seq (Eff.only image (match draw with
    | none => ([], .error (.valueError "Reference and modified image must be provided."))
    | some d => writeImage (if saveImage then filePath else none) (reportName project ReportFile.comparison.base) true
        d results))
  (Eff.seq (Eff.only csv (writeFile filePath (reportName project ReportFile.results.base) ".csv".toList
    (.ok (.table (results.map (fun e => .key e.1)) [results.map (fun e => .value e.2)]))))
  (Eff.only metadata (writeFile filePath (reportName project ReportFile.metadata.base) ".txt".toList
    (entries.map Content.parameters)))))

end Viqa
