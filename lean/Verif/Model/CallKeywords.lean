import Verif.Model.Keywords

/-!
Model of the keyword arguments of `calculate` and `report` of `BatchMetrics` and `MultipleMetrics`
(`src/viqa/multiple.py`), in the manner of Model/Keywords: only names, result are the names nobody reads or the error.
-/

namespace Viqa

/-- `multiple.py` 669 `_calc` -/
def calcSignature : Signature := ⟨["metrics", "metrics_parameters", "img_r", "img_m"], true⟩

/-- `multiple.py` 670-674: the names taken out of `kwargs` by `_calc`. -/
def calcPopped : List String := ["scaling_order", "leave", "prev_result_reference", "prev_result_modified", "roi"]

/-- `loading.py` 958 `_check_imgs` with two images, which takes `chromatic` (964) and gives the rest to `load_data`. -/
def checkImgsKeywords (kw : List String) : Py (List String) := do
  let kw ← (Signature.mk ["img_r", "img_m"] true).bind 2 [] kw
  loadSignature.bind 1 [] (kw.filter (· != "chromatic"))

/-- `multiple.py` 669-684: `_calc(metrics, metrics_parameters, img_r, img_m, **named, **kw)` up to the metrics. -/
def calcKeywords (named kw : List String) : Py (List String) := do
  let kw ← calcSignature.bind 4 named kw
  let kw := kw.filter (fun k => !calcPopped.contains k)
  let unread ← loadSignature.bind 1 [] kw
  let unread' ← checkImgsKeywords kw
  pure (unread.filter (unread'.contains ·))

/-- `multiple.py` 479-506 `MultipleMetrics.calculate(img_r, img_m, **kws)` -/
def multipleCalculateKeywords (kws : List String) : Py (List String) := do
  let kw ← (Signature.mk ["self", "img_r", "img_m"] true).bind 3 [] kws
  calcKeywords ["leave"] kw

/-- `multiple.py` 245, 252 -/
def batchPopped : List String := ["roi", "scaling_order"]

/-- `multiple.py` 215-295 `BatchMetrics.calculate(**kws)` for `pairs` rows of the pairs file. The first pair is never
skipped; the later ones get the same keywords. -/
def batchCalculateKeywords (pairs : Nat) (kws : List String) : Py (List String) := do
  let kw ← (Signature.mk ["self"] true).bind 1 [] kws
  let kw := kw.filter (fun k => !batchPopped.contains k)
  if pairs = 0 then pure kw
  else
    let unread ← loadSignature.bind 1 [] kw
    let unread' ← calcKeywords ["prev_result_reference", "prev_result_modified", "scaling_order", "roi"] kw
    pure (unread.filter (unread'.contains ·))

/-- `export.py` 152-163 `export_image` -/
def exportImageSignature : Signature :=
  ⟨["results", "img_r", "img_m", "x", "y", "z", "file_path", "file_name", "show_image"], true⟩

/-- `export.py` 210, 211, 218: the names taken out of `kwargs`. -/
def exportImagePopped : List String := ["dpi", "roi", "scaling_order"]

/-- `export_image(**named, **kw)`; `subplots` is the result of `plt.subplots(1, 2, dpi=dpi, **kwargs)` (line 254) for
given names: the names matplotlib does not read, or its error. -/
def exportImageKeywords (subplots : List String → Py (List String)) (named kw : List String) : Py (List String) := do
  let kw ← exportImageSignature.bind 0 named kw
  subplots (kw.filter (fun k => !exportImagePopped.contains k))

/-- `multiple.py` 334-336 -/
def sliceNames : List String := ["x", "y", "z"]

/-- `multiple.py` 297-377 `BatchMetrics.report(image=image, **kws)`; `pairs` rows, the other parameters may be among
`kws`. The slice is used only for the images. -/
def batchReportKeywords (subplots : List String → Py (List String)) (pairs : Nat) (image : Bool) (kws : List String) :
    Py (List String) := do
  let kw ← (Signature.mk ["self", "csv", "metadata", "image", "file_path", "project_name"] true).bind 1 ["image"] kws
  if image && pairs != 0 then
    let unread ← exportImageKeywords subplots
      ["results", "img_r", "img_m", "file_path", "file_name", "show_image", "x", "y", "z", "roi"] []
    pure (kw.filter (fun k => !sliceNames.contains k) ++ unread)
  else pure kw

/-- `multiple.py` 560-566 -/
def reportPopped : List String := ["decimals", "export_image", "img_r", "img_m", "x", "y", "z"]

/-- `multiple.py` 508-609 `MultipleMetrics.report(text=text, image=image, **kws)` up to the files. -/
def multipleReportKeywords (subplots : List String → Py (List String)) (text image : Bool) (kws : List String) :
    Py (List String) := do
  let kw ← (Signature.mk ["self", "csv", "metadata", "text", "image", "file_path", "project_name"] true).bind 1
    ["text", "image"] kws
  let kw := kw.filter (fun k => !(text && k == "decimals"))
  if image then
    if !kws.contains "img_r" || !kws.contains "img_m" then
      .error (.valueError "Reference and modified image must be provided.")
    else
      let rest := kw.filter (fun k => !reportPopped.contains k)
      let unread ← exportImageKeywords subplots
        ["results", "img_r", "img_m", "file_path", "file_name", "x", "y", "z"] rest
      pure (kw.filter (· == "decimals") ++ unread)
  else pure kw

end Viqa
