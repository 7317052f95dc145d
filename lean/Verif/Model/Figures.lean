import Verif.Model.Display

/-!
Model of the figures of `matplotlib.pyplot` as used in `src/viqa/utils/visualization.py` and
`src/viqa/utils/export.py`, and of `ImageArray.visualize` (`src/viqa/utils/loading.py` 289-338).

A figure is the list of what was drawn on it. `pyplot` keeps the open figures; the current one is the one
made last. Whether the figures are closed by `show` depends on the backend: the inline backend of notebooks
closes them, windows are closed by the user before a blocking `show` returns, non-interactive backends keep
them.
-/

namespace Viqa

/-- State of `pyplot`: open figures (the current one first), files saved and figures displayed so far. -/
structure Pyplot (D : Type) where
  figures : List (List D) := []
  saved : List (Txt × List D) := []
  shown : List (List (List D)) := []
  deriving Repr

namespace Pyplot
variable {D : Type}

/-- `plt.figure` or `plt.subplots` -/
def newFigure (s : Pyplot D) : Pyplot D := { s with figures := [] :: s.figures }

/-- Drawing on the current figure. -/
def draw (d : D) (s : Pyplot D) : Pyplot D :=
  match s.figures with
  | [] => { s with figures := [[d]] }
  | f :: fs => { s with figures := (f ++ [d]) :: fs }

/-- `plt.show()` displays all open figures. -/
def display (closes : Bool) (s : Pyplot D) : Pyplot D :=
  { s with shown := s.shown ++ [s.figures], figures := if closes then [] else s.figures }

/-- `plt.savefig(path)` saves the current figure, a new empty one if there is none. -/
def savefig (path : Txt) (s : Pyplot D) : Pyplot D :=
  match s.figures with
  | [] => { s with figures := [[]], saved := s.saved ++ [(path, [])] }
  | f :: _ => { s with saved := s.saved ++ [(path, f)] }

/-- What a file contains: the last one saved there. -/
def content (s : Pyplot D) (path : Txt) : Option (List D) :=
  (s.saved.reverse.find? (fun e => e.1 = path)).map Prod.snd

end Pyplot

/-- The end of `visualize_2d` (`visualization.py` 625-636), `visualize_3d` (683-716; both with `showIt` true),
`_visualize_cnr_2d` (119-122), `_visualize_cnr_3d` (336-339), `_visualize_snr_2d` (410-413) and `_visualize_snr_3d`
(569-572): `d` is what is drawn. -/
def visualizeFigure {D : Type} (closes showIt : Bool) (d : D) (exportPath : Option Txt) (s : Pyplot D) : Pyplot D :=
  let s := (s.newFigure).draw d
  let s := if showIt then s.display closes else s
  match exportPath with
  | some (c :: p) => s.savefig (c :: p)
  | _ => s

/-- The end of `export_image` (`export.py` 307-318): `path` is the joined path, `none` without a directory. -/
def exportFigure {D : Type} (closes showImage : Bool) (d : D) (path : Option Txt) (s : Pyplot D) : Pyplot D :=
  let s := (s.newFigure).draw d
  match path with
  | some p =>
    let s := s.savefig p
    if showImage then s.display closes else s
  | none => s.display closes

/-- The images of `BatchMetrics.report` (`multiple.py` 345-377): `export_image` with `show_image=False`. -/
def batchFigures {D : Type} (closes : Bool) (drawings : List (D × Option Txt)) (s : Pyplot D) : Pyplot D :=
  drawings.foldl (fun s e => exportFigure closes false e.1 e.2 s) s

/-! ### ImageArray.visualize -/

/-- Categories of warnings. -/
inductive WarnCategory where
  | user | runtime
  deriving DecidableEq, Repr

/-- `loading.py` 289-338 `ImageArray.visualize`: warnings, and the panels or the exception. `slices` is None or a
tuple. -/
def visualizeArray {α : Type} (img : NDArray α) (slices : Option (List NumArg)) :
    List WarnCategory × Py (List (Panel α)) :=
  if img.ndim = 3 ∧ img.lastDim ≠ 3 then
    match slices with
    | none | some [] => ([], .error (.valueError "Parameter slices must be set for 3D images."))
    | some l => ([], visualize3d img l)
  else if img.ndim = 2 ∨ (img.ndim = 3 ∧ img.lastDim = 3) then
    (match slices with | none | some [] => [] | _ => [.runtime], (visualize2d img).map (fun p => [p]))
  else ([], .error (.valueError "Image must be 2D or 3D."))

end Viqa
