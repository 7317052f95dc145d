import Verif.Model.Text
import Mathlib.Data.Rat.Defs

/-!
Model of the texts in the comparison figure: `src/viqa/utils/export.py` 264-301 (`export_image`). A text has a position in
fractions of the width and height of the figure; the positions are computed exactly here, in floating point there.
-/

namespace Viqa

/-- A text of the figure: `fig.text(x, y, f"{name}: {value:.2f}")`. -/
structure FigureText (S : Type) where
  x : Rat
  y : Rat
  name : Txt
  value : S
  deriving DecidableEq, Repr

/-- `metric.endswith("_r") or metric.endswith("_m")` (`export.py` 267, 278, 281) -/
def noReferenceName (name : Txt) : Bool :=
  List.isSuffixOf ['_', 'r'] name || List.isSuffixOf ['_', 'm'] name

/-- `export.py` 264-270: the number of full-reference and of no-reference entries. -/
def countResults {S : Type} (results : List (Txt × S)) : Nat × Nat :=
  results.foldl (fun n e => if !noReferenceName e.1 then (n.1 + 1, n.2) else (n.1, n.2 + 1)) (0, 0)

/-- `export.py` 272-274: number of columns. -/
def figureColumns (fullReference noReference : Nat) : Int :=
  let cols := ((fullReference : Int) - 1) / 4 + 1
  if noReference ≠ 0 then cols + 1 else cols

/-- `y_pos = 0.09 - 0.03 * j` -/
def textY (j : Nat) : Rat := 9 / 100 - 3 / 100 * j

/-- `export.py` 286-297: one column; `counter` is the number of texts written so far. -/
def figureColumn {S : Type} (items : List (Txt × S)) (cols : Int) (i counter : Nat) : Nat × List (FigureText S) :=
  (List.range 4).foldl (fun st j => match items[st.1]? with
    | some e => (st.1 + 1, st.2 ++ [⟨1 / ((cols : Rat) + 1) * ((i : Rat) + 1), textY j, e.1, e.2⟩])
    | none => st) (counter, [])

/-- `export.py` 285-297: the full-reference entries. -/
def figureFull {S : Type} (items : List (Txt × S)) (cols : Int) : Nat × List (FigureText S) :=
  (List.range cols.toNat).foldl (fun st i =>
    let col := figureColumn items cols i st.1
    (col.1, st.2 ++ col.2)) (0, [])

/-- `export.py` 299-303: the no-reference entries in the last column. -/
def figureNo {S : Type} (items : List (Txt × S)) (cols : Int) : List (FigureText S) :=
  items.mapIdx fun j e => ⟨1 / ((cols : Rat) + 1) * (cols : Rat), textY j, e.1, e.2⟩

/-- `export.py` 264-303: all texts. -/
def figureTexts {S : Type} (results : List (Txt × S)) : List (FigureText S) :=
  let (full, no) := countResults results
  let cols := figureColumns full no
  (figureFull (results.filter (fun e => !noReferenceName e.1)) cols).2 ++
    figureNo (results.filter (fun e => noReferenceName e.1)) cols

end Viqa
