import Verif.Model.Dispatch
import Verif.Model.Noise
import Verif.Model.Images

/-!
Model of `src/viqa/utils/visualization.py` (views of images and regions) and of
`src/viqa/utils/export.py` (`export_image`, `export_metadata`; `export_results` is in Model/Metric). Drawing itself is not modelled: a view is
the array passed to `imshow`, and the lines and patches added to it. Every view inverts its vertical axis,
so element `[v, h]` of the array is shown at the horizontal coordinate `h` and the vertical coordinate `v`,
counted upwards.
-/

namespace Viqa

/-! ### Views -/

/-- A patch: the square with the corner `(h - r, v - r)` and the side `2 r`, or the circle around
`(h, v)`. -/
inductive Mark where
  | rect (h v r : Int)
  | circle (h v r : Int)
  deriving DecidableEq, Repr

/-- One set of axes. -/
structure Panel (α : Type) where
  shown : NDArray α
  /-- `axhline(y=…)` -/
  hline : Option Int := none
  /-- `axvline(x=…)` -/
  vline : Option Int := none
  mark : Option Mark := none

variable {α : Type}

/-- `np.rot90(img[x, :, ::-1])` -/
def viewX (img : NDArray α) (x : Int) : Py (NDArray α) := do
  let p ← takeSlice img 0 x
  rot90 (flipAxis p 1) 1 0 1

/-- `np.rot90(img[:, y, ::-1])` -/
def viewY (img : NDArray α) (y : Int) : Py (NDArray α) := do
  let p ← takeSlice img 1 y
  rot90 (flipAxis p 1) 1 0 1

/-- `np.rot90(img[::-1, :, z], -1)` -/
def viewZ (img : NDArray α) (z : Int) : Py (NDArray α) := do
  let p ← takeSlice img 2 z
  rot90 (flipAxis p 0) 3 0 1

/-- The three views of `visualize_3d` (`visualization.py` 683-712), of `_visualize_snr_3d` (`visualization.py`
445-569) and of each row of `_visualize_cnr_3d` (`visualization.py` 140-334) with their patches. -/
def threeViews (img : NDArray α) (x y z : Int) (mark : Int → Int → Option Mark) : Py (List (Panel α)) := do
  let a ← viewX img x
  let b ← viewY img y
  let c ← viewZ img z
  .ok [⟨a, some z, some y, mark y z⟩, ⟨b, some z, some x, mark x z⟩, ⟨c, some y, some x, mark x y⟩]

/-- The integers among the slices, `none` if there is another object. -/
def allInts (l : List NumArg) : Option (List Int) :=
  l.mapM (fun | .int n => some n | _ => none)

/-- `visualization.py` 639-716 `visualize_3d`. -/
def visualize3d (img : NDArray α) (slices : List NumArg) : Py (List (Panel α)) :=
  if slices.length ≠ 3 then .error (.valueError "The number of slices must be 3.")
  else match allInts slices with
    | none => .error (.valueError "All slices must be integers.")
    | some s =>
      if img.ndim ≠ 3 then .error (.valueError "The image must be 3D.")
      else if ¬ (List.range s.length).all (fun i =>
          -((img.shape.getD i 0 : Nat) : Int) ≤ s.getD i 0 && s.getD i 0 ≤ ((img.shape.getD i 0 : Nat) : Int)) then
        .error (.valueError "The slices are out of bounds.")
      else threeViews img (s.getD 0 0) (s.getD 1 0) (s.getD 2 0) (fun _ _ => none)

/-- `visualization.py` 594-636 `visualize_2d`. -/
def visualize2d (img : NDArray α) : Py (Panel α) :=
  if img.ndim ≠ 2 then .error (.valueError "The image must be 2D.") else .ok { shown := img }

/-! ### Views of regions -/

/-- The patch for a kind of region; `UnboundLocalError` for other kinds in the CNR functions. -/
def markFor (kind : RKind) (h v r : Int) : Option Mark :=
  match kind with
  | .cubic => some (.rect h v r)
  | .spherical => some (.circle h v r)
  | _ => none

/-- `visualization.py` 43-121 `_visualize_cnr_2d`: background and signal. The second view shows
`img[..., ::-1]`. -/
def cnrViews2d (img : NDArray α) (signal background : Int × Int) (r : Int) (kind : RKind) : Py (List (Panel α)) :=
  match markFor kind background.1 background.2 r, markFor kind signal.1 signal.2 r with
  | some b, some s => .ok [⟨img, none, none, some b⟩, ⟨flipAxis img 1, none, none, some s⟩]
  | _, _ => .error (.unboundLocalError "patch_1")

/-- `visualization.py` 124-339 `_visualize_cnr_3d`: three views of the background, three of the signal. -/
def cnrViews3d (img : NDArray α) (signal background : Int × Int × Int) (r : Int) (kind : RKind) :
    Py (List (Panel α)) :=
  if kind ≠ .cubic ∧ kind ≠ .spherical then
    match viewX img background.1 with
    | .error e => .error e
    | .ok _ => .error (.unboundLocalError "patch_1")
  else
    match threeViews img background.1 background.2.1 background.2.2 (fun h v => markFor kind h v r) with
    | .error e => .error e
    | .ok b => match threeViews img signal.1 signal.2.1 signal.2.2 (fun h v => markFor kind h v r) with
      | .error e => .error e
      | .ok s => .ok (b ++ s)

/-- `visualization.py` 342-411 `_visualize_snr_2d` without overlay. -/
def snrView2d (img : NDArray α) (signal : Int × Int) (r : Int) (kind : RKind) : Py (Panel α) :=
  if kind = .invalid then .error (.valueError "Invalid region type.")
  else .ok ⟨flipAxis img 1, none, none, markFor kind signal.1 signal.2 r⟩

/-- `visualization.py` 414-573 `_visualize_snr_3d` without overlay. -/
def snrViews3d (img : NDArray α) (signal : Int × Int × Int) (r : Int) (kind : RKind) : Py (List (Panel α)) :=
  if kind = .invalid then .error (.valueError "Invalid region type.")
  else threeViews img signal.1 signal.2.1 signal.2.2 (fun h v => markFor kind h v r)

/-- Regions stored in the attribute `parameters` of CNR, if all three are there. -/
abbrev StoredRegions := Option (List NumArg × List NumArg × NumArg)

/-- The arguments are used only if all of them are true values (`cnr.py` 213-223). -/
def chosenRegions (stored : StoredRegions) (signal background : List NumArg) (radius : Option NumArg) :
    Py (List NumArg × List NumArg × NumArg) :=
  match radius with
  | some r =>
    if signal = [] ∨ background = [] ∨ r = .int 0 ∨ r = .float 0 then
      match stored with
      | some t => .ok t
      | none => .error (.valueError "No center or radius provided.")
    else .ok (signal, background, r)
  | none => match stored with
    | some t => .ok t
    | none => .error (.valueError "No center or radius provided.")

/-- A centre of two or three integers. -/
def centre2 (c : List Int) : Int × Int := (c.getD 0 0, c.getD 1 0)
def centre3 (c : List Int) : Int × Int × Int := (c.getD 0 0, c.getD 1 0, c.getD 2 0)

/-- `cnr.py` 162-272 `CNR.visualize_centers` of a loaded image that is not a colour image. `regionType` is
the keyword argument that is passed on with `**kwargs`; without it the functions lack a required
argument. -/
def cnrVisualize (a : NDArray α) (stored : StoredRegions) (signal background : List NumArg) (radius : Option NumArg)
    (regionType : Option String) : Py (List (Panel α)) := do
  let (s, b, r) ← chosenRegions stored signal background radius
  if a.ndim ≠ s.length ∨ a.ndim ≠ b.length then
    .error (.valueError "Centers have to be in the same dimension as img.")
  else do
    let r' ← checkRadius r
    checkBorder s r
    checkBorder b r
    match regionType with
    | none => .error (.typeError "missing 1 required positional argument: 'region_type'")
    | some t =>
      if a.ndim = 3 then cnrViews3d a (centre3 (centreInts s)) (centre3 (centreInts b)) r' (regionKind t)
      else if a.ndim = 2 then cnrViews2d a (centre2 (centreInts s)) (centre2 (centreInts b)) r' (regionKind t)
      else .error (.valueError "No visualization possible for non 2d or non 3d images.")

/-! ### export_image -/

/-- Different values among the given indices: `{x, y, z} - {None}`. -/
def distinctGiven (x y z : Option Int) : List Int := ([x, y, z].filterMap id).eraseDups

/-- `export.py` 217-248: the plane that is shown of a loaded image. -/
def exportPlane (img : NDArray α) (x y z : Option Int) : Py (NDArray α) :=
  if img.ndim = 2 ∨ (img.ndim = 3 ∧ img.lastDim = 3) then .ok (flipAxis img 1)
  else if img.ndim = 3 then
    if x = none ∧ y = none ∧ z = none then .error (.valueError "One axis must be specified")
    else if (distinctGiven x y z).length ≠ 1 then .error (.valueError "Only one axis can be specified")
    else match x, y, z with
      | some x, _, _ => do
        let p ← takeSlice img 0 x
        rot90 (flipAxis p 1) 1 0 1
      | none, some y, _ => do
        let p ← takeSlice img 1 y
        rot90 (flipAxis p 1) 1 0 1
      | none, none, some z => do
        let p ← takeSlice img 2 z
        rot90 (flipAxis p 0) 3 0 1
      | none, none, none => .error (.valueError "Area to be plotted was not correctly specified")
  else .error (.valueError "Image must be 2D or 3D")

/-- `export.py` 213-248: the two planes shown of two images of the same shape, without `roi`. -/
def exportPair (disk : Txt → Py (Image Rat)) (a b : Image Rat) (x y z : Option Int) : Py (NDArray Rat × NDArray Rat) := do
  let (r, m) ← (checkImgs disk (.array a) (.array b) {} false).val
  let p ← exportPlane r.arr x y z
  let q ← exportPlane m.arr x y z
  .ok (p, q)

/-- Name of a result of a no-reference metric. -/
def isNrKey (k : Txt) : Bool := "_r".toList.isSuffixOf k || "_m".toList.isSuffixOf k

/-- `export.py` 261-273: number of columns. -/
def exportCols (nfr nnr : Nat) : Int := (((nfr : Int) - 1) / 4 + 1) + (if nnr ≠ 0 then 1 else 0)

/-- Position of the text in column `i` (from 0) and line `j`. -/
def textPos (cols : Int) (i : Int) (j : Nat) : Rat × Rat := (1 / ((cols : Rat) + 1) * ((i : Rat) + 1), 9 / 100 - 3 / 100 * j)

/-- `export.py` 283-297: positions of the full-reference values in the order of drawing. -/
def frPositions (cols : Int) (n : Nat) : List (Nat × Nat) :=
  ((List.range cols.toNat).flatMap (fun i => (List.range 4).map (fun j => (i, j)))).foldl
    (fun acc p => if acc.length < n then acc ++ [p] else acc) []

/-- `export.py` 255-303: the texts with their positions. -/
def exportLayout (keys : List Txt) : List (Txt × Rat × Rat) :=
  let fr := keys.filter (fun k => !isNrKey k)
  let nr := keys.filter isNrKey
  let cols := exportCols fr.length nr.length
  (List.zipWith (fun k p => (k, textPos cols (p.1 : Nat) p.2)) fr (frPositions cols fr.length)) ++
  (List.zipWith (fun k j => (k, (1 / ((cols : Rat) + 1) * cols, 9 / 100 - 3 / 100 * ((j : Nat) : Rat)))) nr (List.range nr.length))

/-! ### export_metadata -/

/-- What `export_metadata` uses of a metric: the text before the parenthesis of its `str`, the text of its
data range, and the names and texts of its parameters. -/
structure MetaEntry where
  name : Txt
  dataRange : Txt
  params : List (Txt × Txt)
  deriving DecidableEq, Repr

/-- One line for one parameter (`export.py` 146-148). -/
def paramLine (p : Txt × Txt) : Txt := p.1 ++ ": ".toList ++ p.2

/-- The lines written for a metric (`export.py` 141-149). -/
def metaLines (m : MetaEntry) : List Txt :=
  [m.name, m.name.map (fun _ => '-'), "data_range: ".toList ++ m.dataRange] ++ m.params.map paramLine ++ [[]]

/-- `export.py` 140-149: the text below the heading. -/
def metaBody (ms : List MetaEntry) : Txt := (ms.flatMap metaLines).flatMap (fun l => l ++ ['\n'])

/-- `export.py` 140-149: the parameters are looked up by position; with too few of them IndexError is raised
after the file was opened. -/
def metaEntries (metrics : List (Txt × Txt)) (params : List (List (Txt × Txt))) : Py (List MetaEntry) :=
  (metrics.zipIdx).mapM (fun (m, i) => match params[i]? with
    | some p => .ok ⟨m.1, m.2, p⟩
    | none => .error .indexError)

end Viqa
