import Verif.Model.Display
import Verif.Model.Widget

/-!
Model of the views and of the stored values of `src/viqa/nr_metrics/snr.py`: `SNR.visualize_centers` (168-311) with
`_visualize_snr_2d` and `_visualize_snr_3d` (`visualization.py` 342-572), and the start of `SNR.set_centers` (375-390,
406-448, 542-703). Centres and radii are integers (other types are treated in Model/Regions), thresholds and iterations
as well. Drawing is modelled as in Model/Display; overlays are the arrays drawn on top of the views.
-/

namespace Viqa

/-- The attribute `parameters`, or keyword arguments: the outer option tells whether the key is there, the inner one is
`none` for the value `None`. -/
structure SnrParams where
  regionType : Option String := none
  center : Option (Option (List Int)) := none
  radius : Option (Option Int) := none
  iterations : Option (Option Int) := none
  lower : Option (Option Int) := none
  upper : Option (Option Int) := none
  deriving DecidableEq, Repr

/-- A metric: `parameters` and `_region`, which is missing at first. -/
structure SnrMetric (α : Type) where
  params : SnrParams := {}
  region : Option (NDArray α) := none

/-- A figure: the panels and what is drawn on top of their images. -/
structure SnrFigure (α : Type) where
  panels : List (Panel α)
  overlays : List (NDArray α)

/-! ### Drawing -/

/-- The patches (`visualization.py` 384-405, 463-484, 503-524, 543-564): a missing radius raises only if it is needed. -/
def snrPatch (kind : RKind) (radius : Option Int) : Py (Int → Int → Option Mark) :=
  match kind with
  | .cubic | .spherical =>
    match radius with
    | none => .error (.typeError "unsupported operand type(s)")
    | some r => .ok (fun h v => markFor kind h v r)
  | _ => .ok (fun _ _ => none)

/-- `visualization.py` 352-367 and 426-441: the kind of region that is drawn and the overlay. -/
def snrOverlay {α} (shape : List Nat) (regionType : String) (signal : Option (NDArray α)) :
    Py (RKind × Option (NDArray α)) :=
  match regionKind regionType with
  | .invalid => .error (.valueError "Invalid region type.")
  | .full =>
    match signal with
    | none => .ok (.original, none)
    | some s =>
      if s.shape ≠ shape then .error (.valueError "The signal must have the same shape as the image.")
      else .ok (.full, some s)
  | k => .ok (k, none)

/-- `visualization.py` 342-413 `_visualize_snr_2d`. The image is mirrored, the overlay is not. -/
def snrDraw2d {α} (img : NDArray α) (center : List Int) (radius : Option Int) (regionType : String)
    (signal : Option (NDArray α)) : Py (SnrFigure α) := do
  let (kind, over) ← snrOverlay img.shape regionType signal
  let mark ← (if kind = .cubic ∨ kind = .spherical then
      match center with
      | h :: v :: _ => do
        let patch ← snrPatch kind radius
        .ok (patch h v)
      | _ => .error .indexError
    else .ok none)
  .ok ⟨[⟨flipAxis img (img.ndim - 1), none, none, mark⟩], over.toList⟩

/-- `visualization.py` 416-572 `_visualize_snr_3d`. -/
def snrDraw3d {α} (img : NDArray α) (center : List Int) (radius : Option Int) (regionType : String)
    (signal : Option (NDArray α)) : Py (SnrFigure α) := do
  let (kind, over) ← snrOverlay img.shape regionType signal
  match center with
  | x :: y :: z :: _ => do
    let _ ← viewX img x
    let patch ← snrPatch kind radius
    let panels ← threeViews img x y z patch
    match over with
    | none => .ok ⟨panels, []⟩
    | some s => do
      let a ← viewX s x
      let b ← viewY s y
      let c ← viewZ s z
      .ok ⟨panels, [a, b, c]⟩
  | _ => .error .indexError

/-! ### visualize_centers -/

/-- `not signal` (`snr.py` 236) for an array: an error for several elements. (An empty array counts as missing; newer
versions of numpy raise for it as well.) -/
def signalMissing (s : NDArray Rat) : Py Bool :=
  if s.shape.prod = 0 then .ok true
  else if s.shape.prod = 1 then .ok (s.get (s.shape.map (fun _ => 0)) = 0)
  else .error (.valueError "The truth value of an array with more than one element is ambiguous.")

/-- `snr.py` 236-240: the region that is used. -/
def snrSignal (m : SnrMetric Rat) (signal : Option (NDArray Rat)) : Py (Option (NDArray Rat)) :=
  match signal with
  | none => .ok m.region
  | some s => do
    let missing ← signalMissing s
    .ok (if missing then m.region else some s)

/-- `snr.py` 243-256: centre and radius, from `parameters` if not given. The empty tuple and 0 count as not given. -/
def snrCentre (m : SnrMetric Rat) (center : List Int) (radius : Option Int) : Py (List Int × Int) := do
  let c ← (if center = [] then
      match m.params.center with
      | some (some c) => .ok c
      | _ => .error (.valueError "No center provided.")
    else .ok center)
  let r ← (match radius with
    | some r => if r = 0 then
        match m.params.radius with
        | some (some r) => .ok r
        | _ => .error (.valueError "No radius provided.")
      else .ok r
    | none =>
      match m.params.radius with
      | some (some r) => .ok r
      | _ => .error (.valueError "No radius provided."))
  .ok (c, r)

/-- `snr.py` 258-272: the checks of centre and radius. -/
def snrShownChecks (img : NDArray Rat) (c : List Int) (r : Int) : Py Unit :=
  if img.lastDim = 3 ∧ img.ndim ≠ c.length + 1 then .error (.valueError "Center has to be in the same dimension as img.")
  else if img.lastDim ≠ 3 ∧ img.ndim ≠ c.length then
    .error (.valueError "Center has to be in the same dimension as img.")
  else if r ≤ 0 then .error (.typeError "Radius has to be a positive integer.")
  else checkBorder (c.map .int) (.int r)

/-- `snr.py` 231-235: the region type, from `parameters` if not given. The empty text counts as not given. -/
def snrType (m : SnrMetric Rat) (regionType : Option String) : Py String :=
  match regionType, m.params.regionType with
  | some t, none => if t = "" then .error (.valueError "No region type provided.") else .ok t
  | some t, some stored => .ok (if t = "" then stored else t)
  | none, some stored => .ok stored
  | none, none => .error (.valueError "No region type provided.")

/-- `snr.py` 168-311 `SNR.visualize_centers` of a loaded image; `gray` is `_to_grayscale`. -/
def snrVisualize (gray : NDArray Rat → NDArray Rat) (img : NDArray Rat) (m : SnrMetric Rat) (center : List Int)
    (radius : Option Int) (regionType : Option String) (signal : Option (NDArray Rat)) : Py (SnrFigure Rat) := do
  let t ← snrType m regionType
  let sig ← snrSignal m signal
  let (c, r) ← (if sig.isNone ∧ t ≠ "full" ∧ t ≠ "original" then do
      let (c, r) ← snrCentre m center radius
      snrShownChecks img c r
      .ok (c, some r)
    else .ok (if center = [] then img.shape.map (fun n => ((n / 2 : Nat) : Int)) else center, radius))
  if img.ndim = 3 ∧ img.lastDim ≠ 3 then snrDraw3d img c r t sig
  else if img.ndim = 3 then snrDraw2d (gray img) c r t sig
  else if img.ndim = 2 then snrDraw2d img c r t sig
  else .error (.valueError "No visualization possible for non 2d or non 3d images.")

/-- `snr.py` 378-388 `SNR.set_centers` outside of notebooks: the keyword arguments with the starting values are not
passed on, those in `vis_kwargs` are. -/
def snrSetCentersPlain (gray : NDArray Rat → NDArray Rat) (img : NDArray Rat) (m : SnrMetric Rat) (_start : SnrParams)
    (center : List Int) (radius : Option Int) (regionType : Option String) (signal : Option (NDArray Rat)) :
    Py (SnrFigure Rat) :=
  match snrVisualize gray img m center radius regionType signal with
  | .ok f => .ok f
  | .error _ => .error .importError

/-! ### The interactive choice -/

/-- The module variables `glob_…` (`snr.py` 61-67), shared by all metrics. -/
structure SnrVars (α : Type) where
  signal : Option (NDArray α) := none
  center : Option (List Int) := some []
  radius : Option Int := none
  regionType : Option String := none
  iterations : Option Int := none
  lower : Option Int := none
  upper : Option Int := none

/-- `snr.py` 407-448 `_save_values`. -/
def snrSave {α} (v : SnrVars α) (m : SnrMetric α) : SnrMetric α :=
  if v.regionType = some "full" then
    ⟨⟨some "full", some none, some none, some v.iterations, some v.lower, some v.upper⟩, v.signal⟩
  else if v.regionType = some "cubic" ∨ v.regionType = some "spherical" then
    ⟨⟨v.regionType, some v.center, some v.radius, some none, some none, some none⟩, m.region⟩
  else ⟨⟨v.regionType, some none, some none, some none, some none, some none⟩, m.region⟩

/-- What the panel shows when it appears. -/
structure SnrSliders where
  regionType : String
  panel : WidgetPanel
  lower : Int
  upper : Int
  iterations : Int

/-- A slider with the starting value `None` starts from 0, as ipywidgets does, moved into the bounds. -/
def sliderStart (lo hi : Int) (v : Option Int) : Int := max lo (min hi (v.getD 0))

/-- `snr.py` 548-590: a starting value is the argument, the stored value or the default. -/
def startFrom {β} (arg stored : Option β) (default : β) : β := arg.getD (stored.getD default)

/-- `snr.py` 592-703 and the first drawing, for given starting values: variables and metric afterwards, and the panel.
`shape` is the shape of the (grayscale) image with 2 or 3 axes. Bounds that exclude each other raise a TraitError, modelled
as a RuntimeError. -/
def snrOpenWith {α} (shape : List Nat) (v : SnrVars α) (m : SnrMetric α) (center : Option (List Int)) (radius : Option Int)
    (regionType : String) (iterations lower upper : Option Int) : SnrVars α × SnrMetric α × Py SnrSliders :=
  let v1 : SnrVars α := { v with center := center, radius := radius, regionType := some regionType }
  match center, radius with
  | none, _ => (v1, m, .error (.typeError "object of type 'NoneType' has no len()"))
  | some c, none =>
    if c.length ≠ shape.length then
      (v1, m, .error (.valueError "Signal center has to be in the same dimension as img."))
    else (v1, m, .error (.typeError "Radius has to be a positive integer."))
  | some c, some r =>
    if c.length ≠ shape.length then
      (v1, m, .error (.valueError "Signal center has to be in the same dimension as img."))
    else if r ≤ 0 then (v1, m, .error (.typeError "Radius has to be a positive integer."))
    else if regionType ≠ "full" ∧ regionType ≠ "original" ∧ regionType ≠ "cubic" ∧ regionType ≠ "spherical" then
      (v1, m, .error (.valueError "Region type not valid."))
    else
      match checkBorder (c.map .int) (.int r) with
      | .error e => (v1, m, .error e)
      | .ok () =>
        let m1 := snrSave v1 m
        match makePanel shape (shape.length = 2) (c, r) with
        | none => (v1, m1, .error (.runtimeError "TraitError"))
        | some p =>
          ({ v1 with center := some p.shown.1, radius := some p.shown.2 }, m1,
            .ok ⟨regionType, p, sliderStart 0 100 lower, sliderStart 0 100 upper, sliderStart 1 10 iterations⟩)

/-- `snr.py` 542-703 `SNR.set_centers` in notebooks. -/
def snrOpen {α} (shape : List Nat) (v : SnrVars α) (m : SnrMetric α) (args : SnrParams) :
    SnrVars α × SnrMetric α × Py SnrSliders :=
  snrOpenWith shape v m
    (startFrom args.center m.params.center (some (shape.map (fun n => ((n / 2 : Nat) : Int)))))
    (startFrom args.radius m.params.radius (some 1))
    (startFrom args.regionType m.params.regionType "cubic")
    (startFrom args.iterations m.params.iterations (some 2))
    (startFrom args.lower m.params.lower (some 90))
    (startFrom args.upper m.params.upper (some 99))

/-- The user picks a region type (`snr.py` 485-490). -/
def snrPick {α} (v : SnrVars α) (t : String) : SnrVars α := { v with regionType := some t }

/-- `snr.py` 456-482 `_calculate_region` with the values of the sliders; the region is found in Model/Regions. -/
def snrCalculate {α} (v : SnrVars α) (region : NDArray α) (lower upper iterations : Int) : SnrVars α :=
  { v with signal := some region, iterations := some iterations, lower := some lower, upper := some upper,
           regionType := some "full" }

end Viqa
