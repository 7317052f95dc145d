import Verif.Model.Basic

/-!
Model of the interactive choice of centres: `CNR.set_centers` (`src/viqa/nr_metrics/cnr.py` 274-675) and
`SNR.set_centers` (`src/viqa/nr_metrics/snr.py` 313-859) inside of IPython, as a machine over user events. Region types
are not switched (SNR with "cubic" or "spherical"), drawing is not modelled; errors while drawing are shown in the output
widget and have no further effect. The sliders are those of ipywidgets (`IntSlider`): values are moved into the bounds,
bounds that exclude each other raise `TraitError`. A metric has at most one open panel.
-/

namespace Viqa

/-- An `IntSlider`. -/
structure Slider where
  lo : Int
  hi : Int
  val : Int
  deriving DecidableEq, Repr

namespace Slider

/-- Creation (`_create_slider_widget`, `visualization.py` 575-591). -/
def make (lo hi v : Int) : Option Slider := if hi < lo then none else some ⟨lo, hi, max lo (min hi v)⟩

/-- Assignment to `min`; `none` is a TraitError. -/
def setMin (s : Slider) (m : Int) : Option Slider := if s.hi < m then none else some ⟨m, s.hi, max m s.val⟩

/-- Assignment to `max`; `none` is a TraitError. -/
def setMax (s : Slider) (m : Int) : Option Slider := if m < s.lo then none else some ⟨s.lo, m, min m s.val⟩

/-- The user moves the slider. -/
def setVal (s : Slider) (v : Int) : Slider := ⟨s.lo, s.hi, max s.lo (min s.hi v)⟩

end Slider

/-- Coordinates (for CNR those of both centres) and radius. -/
abbrev Choice := List Int × Int

/-- The widgets of one call. `axes` has the size of the axis for every coordinate slider, in the order in which
`_update_values` treats them (`cnr.py` 500-517, `snr.py` 615-624). `zNone`: the z slider is `None` (SNR of 2D images,
`snr.py` 611-612). -/
structure WidgetPanel where
  axes : List Nat
  zNone : Bool
  radius : Slider
  coords : List Slider
  deriving DecidableEq, Repr

/-- The values shown by the sliders. -/
def WidgetPanel.shown (p : WidgetPanel) : Choice := (p.coords.map Slider.val, p.radius.val)

/-- `_update_values`: new bounds for all sliders, one after the other. The result tells whether some value changed (every
change is published at once by `interactive_output`), and whether a TraitError ended the update. -/
def updateBounds (r : Int) : List (Nat × Slider) → List Slider × Bool × Bool
  | [] => ([], false, false)
  | (n, s) :: rest =>
    match s.setMin (r + 1) with
    | none => (s :: rest.map Prod.snd, false, true)
    | some s1 =>
      match s1.setMax ((n : Int) - (r + 1)) with
      | none => (s1 :: rest.map Prod.snd, s1.val ≠ s.val, true)
      | some s2 =>
        let t := updateBounds r rest
        (s2 :: t.1, (s1.val ≠ s.val || s2.val ≠ s1.val) || t.2.1, t.2.2)

/-- What exists in the session: the module variables (shared by all panels of a class), the panels and the
`parameters` of the metrics, by metric. -/
structure Session where
  globals : Option Choice
  panels : Nat → Option WidgetPanel
  stored : Nat → Option Choice

/-- Function update. -/
def setAt {α} (f : Nat → α) (i : Nat) (a : α) : Nat → α := fun j => if j = i then a else f j

/-- User events; `open` has the axes, whether the z slider is `None`, the number of coordinates per centre and the starting
values. -/
inductive WidgetEvent where
  | open (m : Nat) (axes : List Nat) (zNone : Bool) (start : Choice)
  | moveRadius (m : Nat) (r : Int)
  | moveCoord (m : Nat) (i : Nat) (c : Int)
  | save (m : Nat)

/-- `cnr.py` 404-423: stored values take precedence over the arguments. -/
def cnrStart (stored : Option Choice) (args : Choice) : Choice := stored.getD args

/-- `snr.py` 498-511: arguments take precedence over stored values. -/
def snrStart (stored : Option Choice) (args : Option Choice) (default : Choice) : Choice :=
  args.getD (stored.getD default)

/-- `cnr.py` 425-440, `snr.py` 544-567: checks of the starting values (types are not modelled). -/
def startAccepted (axes : List Nat) (start : Choice) : Bool :=
  start.1.length = axes.length && 0 < start.2 && start.1.all (fun c => 0 ≤ (c.natAbs : Int) - start.2)

/-- The coordinate sliders (`cnr.py` 453-495, `snr.py` 586-612). -/
def makeCoords (r : Int) : List (Nat × Int) → Option (List Slider)
  | [] => some []
  | (n, c) :: rest =>
    match Slider.make (r + 1) ((n : Int) - (r + 1)) c, makeCoords r rest with
    | some s, some t => some (s :: t)
    | _, _ => none

/-- All sliders (`cnr.py` 445-495, `snr.py` 577-612). -/
def makePanel (axes : List Nat) (zNone : Bool) (start : Choice) : Option WidgetPanel :=
  match Slider.make 1 ((axes.foldl min (axes.headD 0) / 2 : Nat) : Int) start.2 with
  | none => none
  | some rs =>
    match makeCoords rs.val (axes.zip start.1) with
    | none => none
    | some cs => some ⟨axes, zNone, rs, cs⟩

/-- One event. Exceptions end the event, effects up to there remain. -/
def Session.step (s : Session) : WidgetEvent → Session
  | .open m axes zNone start =>
    let s1 : Session := { s with globals := some start }
    if startAccepted axes start = false then s1
    else
      let s2 : Session := { s1 with stored := setAt s1.stored m (some start) }
      match makePanel axes zNone start with
      | none => s2
      | some p => { s2 with panels := setAt s2.panels m (some p), globals := some p.shown }
  | .moveRadius m r =>
    match s.panels m with
    | none => s
    | some p =>
      let rs := p.radius.setVal r
      if rs.val = p.radius.val then s
      else
        let u := updateBounds rs.val (p.axes.zip p.coords)
        let p' : WidgetPanel := { p with radius := rs, coords := u.1 }
        let s1 : Session := { s with panels := setAt s.panels m (some p') }
        if u.2.2 || p.zNone then
          if u.2.1 then { s1 with globals := some p'.shown } else s1
        else { s1 with globals := some p'.shown }
  | .moveCoord m i c =>
    match s.panels m with
    | none => s
    | some p =>
      match p.coords[i]? with
      | none => s
      | some sl =>
        let sl' := sl.setVal c
        if sl'.val = sl.val then s
        else
          let p' : WidgetPanel := { p with coords := p.coords.set i sl' }
          { s with panels := setAt s.panels m (some p'), globals := some p'.shown }
  | .save m =>
    match s.panels m with
    | none => s
    | some _ => { s with stored := setAt s.stored m s.globals }

/-- A sequence of events. -/
def Session.run (s : Session) (es : List WidgetEvent) : Session := es.foldl Session.step s

/-- A new session. -/
def Session.new : Session := ⟨none, fun _ => none, fun _ => none⟩

end Viqa
