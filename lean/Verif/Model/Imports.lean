import Verif.Model.Basic
import Verif.Model.Text
import Verif.Model.Display

/-!
Model of `src/viqa/utils/_module.py`: optional dependencies. The import system is a parameter: which exception or module
`import_module` gives for a name, and the attributes of modules.
-/

namespace Viqa

/-- The import system. -/
structure Modules (V : Type) where
  /-- `importlib.import_module`; a missing package is an ImportError, a package may raise anything while it is loaded -/
  load : Txt → Py V
  /-- `getattr`, none for a missing attribute -/
  attr : V → Txt → Option V

/-- `_module.py` 24-56 `try_import`: warnings, and the pair of object and flag or the exception that is not caught. -/
def tryImport {V : Type} (sys : Modules V) (module : Txt) (name : Option Txt) : List Txt × Py (Option V × Bool) :=
  let found : Py V := match sys.load module with
    | .error e => .error e
    | .ok m => match name with
      | some (c :: n) => match sys.attr m (c :: n) with
        | some v => .ok v
        | none => .error (.attributeError "")
      | _ => .ok m
  match found with
  | .error .importError => ([module], .ok (none, false))
  | .error e => ([], .error e)
  | .ok v => ([], .ok (some v, true))

/-- `_module.py` 72-97 `check_interactive_vis_deps`: the packages named in the message of the ImportError. -/
def checkInteractive (hasWidgets hasIPython : Bool) : Except (List String) Unit :=
  if !hasWidgets && !hasIPython then .error ["ipywidgets", "IPython"]
  else if !hasWidgets then .error ["ipywidgets"]
  else if !hasIPython then .error ["IPython"]
  else .ok ()

/-- The start of `cnr.py` (58-59) and `snr.py` (58-59), followed by the check at the start of `set_centers`
(`cnr.py` 328, `snr.py` 390): outer exceptions come from importing the metric, the inner result from `set_centers`. -/
def interactiveMetric {V : Type} (sys : Modules V) : Py (Except (List String) Unit) := do
  let (_, hasWidgets) ← (tryImport sys "ipywidgets".toList none).2
  let (_, hasIPython) ← (tryImport sys "IPython.display".toList (some "display".toList)).2
  .ok (checkInteractive hasWidgets hasIPython)

/-- `cnr.py` 316-326 `CNR.set_centers` outside of notebooks: the static view, ImportError if that raises anything. -/
def setCentersPlain {α : Type} (a : NDArray α) (stored : StoredRegions) (signal background : List NumArg)
    (radius : Option NumArg) (regionType : Option String) : Py (List (Panel α)) :=
  match cnrVisualize a stored signal background radius regionType with
  | .ok p => .ok p
  | .error _ => .error .importError

end Viqa
