import Verif.Model.Loading
import Verif.Model.PairFile
import Verif.Model.ResultFile

/-!
Opening and closing of files by the readers and writers of the package: `src/viqa/utils/loading.py`,
`src/viqa/utils/export.py` and `src/viqa/multiple.py`. A file object that is not closed by the code is closed
at some later time by the interpreter (with a ResourceWarning); such closings are not events of the code and are
left out. Files are named by their paths. nifti files and pictures are read by other packages and left out.
-/

namespace Viqa

/-- What happens to a file. -/
inductive FileEvent where
  | opened (path : Txt)
  | closed (path : Txt)
  deriving DecidableEq, Repr

/-- A computation that uses files: what happened, and the result. -/
structure UsesFiles (α : Type) where
  events : List FileEvent
  result : Py α

namespace UsesFiles

/-- No file is used. -/
def lift {α} (r : Py α) : UsesFiles α := ⟨[], r⟩

/-- One after the other, until an exception. -/
def andThen {α β} (a : UsesFiles α) (f : α → UsesFiles β) : UsesFiles β :=
  match a.result with
  | .error e => ⟨a.events, .error e⟩
  | .ok v => ⟨a.events ++ (f v).events, (f v).result⟩

/-- `f = open(path)`: `handle` is what opening gives, a reader of the content or an exception. -/
def openFile {α} (path : Txt) (handle : Py α) : UsesFiles α :=
  match handle with
  | .error e => ⟨[], .error e⟩
  | .ok h => ⟨[.opened path], .ok h⟩

/-- `with open(path) as f: body`: the file is closed also if the body raises. -/
def withOpen {α β} (path : Txt) (handle : Py α) (body : α → UsesFiles β) : UsesFiles β :=
  match handle with
  | .error e => ⟨[], .error e⟩
  | .ok h => ⟨[.opened path] ++ (body h).events ++ [.closed path], (body h).result⟩

/-- Loop over several calls; the caller keeps exceptions as results. -/
def each {α β} (f : α → UsesFiles β) : List α → UsesFiles (List (Py β))
  | [] => ⟨[], .ok []⟩
  | x :: xs => ⟨(f x).events ++ (each f xs).events, (each f xs).result.map ((f x).result :: ·)⟩

end UsesFiles

open UsesFiles

/-- `loading.py` 592-612 `_load_binary`. -/
def loadBinaryFiles (fs : FileSystem) (path : Txt) (dt : DType) (dims : List Int) : UsesFiles (DType × NDArray Nat) :=
  andThen (withOpen path (readFile fs path) (fun bytes => lift (.ok bytes)))
    (fun bytes => lift ((loadBinary bytes dt dims).map (fun a => (dt, a))))

/-- `loading.py` 474-561 `load_raw`. -/
def loadRawFiles (fs : FileSystem) (dir name : Txt) : UsesFiles (DType × NDArray Nat) :=
  andThen (lift (parseRawName name)) (fun h => loadBinaryFiles fs (pathJoin dir name) h.2 h.1)

/-- `loading.py` 395-471 `load_mhd`: the header file is opened in line 432, without `with`. `header` is what opening
it gives: an exception, or what reading it gives. -/
def loadMhdFiles (fs : FileSystem) (header : Txt → Py (Py Txt)) (dir name : Txt) : UsesFiles (DType × NDArray Nat) :=
  andThen (openFile (pathJoin dir name) (header (pathJoin dir name))) (fun read =>
    andThen (lift read) (fun text =>
      andThen (lift (parseMhd text)) (fun h => loadBinaryFiles fs (pathJoin dir h.1) h.2.2 h.2.1)))

/-- `multiple.py` 653-666 `_read_pairs`. -/
def readPairsFiles (path : Txt) (handle : Py (Py Txt)) : UsesFiles (List (Option Txt × Option Txt)) :=
  withOpen path handle (fun read => andThen (lift read) (fun text => lift (readPairs text)))

/-- The exports, `loading.py` 278-281, `export.py` 93-101 and 133-150, `multiple.py` 400-416 and 645-650: the content is
made while the file is open; `handle` is what opening it for writing gives. -/
def writeTextFiles (path : Txt) (handle : Py Unit) (content : Py Txt) : UsesFiles Txt :=
  withOpen path handle (fun _ => lift content)

end Viqa
