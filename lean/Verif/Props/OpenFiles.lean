import Verif.Model.OpenFiles

/-! C197: files are closed after use. -/

namespace Viqa

/-- How often a file was opened and not closed again. -/
def Spec.leftOpen (es : List FileEvent) (path : Txt) : Int :=
  (es.count (.opened path) : Int) - es.count (.closed path)

open Spec UsesFiles

theorem leftOpen_append (a b : List FileEvent) (p : Txt) : leftOpen (a ++ b) p = leftOpen a p + leftOpen b p := by
  simp only [leftOpen, List.count_append]; push_cast; ring

theorem leftOpen_nil (p : Txt) : leftOpen [] p = 0 := rfl

theorem leftOpen_andThen {α β : Type} (a : UsesFiles α) (f : α → UsesFiles β) (p : Txt)
    (hf : ∀ v, leftOpen (f v).events p = 0) : leftOpen (andThen a f).events p = leftOpen a.events p := by
  unfold andThen
  cases a.result with
  | error e => rfl
  | ok v => show leftOpen (a.events ++ (f v).events) p = _; rw [leftOpen_append, hf, add_zero]

theorem leftOpen_withOpen {α β : Type} (path : Txt) (handle : Py α) (body : α → UsesFiles β) (p : Txt)
    (hb : ∀ v, leftOpen (body v).events p = 0) : leftOpen (withOpen path handle body).events p = 0 := by
  unfold withOpen
  cases handle with
  | error e => rfl
  | ok h =>
    show leftOpen ([.opened path] ++ (body h).events ++ [.closed path]) p = 0
    rw [leftOpen_append, leftOpen_append, hb]
    by_cases hp : path = p
    · subst hp; simp [leftOpen]
    · simp [leftOpen, hp]

theorem leftOpen_lift {α : Type} (r : Py α) (p : Txt) : leftOpen (lift r).events p = 0 := rfl

theorem leftOpen_binary (fs : FileSystem) (path : Txt) (dt : DType) (dims : List Int) (p : Txt) :
    leftOpen (loadBinaryFiles fs path dt dims).events p = 0 := by
  unfold loadBinaryFiles
  rw [leftOpen_andThen _ _ _ (fun v => leftOpen_lift _ _)]
  exact leftOpen_withOpen _ _ _ _ (fun v => leftOpen_lift _ _)

/-- **C197, partial**: after `load_raw` every file is closed again, whether a volume is returned or an exception is
raised, and the result is that of the loader. -/
theorem C197_raw_partial (fs : FileSystem) (dir name : Txt) :
    (∀ p, leftOpen (loadRawFiles fs dir name).events p = 0) ∧ (loadRawFiles fs dir name).result = loadRaw fs dir name := by
  constructor
  · intro p
    unfold loadRawFiles
    rw [leftOpen_andThen _ _ _ (fun v => leftOpen_binary _ _ _ _ _)]
    exact leftOpen_lift _ _
  · unfold loadRawFiles loadRaw loadBinaryFiles withOpen andThen lift
    cases parseRawName name with
    | error e => rfl
    | ok h =>
      obtain ⟨dims, dt⟩ := h
      cases hr : readFile fs (pathJoin dir name) with
      | error e => simp [hr]
      | ok bytes => simp only [hr]; cases loadBinary bytes dt dims <;> rfl

/-- **C197, partial**: a file of pairs is closed, readable or not. -/
theorem C197_pairs_partial (path : Txt) (handle : Py (Py Txt)) (p : Txt) :
    leftOpen (readPairsFiles path handle).events p = 0 :=
  leftOpen_withOpen _ _ _ _ (fun v => by rw [leftOpen_andThen _ _ _ (fun w => leftOpen_lift _ _)]; exact leftOpen_lift _ _)

/-- **C197, partial**: an exported file is closed, also if its content could not be made. -/
theorem C197_export_partial (path : Txt) (handle : Py Unit) (content : Py Txt) (p : Txt) :
    leftOpen (writeTextFiles path handle content).events p = 0 :=
  leftOpen_withOpen _ _ _ _ (fun _ => leftOpen_lift _ _)

/-- The result of `load_mhd` with the header file as above. -/
theorem loadMhdFiles_result (fs : FileSystem) (header : Txt → Py (Py Txt)) (dir name text : Txt)
    (h : header (pathJoin dir name) = .ok (.ok text)) : (loadMhdFiles fs header dir name).result = loadMhd fs dir text := by
  unfold loadMhdFiles loadMhd loadBinaryFiles withOpen openFile andThen lift
  simp only [h]
  cases parseMhd text with
  | error e => rfl
  | ok q =>
    obtain ⟨file, dims, dt⟩ := q
    cases hr : readFile fs (pathJoin dir file) with
    | error e => simp [hr]
    | ok bytes => simp only [hr]; cases loadBinary bytes dt dims <;> rfl

theorem leftOpen_mhd (fs : FileSystem) (header : Txt → Py (Py Txt)) (dir name : Txt) (read : Py Txt)
    (h : header (pathJoin dir name) = .ok read) (p : Txt) :
    leftOpen (loadMhdFiles fs header dir name).events p = if pathJoin dir name = p then 1 else 0 := by
  unfold loadMhdFiles
  rw [leftOpen_andThen]
  · unfold openFile
    rw [h]
    by_cases hp : pathJoin dir name = p
    · simp [leftOpen, hp]
    · simp [leftOpen, hp]
  · intro v
    rw [leftOpen_andThen]
    · exact leftOpen_lift _ _
    · intro w
      rw [leftOpen_andThen _ _ _ (fun q => leftOpen_binary _ _ _ _ _)]
      exact leftOpen_lift _ _

/-- **C197, partial**: `load_mhd` closes the data file (a file other than the header), and opens no file if there is no
header. -/
theorem C197_mhd_partial (fs : FileSystem) (header : Txt → Py (Py Txt)) (dir name : Txt) (p : Txt)
    (hp : p ≠ pathJoin dir name ∨ ∃ e, header (pathJoin dir name) = .error e) :
    leftOpen (loadMhdFiles fs header dir name).events p = 0 := by
  cases hh : header (pathJoin dir name) with
  | error e => unfold loadMhdFiles openFile andThen; rw [hh]; rfl
  | ok read =>
    rw [leftOpen_mhd fs header dir name read hh p]
    rcases hp with hp | ⟨e, he⟩
    · rw [if_neg (fun h => hp h.symm)]
    · rw [hh] at he; cases he

/-- **C197, refuted**: every call of `load_mhd` on a header that exists leaves the header file open, whether a volume is
returned or an exception is raised. -/
theorem C197_mhd_refuted (fs : FileSystem) (header : Txt → Py (Py Txt)) (dir name : Txt) (read : Py Txt)
    (h : header (pathJoin dir name) = .ok read) :
    leftOpen (loadMhdFiles fs header dir name).events (pathJoin dir name) = 1 := by
  rw [leftOpen_mhd fs header dir name read h, if_pos rfl]

/-- **C197, refuted**: one file more with every volume that is loaded. -/
theorem C197_many_refuted (fs : FileSystem) (header : Txt → Py (Py Txt)) (dir : Txt) (names : List Txt)
    (h : ∀ n ∈ names, ∃ read, header (pathJoin dir n) = .ok read) (p : Txt) :
    leftOpen (each (loadMhdFiles fs header dir) names).events p = names.countP (fun n => pathJoin dir n = p) := by
  induction names with
  | nil => rfl
  | cons n ns ih =>
    obtain ⟨read, hr⟩ := h n (by simp)
    show leftOpen ((loadMhdFiles fs header dir n).events ++ (each (loadMhdFiles fs header dir) ns).events) p = _
    rw [leftOpen_append, leftOpen_mhd fs header dir n read hr, ih (fun m hm => h m (by simp [hm])), List.countP_cons]
    by_cases hp : pathJoin dir n = p
    · simp [hp]; ring
    · simp [hp]

/-- A header with an unknown type: the exception is raised while the header is open. -/
example : leftOpen (loadMhdFiles (fun _ => none) (fun _ => .ok (.ok "ElementType = X\n".toList)) "d".toList "v.mhd".toList).events
    "d/v.mhd".toList = 1 :=
  (by decide +kernel : pathJoin "d".toList "v.mhd".toList = "d/v.mhd".toList) ▸
    C197_mhd_refuted (fun _ => none) (fun _ => .ok (.ok "ElementType = X\n".toList)) "d".toList "v.mhd".toList _ rfl

/-- A volume that is loaded. -/
example : let text := "DimSize = 1 1 2\nElementType = MET_UCHAR\nElementDataFile = v.raw\n".toList
    (loadMhdFiles (fun p => if p = "d/v.raw".toList then some [7, 9] else none) (fun _ => .ok (.ok text))
      "d".toList "v.mhd".toList).events = [.opened "d/v.mhd".toList, .opened "d/v.raw".toList, .closed "d/v.raw".toList] := by
  decide +kernel

/-- A raw file of the wrong size is closed before the exception. -/
example : (loadRawFiles (fun _ => some [7, 9]) "d".toList "v_1x1x3_8ubit.raw".toList).events =
    [.opened "d/v_1x1x3_8ubit.raw".toList, .closed "d/v_1x1x3_8ubit.raw".toList] := by decide +kernel

end Viqa
