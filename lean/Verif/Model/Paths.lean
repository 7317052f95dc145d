import Verif.Model.Text

/-!
Which files a `BatchMetrics` object opens (`src/viqa/multiple.py` 201-213, 259-260, 653-654): paths relative to the
working directory.
-/

namespace Viqa

/-- Parts of a path. Paths with the same parts name the same file (POSIX; links and `..` are left alone). -/
def pathParts (p : Txt) : List Txt := (splitChar '/' p).filter (fun c => c ≠ [] ∧ c ≠ ['.'])

/-- `open(p)`: files are found by the parts of their absolute path. -/
def openFile {α} (files : List Txt → Option α) (cwd p : Txt) : Py α :=
  match files (pathParts (pathJoin cwd p)) with
  | some c => .ok c
  | none => .error .fileNotFound

/-- `multiple.py` 207 and 653-654: `_read_pairs(self.pairs_file)` opens the path as it is given; `file_dir` is not
used. -/
def openPairsFile {α} (files : List Txt → Option α) (cwd _fileDir pairsFile : Txt) : Py α := openFile files cwd pairsFile

/-- `multiple.py` 259-260 and 358-359: images are opened with `file_dir` in front. -/
def openPairImage {α} (files : List Txt → Option α) (cwd fileDir image : Txt) : Py α := openFile files cwd (pathJoin fileDir image)

end Viqa
