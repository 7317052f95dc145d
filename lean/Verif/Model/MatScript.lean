import Verif.Model.Normalize
import Verif.Model.Text

/-!
Model of `src/scripts/write_to_mat.py`. The directory is a list of entries; what `viqa.load_data` gives for the
file of an entry is part of the entry (the model of loading is in `Model/Loading.lean`). A data directory whose
own name contains wildcards is not covered.
-/

namespace Viqa

/-- An entry of the data directory: its name and the result of loading `<entry>/<filename>`. -/
structure MatEntry where
  name : Txt
  load : Py (Image Rat)

/-- What is written into `<entry>/image.mat` under the name `image`: an image, or an image of pixels that
are not a number. -/
inductive MatFile where
  | image (i : Image Rat)
  | nan

/-- write_to_mat.py 32: `glob.glob(os.path.join(data_dir, "*"))`; the pattern does not match hidden names. -/
def globStar (l : List MatEntry) : List MatEntry := l.filter (fun e => e.name.head? != some '.')

/-- write_to_mat.py 35-45: the files written, and the counter or the exception that ended the loop. -/
def matLoop (ident : Bool) : List MatEntry → Nat → List (Txt × MatFile) × Py Nat
  | [], n => ([], .ok n)
  | e :: es, n =>
    match e.load with
    | .error x => ([], .error x)
    | .ok img =>
      match (normalizeData ident img (0, 1) none true).val with
      | .ok r =>
        let rest := matLoop ident es (n + 1)
        ((e.name, .image r) :: rest.1, rest.2)
      | .error .notANumber =>
        let rest := matLoop ident es (n + 1)
        ((e.name, .nan) :: rest.1, rest.2)
      | .error x => ([], .error x)

/-- write_to_mat.py 29-47 `write_to_mat`: the files written and the number printed. -/
def writeToMat (ident : Bool) (dir : List MatEntry) : List (Txt × MatFile) × Py Nat :=
  matLoop ident (globStar dir) 0

/-- write_to_mat.py 50-61: data directory and file name, or the exit code. -/
def matArguments (argv : List Txt) : Except Nat (Txt × Txt) :=
  match argv with
  | _ :: d :: f :: _ => .ok (d, f)
  | [_, d] => .ok (d, "volume.mhd".toList)
  | _ => .error 1

end Viqa
