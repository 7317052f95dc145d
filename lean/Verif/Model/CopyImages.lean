import Verif.Model.PairFile

/-!
Model of the copies that `src/scripts/write_to_csv.py` makes (lines 36-58). A directory gives the content of a file name; the
files found by `glob` are listed with their contents, in any order.
-/

namespace Viqa

variable {C : Type}

/-- A directory: content of a file, if it exists. -/
abbrev Folder (C : Type) := Txt → Option C

/-- Lines 54-57 `copy_file`: an existing file is left as it is. -/
def copyFile (d : Folder C) (f : Txt × C) : Folder C :=
  if (d f.1).isSome then d else fun n => if n = f.1 then some f.2 else d n

/-- Lines 43-51, for one pair: the reference is copied first. -/
def copyPair (d : Folder C) (p : (Txt × C) × (Txt × C)) : Folder C := copyFile (copyFile d p.1) p.2

/-- Lines 36-42: the pairs with the contents of their files, in the order of the two loops. -/
def pairedFiles (refs mods : List (Txt × C)) : List ((Txt × C) × (Txt × C)) :=
  refs.flatMap (fun r => mods.filterMap (fun m => if stem r.1 = m.1.take 3 then some (r, m) else none))

/-- The folder `images` after `write_to_csv` with `copy=True`. -/
def copiedImages (d : Folder C) (refs mods : List (Txt × C)) : Folder C := (pairedFiles refs mods).foldl copyPair d

end Viqa
