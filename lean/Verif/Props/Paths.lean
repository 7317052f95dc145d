import Verif.Model.Paths
import Verif.Lemmas.Header

/-!
Where a batch looks for its files: C149.
-/

namespace Viqa

/-- Is a path absolute? -/
def Spec.absolute (p : Txt) : Prop := ∃ r, p = '/' :: r

open Classical in
/-- Parts of a path that is relative to a directory. -/
noncomputable def Spec.within (dir : List Txt) (p : Txt) : List Txt :=
  if Spec.absolute p then pathParts p else dir ++ pathParts p

theorem splitChar_append (c : Char) (a b : Txt) : splitChar c (a ++ c :: b) = splitChar c a ++ splitChar c b := by
  induction a with
  | nil => simp [splitChar]
  | cons x a ih =>
    simp only [List.cons_append, splitChar]
    rw [ih]
    split
    · simp
    · cases h : splitChar c a with
      | nil => exact absurd h (splitChar_ne_nil c a)
      | cons p ps => simp

theorem pathParts_append (a b : Txt) : pathParts (a ++ '/' :: b) = pathParts a ++ pathParts b := by
  unfold pathParts
  rw [splitChar_append, List.filter_append]

theorem pathParts_slash (a : Txt) : pathParts (a ++ ['/']) = pathParts a := by
  rw [pathParts_append]
  simp [pathParts, splitChar]

theorem pathJoin_relative (a b : Txt) (hb : ¬ Spec.absolute b) :
    pathJoin a b = if a = [] ∨ a.getLast? = some '/' then a ++ b else a ++ '/' :: b := by
  unfold pathJoin
  split
  · exact absurd ⟨_, rfl⟩ hb
  · rfl

theorem pathParts_join (a b : Txt) : pathParts (pathJoin a b) = Spec.within (pathParts a) b := by
  unfold Spec.within
  by_cases hb : Spec.absolute b
  · rw [if_pos hb]
    obtain ⟨r, rfl⟩ := hb
    rfl
  · rw [if_neg hb, pathJoin_relative a b hb]
    by_cases h2 : a = [] ∨ a.getLast? = some '/'
    · rw [if_pos h2]
      rcases h2 with rfl | h2
      · simp [pathParts, splitChar]
      · obtain ⟨a', rfl⟩ : ∃ a', a = a' ++ ['/'] := by
          rw [List.getLast?_eq_some_iff] at h2
          exact h2
        rw [List.append_assoc, List.singleton_append, pathParts_append, pathParts_slash]
    · rw [if_neg h2, pathParts_append]

/-- What is in a file, or FileNotFoundError. -/
def Spec.contentAt {α} (files : List Txt → Option α) (p : List Txt) : Py α :=
  match files p with
  | some c => .ok c
  | none => .error .fileNotFound

/-- The directory of the images. -/
noncomputable def Spec.imageDirectory (cwd fileDir : Txt) : List Txt := Spec.within (pathParts cwd) fileDir

/-- **C149.** Images of pairs are looked for in `file_dir`. -/
theorem C149_images {α} (files : List Txt → Option α) (cwd fileDir image : Txt) (hi : ¬ Spec.absolute image) :
    openPairImage files cwd fileDir image = Spec.contentAt files (Spec.imageDirectory cwd fileDir ++ pathParts image) := by
  unfold openPairImage openFile Spec.contentAt
  have h : pathParts (pathJoin cwd (pathJoin fileDir image)) = Spec.imageDirectory cwd fileDir ++ pathParts image := by
    rw [pathParts_join]
    unfold Spec.imageDirectory Spec.within
    have hab : Spec.absolute (pathJoin fileDir image) ↔ Spec.absolute fileDir := by
      rw [pathJoin_relative fileDir image hi]
      cases fileDir with
      | nil =>
        rw [if_pos (.inl rfl), List.nil_append]
        constructor
        · intro h; exact absurd h hi
        · rintro ⟨r, h⟩; cases h
      | cons c d => split <;> simp [Spec.absolute]
    by_cases hd : Spec.absolute fileDir
    · rw [if_pos (hab.2 hd), if_pos hd, pathParts_join]
      unfold Spec.within
      rw [if_neg hi]
    · rw [if_neg (fun h => hd (hab.1 h)), if_neg hd, pathParts_join]
      unfold Spec.within
      rw [if_neg hi, List.append_assoc]
  rw [h]
  rfl

example (files : List Txt → Option Nat) : openPairImage files "/home/me".toList "data/".toList "a.raw".toList =
    Spec.contentAt files (["home", "me", "data", "a.raw"].map String.toList) := by
  rw [C149_images _ _ _ _ (by rintro ⟨r, h⟩; exact absurd (congrArg (fun t => t.head?) h) (by simp))]
  unfold Spec.imageDirectory Spec.within
  rw [if_neg (by rintro ⟨r, h⟩; exact absurd (congrArg (fun t => t.head?) h) (by simp))]
  congr 1

/-- The claim for the file of the pairs, which the documentation says is relative to `file_dir`. -/
def Spec.PairsFileFound (cwd fileDir pairsFile : Txt) : Prop :=
  ∀ (files : List Txt → Option Txt), openPairsFile files cwd fileDir pairsFile =
    Spec.contentAt files (Spec.within (Spec.imageDirectory cwd fileDir) pairsFile)

/-- **C149, partial.** The file of the pairs is found where the documentation says exactly if its path is absolute or
`file_dir` is the working directory. -/
theorem C149_pairs_partial (cwd fileDir pairsFile : Txt) : Spec.PairsFileFound cwd fileDir pairsFile ↔
    Spec.absolute pairsFile ∨ Spec.imageDirectory cwd fileDir = pathParts cwd := by
  unfold Spec.PairsFileFound openPairsFile openFile
  rw [pathParts_join]
  by_cases ha : Spec.absolute pairsFile
  · simp only [ha, true_or, iff_true]
    intro files
    unfold Spec.within Spec.contentAt
    rw [if_pos ha, if_pos ha]
    rfl
  · simp only [ha, false_or]
    unfold Spec.within Spec.contentAt
    rw [if_neg ha, if_neg ha]
    constructor
    · intro h
      have := h (fun p => if p = pathParts cwd ++ pathParts pairsFile then some [] else none)
      simp only [if_true] at this
      by_cases he : Spec.imageDirectory cwd fileDir ++ pathParts pairsFile = pathParts cwd ++ pathParts pairsFile
      · exact List.append_cancel_right he
      · rw [if_neg he] at this
        cases this
    · intro h files
      rw [h]
      rfl

example : Spec.PairsFileFound "/home/me".toList ".".toList "pairs.csv".toList := by
  rw [C149_pairs_partial]
  right
  unfold Spec.imageDirectory Spec.within
  rw [if_neg (by rintro ⟨r, h⟩; exact absurd (congrArg (fun t => t.head?) h) (by simp))]
  decide +kernel

/-- **C149, refuted**: with images in `data` and the file `pairs.csv` beside them. -/
theorem C149_refuted : ¬ Spec.PairsFileFound "/home/me".toList "data".toList "pairs.csv".toList ∧
    (∀ files : List Txt → Option Txt, files (["home", "me", "pairs.csv"].map String.toList) = none →
      openPairsFile files "/home/me".toList "data".toList "pairs.csv".toList = .error .fileNotFound) := by
  constructor
  · rw [C149_pairs_partial]
    rintro (⟨r, h⟩ | h)
    · exact absurd (congrArg (fun t => t.head?) h) (by simp)
    · unfold Spec.imageDirectory Spec.within at h
      rw [if_neg (by rintro ⟨r, h⟩; exact absurd (congrArg (fun t => t.head?) h) (by simp))] at h
      revert h
      decide +kernel
  · intro files h
    have e : pathParts (pathJoin "/home/me".toList "pairs.csv".toList) = ["home", "me", "pairs.csv"].map String.toList := by
      decide +kernel
    unfold openPairsFile openFile
    rw [e, h]

end Viqa
