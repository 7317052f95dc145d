import Verif.Model.Build
import Verif.Lemmas.Header

/-!
Properties C165 and C166: version and requirement files.
-/

namespace Viqa
open Spec

/-! ### C165: version -/

/-- The assignment of the version as Black and semantic-release write it. -/
def Spec.versionAssignment (v : Txt) : Txt := "__version__ = \"".toList ++ v ++ ['"', '\n']

theorem versionLine_found (pre post : List Txt) (l : Txt) (hp : ∀ x ∈ pre, ¬ ("__version__".toList <+: x)) (hl : "__version__".toList <+: l) :
    versionLine (pre ++ l :: post) = some l := by
  unfold versionLine
  rw [List.find?_append, List.find?_eq_none.2 (by intro x hx; rw [List.isPrefixOf_iff_prefix]; exact hp x hx)]
  rw [List.find?_cons_of_pos (by rw [List.isPrefixOf_iff_prefix]; exact hl)]
  rfl

theorem stripBlanks_line (c d : Char) (m : Txt) (hc : c.isWhitespace = false) (hd : d.isWhitespace = false) :
    stripBlanks (c :: m ++ [d, '\n']) = c :: m ++ [d] := by
  unfold stripBlanks
  rw [List.cons_append, List.dropWhile_cons_of_neg (by simp [hc])]
  have : (c :: (m ++ [d, '\n'])).reverse = '\n' :: d :: (c :: m).reverse := by simp
  rw [this, List.dropWhile_cons_of_pos (by decide), List.dropWhile_cons_of_neg (by simp [hd])]
  simp

theorem filter_noquotes (v : Txt) (h1 : '"' ∉ v) (h2 : '\'' ∉ v) (q : Char) (hq : q = '"' ∨ q = '\'') :
    (((q :: v ++ [q]).filter (· ≠ '"')).filter (· ≠ '\'')) = v := by
  have e1 : v.filter (fun x => !decide (x = '"')) = v := List.filter_eq_self.2 (fun a ha => by
    simp only [Bool.not_eq_true', decide_eq_false_iff_not]; rintro rfl; exact h1 ha)
  have e2 : v.filter (fun x => !decide (x = '\'')) = v := List.filter_eq_self.2 (fun a ha => by
    simp only [Bool.not_eq_true', decide_eq_false_iff_not]; rintro rfl; exact h2 ha)
  rcases hq with rfl | rfl <;> simp [List.filter_append, e1, e2, -List.filter_filter]

/-- **C165.** The version of the package is the version of the build and of the documentation. -/
theorem C165_same (pre post : List Txt) (v : Txt) (hp : ∀ x ∈ pre, ¬ ("__version__".toList <+: x)) (h1 : '"' ∉ v) (h2 : '\'' ∉ v)
    (h3 : '=' ∉ v) : buildVersion (pre ++ versionAssignment v :: post) = .ok v ∧ docsVersion (pre ++ versionAssignment v :: post) = .ok v := by
  have hl : "__version__".toList <+: versionAssignment v := ⟨" = \"".toList ++ v ++ ['"', '\n'], rfl⟩
  constructor
  · unfold buildVersion
    rw [versionLine_found pre post _ hp hl]
    simp only
    have hs : stripBlanks (versionAssignment v) = "__version__".toList ++ (eqSep ++ ('"' :: v ++ ['"'])) :=
      stripBlanks_line '_' '"' ("_version__ = \"".toList ++ v) (by decide) (by decide)
    have hsep : ¬ HasSep ('"' :: v ++ ['"']) := by
      rintro ⟨a, b, h⟩
      have : '=' ∈ '"' :: v ++ ['"'] := by rw [h]; simp [eqSep]
      simp only [List.cons_append, List.mem_cons, List.mem_append, List.not_mem_nil, or_false] at this
      rcases this with h | h | h
      · exact absurd h (by decide)
      · exact h3 h
      · exact absurd h (by decide)
    rw [hs, splitEq_entry _ _ (by decide) hsep]
    simp only [List.getElem?_cons_succ, List.getElem?_cons_zero]
    rw [filter_noquotes v h1 h2 '"' (Or.inl rfl)]
  · unfold docsVersion
    rw [versionLine_found pre post _ hp hl]
    simp only
    have hs : versionAssignment v = "__version__ = ".toList ++ '"' :: (v ++ '"' :: ['\n']) := by
      unfold versionAssignment
      rw [show "__version__ = \"".toList = "__version__ = ".toList ++ ['"'] by decide]
      simp only [List.append_assoc, List.cons_append, List.nil_append]
    rw [hs, splitChar_line '"' _ _ (by decide), splitChar_line '"' _ _ h1]
    rfl

example : buildVersion [['"', '\n'], "__version__ = \"2.2.4\"\n".toList, "__author__ = \"x\"\n".toList] = .ok "2.2.4".toList :=
  (C165_same [['"', '\n']] ["__author__ = \"x\"\n".toList] "2.2.4".toList (by decide +kernel) (by decide) (by decide) (by decide)).1

/-- **C165** is false for single quotes: the build finds the version, the documentation cannot be built. -/
theorem C165_single_quotes_refuted (pre post : List Txt) (v : Txt) (hp : ∀ x ∈ pre, ¬ ("__version__".toList <+: x)) (h1 : '"' ∉ v)
    (h2 : '\'' ∉ v) (h3 : '=' ∉ v) :
    buildVersion (pre ++ ("__version__ = '".toList ++ v ++ ['\'', '\n']) :: post) = .ok v ∧
      docsVersion (pre ++ ("__version__ = '".toList ++ v ++ ['\'', '\n']) :: post) = .error .indexError := by
  have hl : "__version__".toList <+: "__version__ = '".toList ++ v ++ ['\'', '\n'] := ⟨" = '".toList ++ v ++ ['\'', '\n'], rfl⟩
  constructor
  · unfold buildVersion
    rw [versionLine_found pre post _ hp hl]
    simp only
    have hs : stripBlanks ("__version__ = '".toList ++ v ++ ['\'', '\n']) = "__version__".toList ++ (eqSep ++ ('\'' :: v ++ ['\''])) :=
      stripBlanks_line '_' '\'' ("_version__ = '".toList ++ v) (by decide) (by decide)
    have hsep : ¬ HasSep ('\'' :: v ++ ['\'']) := by
      rintro ⟨a, b, h⟩
      have : '=' ∈ '\'' :: v ++ ['\''] := by rw [h]; simp [eqSep]
      simp only [List.cons_append, List.mem_cons, List.mem_append, List.not_mem_nil, or_false] at this
      rcases this with h | h | h
      · exact absurd h (by decide)
      · exact h3 h
      · exact absurd h (by decide)
    rw [hs, splitEq_entry _ _ (by decide) hsep]
    simp only [List.getElem?_cons_succ, List.getElem?_cons_zero]
    rw [filter_noquotes v h1 h2 '\'' (Or.inr rfl)]
  · unfold docsVersion
    rw [versionLine_found pre post _ hp hl]
    simp only
    rw [splitChar_none '"' _ (by
      simp only [List.mem_append, List.mem_cons, List.not_mem_nil, or_false, not_or]
      exact ⟨⟨by decide, h1⟩, by decide, by decide⟩)]
    rfl

example : docsVersion ["__version__ = '2.2.4'\n".toList] = .error .indexError :=
  (C165_single_quotes_refuted [] [] "2.2.4".toList (by simp) (by decide) (by decide) (by decide)).2

/-- **C165** is false without blanks around the equals sign: the documentation finds the version, the build fails. -/
theorem C165_no_blanks_refuted : buildVersion ["__version__=\"2.2.4\"\n".toList] = .error .indexError ∧
    docsVersion ["__version__=\"2.2.4\"\n".toList] = .ok "2.2.4".toList := by decide +kernel

/-- **C165**, without a version: the build stops, the documentation is built as version `vUndefined`. -/
theorem C165_missing (lines : List Txt) (h : ∀ x ∈ lines, ¬ ("__version__".toList <+: x)) :
    (∀ v, buildVersion lines ≠ .ok v) ∧ docsVersion lines = .ok "vUndefined".toList := by
  have hl : versionLine lines = none := by
    unfold versionLine
    rw [List.find?_eq_none]
    intro x hx
    rw [List.isPrefixOf_iff_prefix]
    exact h x hx
  unfold buildVersion docsVersion
  rw [hl]
  exact ⟨fun v hv => by simp at hv, rfl⟩

/-- A package that has its version in `_version.py` only. -/
example : docsVersion ["from ._version import __version__\n".toList] = .ok "vUndefined".toList :=
  (C165_missing _ (by decide +kernel)).2

/-! ### C166: requirement files -/

/-- What pip takes from a requirement file: the lines that are neither blank nor comments. -/
def Spec.requirementsOf (text : Txt) : List Txt := (splitChar '\n' text).filter (fun l => l ≠ [] ∧ l.head? ≠ some '#')

/-- A requirement of one line. -/
def Spec.IsRequirement (r : Txt) : Prop := r ≠ [] ∧ r.head? ≠ some '#' ∧ '\n' ∉ r

theorem splitChar_joinLines : ∀ (ls : List Txt), ls ≠ [] → (∀ l ∈ ls, '\n' ∉ l) → splitChar '\n' (joinLines ls ++ ['\n']) = ls ++ [[]]
  | [], h, _ => absurd rfl h
  | [l], _, h => by
    rw [joinLines, splitChar_line '\n' l [] (h l (by simp)), splitChar_none '\n' [] (by simp)]
    rfl
  | l :: l' :: r, _, h => by
    have ih := splitChar_joinLines (l' :: r) (by simp) (fun x hx => h x (List.mem_cons_of_mem _ hx))
    rw [joinLines, List.append_assoc, List.cons_append, splitChar_line '\n' l _ (h l (by simp)), ih]
    · rfl
    · simp

/-- **C166.** The requirement file of a group lists exactly the requirements of the group, in the same order. -/
theorem C166_contents (reqs : List Txt) (h : ∀ r ∈ reqs, IsRequirement r) : requirementsOf (requirementText reqs) = reqs := by
  unfold requirementsOf requirementText
  rw [splitChar_joinLines _ (by simp [requirementHeader]) (by
    intro l hl
    rcases List.mem_append.1 hl with hl | hl
    · exact (by decide +kernel : ∀ l ∈ requirementHeader, '\n' ∉ l) l hl
    · exact (h l hl).2.2)]
  rw [List.filter_append, List.filter_append, List.filter_eq_nil_iff.2 (by decide), List.nil_append,
    List.filter_eq_self.2 (fun r hr => by simp [(h r hr).1, (h r hr).2.1])]
  simp

example : requirementsOf (requirementText ["jupyter >=1.0.0".toList, "ipywidgets >=8.1.2".toList]) =
    ["jupyter >=1.0.0".toList, "ipywidgets >=8.1.2".toList] :=
  C166_contents _ (by unfold IsRequirement; decide)

theorem generate_other (optional : List (Txt × List Txt)) (n : Txt) (h : n ∉ optional.map Prod.fst) (fs : RequirementFiles) :
    optional.foldl (fun fs g => writeRequirements fs g.1 g.2) fs n = fs n := by
  induction optional generalizing fs with
  | nil => rfl
  | cons g l ih =>
    simp only [List.map_cons, List.mem_cons, not_or] at h
    rw [List.foldl_cons, ih h.2]
    simp [writeRequirements, h.1]

/-- **C166.** Each group has its own file, and other files are not touched. Missing: a group called `default`. -/
theorem C166_files_partial (fs : RequirementFiles) (deps : List Txt) (optional : List (Txt × List Txt)) (hn : (optional.map Prod.fst).Nodup)
    (hd : "default".toList ∉ optional.map Prod.fst) :
    generateRequirements fs deps optional "default".toList = some (requirementText deps) ∧
    (∀ g ∈ optional, generateRequirements fs deps optional g.1 = some (requirementText g.2)) ∧
    (∀ n, n ≠ "default".toList → n ∉ optional.map Prod.fst → generateRequirements fs deps optional n = fs n) := by
  refine ⟨?_, ?_, ?_⟩
  · unfold generateRequirements
    rw [generate_other _ _ hd]
    simp [writeRequirements]
  · unfold generateRequirements
    generalize writeRequirements fs "default".toList deps = fs'
    induction optional generalizing fs' with
    | nil => simp
    | cons g l ih =>
      intro x hx
      simp only [List.map_cons, List.nodup_cons, List.mem_cons, not_or] at hn hd
      rcases List.mem_cons.1 hx with rfl | hx
      · rw [List.foldl_cons, generate_other _ _ hn.1]
        simp [writeRequirements]
      · rw [List.foldl_cons]
        exact ih hn.2 hd.2 _ x hx
  · intro n h1 h2
    unfold generateRequirements
    rw [generate_other _ _ h2]
    unfold writeRequirements
    rw [if_neg h1]

example : generateRequirements (fun _ => none) ["scipy >=1.10.0".toList] [("lint".toList, ["mypy ==1.14.1".toList]), ("cd".toList, [])]
    "lint".toList = some (requirementText ["mypy ==1.14.1".toList]) :=
  (C166_files_partial _ _ [("lint".toList, ["mypy ==1.14.1".toList]), ("cd".toList, [])] (by decide) (by decide)).2.1
    ("lint".toList, ["mypy ==1.14.1".toList]) (by simp)

/-- **C166** is false for a group of optional dependencies called `default`: it replaces the dependencies of the package. -/
theorem C166_default_refuted (fs : RequirementFiles) (deps reqs : List Txt) :
    generateRequirements fs deps [("default".toList, reqs)] "default".toList = some (requirementText reqs) := by
  simp [generateRequirements, writeRequirements]

end Viqa
