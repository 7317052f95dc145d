import Verif.Model.Text

/-!
Model of the scripts around the package: `src/viqa/utils/_build/version.py` (version of the build), `docs/source/conf.py` (version of the
documentation) and `tools/generate_requirements.py`.
-/

namespace Viqa

/-- `str.strip()`. -/
def stripBlanks (s : Txt) : Txt := ((s.dropWhile Char.isWhitespace).reverse.dropWhile Char.isWhitespace).reverse

/-- The first line that starts with `__version__`. -/
def versionLine (lines : List Txt) : Option Txt := lines.find? (fun l => "__version__".toList.isPrefixOf l)

/-- `version.py` 23-28: the version printed for meson. -/
def buildVersion (lines : List Txt) : Py Txt :=
  match versionLine lines with
  | none => .error (.runtimeError "StopIteration")
  | some l =>
    match (splitEq (stripBlanks l))[1]? with
    | none => .error .indexError
    | some t => .ok ((t.filter (· ≠ '"')).filter (· ≠ '\''))

/-- `conf.py` 16-22: the version of the documentation. -/
def docsVersion (lines : List Txt) : Py Txt :=
  match versionLine lines with
  | none => .ok "vUndefined".toList
  | some l =>
    match (splitChar '"' l)[1]? with
    | none => .error .indexError
    | some t => .ok t

/-- `"\n".join(lines)` -/
def joinLines : List Txt → Txt
  | [] => []
  | [l] => l
  | l :: r => l ++ '\n' :: joinLines r

/-- `generate_requirements.py` 29-32 -/
def requirementHeader : List Txt :=
  ["# Generated via tools/generate_requirements.py and pre-commit hook.".toList,
   "# Do not edit this file; modify pyproject.toml instead.".toList]

/-- `generate_requirements.py` 35-37 `generate_requirement_file`: content of the file. -/
def requirementText (reqs : List Txt) : Txt := joinLines (requirementHeader ++ reqs) ++ ['\n']

/-- The directory `requirements`: content of the files by name without extension. -/
abbrev RequirementFiles := Txt → Option Txt

/-- Writing a file replaces its content. -/
def writeRequirements (fs : RequirementFiles) (name : Txt) (reqs : List Txt) : RequirementFiles :=
  fun n => if n = name then some (requirementText reqs) else fs n

/-- `generate_requirements.py` 40-46 `main`: the dependencies and the optional dependencies of `pyproject.toml`. -/
def generateRequirements (fs : RequirementFiles) (deps : List Txt) (optional : List (Txt × List Txt)) : RequirementFiles :=
  optional.foldl (fun fs g => writeRequirements fs g.1 g.2) (writeRequirements fs "default".toList deps)

end Viqa
