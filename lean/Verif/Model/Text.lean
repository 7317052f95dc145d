import Verif.Model.Basic

/-! Text processing used when loading files. Text is a list of characters. -/

namespace Viqa

abbrev Txt := List Char

/-- `str.split(sep)` with a single character separator. Always returns at least one part. -/
def splitChar (sep : Char) : Txt → List Txt
  | [] => [[]]
  | c :: cs =>
    if c = sep then [] :: splitChar sep cs
    else match splitChar sep cs with
      | [] => [[c]]
      | p :: ps => (c :: p) :: ps

/-- `xs` starts with `pre`: the rest, else `none`. -/
def stripPrefix : Txt → Txt → Option Txt
  | [], xs => some xs
  | _ :: _, [] => none
  | p :: ps, x :: xs => if p = x then stripPrefix ps xs else none

/-- `str.split(sep)` for the three character separator `" = "`
(`loading.py` 439: `line.split(" = ")`): scanning from the left, non-overlapping. -/
def splitEq : Txt → List Txt
  | ' ' :: '=' :: ' ' :: cs => [] :: splitEq cs
  | [] => [[]]
  | c :: cs =>
    match splitEq cs with
    | [] => [[c]]
    | p :: ps => (c :: p) :: ps

/-- `str.split()`: split at runs of blanks, no empty parts (ASCII white space). -/
def splitWs : Txt → List Txt
  | [] => []
  | c :: cs =>
    if c = ' ' ∨ c = '\t' ∨ c = '\n' ∨ c = '\r' then splitWs cs
    else match cs with
      | [] => [[c]]
      | d :: _ =>
        if d = ' ' ∨ d = '\t' ∨ d = '\n' ∨ d = '\r' then [c] :: splitWs cs
        else match splitWs cs with
          | [] => [[c]]
          | p :: ps => (c :: p) :: ps

/-- Value of a decimal digit. -/
def digitVal (c : Char) : Nat := c.toNat - '0'.toNat

/-- Value of a string of digits, most significant first. -/
def digitsVal (ds : Txt) : Nat := ds.foldl (fun a c => 10 * a + digitVal c) 0

/-- `int(s)` for ASCII input without underscores and surrounding white space:
an optional sign and at least one digit; anything else is a ValueError. -/
def parseInt (s : Txt) : Py Int :=
  let bad : Py Int := .error (.valueError "invalid literal for int()")
  let digits (ds : Txt) (sign : Int) : Py Int :=
    if ds ≠ [] ∧ ds.all Char.isDigit then .ok (sign * digitsVal ds) else bad
  match s with
  | '-' :: ds => digits ds (-1)
  | '+' :: ds => digits ds 1
  | ds => digits ds 1

/-- `str.endswith`. -/
def endsWith (s suffix : Txt) : Bool := suffix.isSuffixOf s

/-- `str.lower` restricted to ASCII letters. -/
def lower (s : Txt) : Txt := s.map Char.toLower

/-- `os.path.basename` (POSIX): the part after the last slash. -/
def basename (p : Txt) : Txt := (p.reverse.takeWhile (· ≠ '/')).reverse

/-- `os.path.join(dir, name)` (POSIX). -/
def pathJoin (dir name : Txt) : Txt :=
  match name with
  | '/' :: _ => name
  | _ => if dir = [] ∨ dir.getLast? = some '/' then dir ++ name else dir ++ '/' :: name

/-- Split at the last occurrence of `c`: `(before, from c on)`. -/
def splitLast (c : Char) : Txt → Option (Txt × Txt)
  | [] => none
  | x :: xs =>
    match splitLast c xs with
    | some (a, b) => some (x :: a, b)
    | none => if x = c then some ([], x :: xs) else none

/-- `os.path.splitext` of a name without slashes (`genericpath._splitext`): split at the
last dot, unless everything before it consists of dots. -/
def splitext (name : Txt) : Txt × Txt :=
  match splitLast '.' name with
  | none => (name, [])
  | some (root, ext) => if root.any (· ≠ '.') then (root, ext) else (name, [])

end Viqa
