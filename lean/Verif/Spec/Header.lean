import Verif.Spec.Text

/-! Specification of mhd header texts, independent of the model. -/

namespace Viqa.Spec

/-- The separator of key and value. -/
def eqSep : List Char := [' ', '=', ' ']

/-- The text contains the separator. -/
def HasSep (v : List Char) : Prop := ∃ a b, v = a ++ (eqSep ++ b)

/-- A header line. -/
def headerLine (e : List Char × List Char) : List Char := e.1 ++ (eqSep ++ e.2)

/-- A header text: every line is terminated by a newline. -/
def headerText (es : List (List Char × List Char)) : List Char :=
  es.flatMap (fun e => headerLine e ++ ['\n'])

/-- An entry that can be written as a line: the key contains no equality sign, the value does
not contain the separator, and there is no line break. -/
def GoodEntry (e : List Char × List Char) : Prop :=
  '=' ∉ e.1 ∧ ¬ HasSep e.2 ∧ '\n' ∉ e.1 ∧ '\n' ∉ e.2

/-- Sizes separated by blanks. -/
def sizesText : List Nat → List Char
  | [] => []
  | [n] => decimal n
  | n :: ns => decimal n ++ ' ' :: sizesText ns

end Viqa.Spec
