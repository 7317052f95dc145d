/-!
Specifications about text, independent of the model: decimal notation and the file name
patterns as sets of strings.
-/

namespace Viqa.Spec

/-- Decimal notation of a natural number, most significant digit first, no leading zeros. -/
def decimal (n : Nat) : List Char :=
  if n < 10 then [Char.ofNat (48 + n)] else decimal (n / 10) ++ [Char.ofNat (48 + n % 10)]
termination_by n

/-- A non-empty string of digits. -/
def IsNumber (a : List Char) : Prop := a ≠ [] ∧ ∀ d ∈ a, d.isDigit = true

/-- The strings matched by `[fu]?bits?`. -/
def bitTails : List (List Char) :=
  [['b', 'i', 't'], ['b', 'i', 't', 's'], ['f', 'b', 'i', 't'], ['f', 'b', 'i', 't', 's'],
   ['u', 'b', 'i', 't'], ['u', 'b', 'i', 't', 's']]

/-- The strings matched by `\d{1,2}[fu]?bits?`. -/
def IsBits (t : List Char) : Prop :=
  ∃ ds tail, t = ds ++ tail ∧ tail ∈ bitTails ∧ (∀ c ∈ ds, c.isDigit = true) ∧
    (ds.length = 1 ∨ ds.length = 2)

/-- The text contains a size: digits `x` digits `x` digits. -/
def HasSize (s : List Char) : Prop :=
  ∃ pre a b c post, IsNumber a ∧ IsNumber b ∧ IsNumber c ∧
    s = pre ++ (a ++ 'x' :: (b ++ 'x' :: (c ++ post)))

/-- The text contains a bit depth. -/
def HasBits (s : List Char) : Prop := ∃ pre t post, IsBits t ∧ s = pre ++ (t ++ post)

end Viqa.Spec
