import Mathlib.Data.Int.Log
import Mathlib.Data.Rat.Floor
import Mathlib.Algebra.Order.Floor.Ring
import Mathlib.Algebra.Ring.Parity

/-!
Binary floating point numbers with `p` significant bits (24: `float32`, 53: `float64`), rounding to
nearest, ties to even, as required by IEEE 754. The exponent is not limited: overflow and underflow
are not modelled.
-/

namespace Viqa

variable {K : Type*} [Field K] [LinearOrder K] [IsStrictOrderedRing K] [FloorRing K]

/-- The nearest integer; the even one of two. -/
def nearestEven (x : K) : ℤ :=
  if x - ⌊x⌋ < 1 / 2 then ⌊x⌋
  else if 1 / 2 < x - ⌊x⌋ then ⌊x⌋ + 1
  else if ⌊x⌋ % 2 = 0 then ⌊x⌋ else ⌊x⌋ + 1

/-- Exponent of the last significant bit of numbers of the magnitude of `x`. -/
def ulpExp (p : ℕ) (x : K) : ℤ := Int.log 2 |x| + 1 - p

/-- The floating point number nearest to `x`. -/
def fl (p : ℕ) (x : K) : K :=
  if x = 0 then 0 else (nearestEven (x / 2 ^ ulpExp p x) : K) * 2 ^ ulpExp p x

/-- Numbers that can be represented with `p` bits. -/
def Representable (p : ℕ) (x : K) : Prop := ∃ m k : ℤ, |m| ≤ 2 ^ p ∧ x = m * 2 ^ k

end Viqa
