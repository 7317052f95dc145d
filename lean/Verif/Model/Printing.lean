import Verif.Model.Rounding
import Verif.Model.Basic

/-!
Numbers as they are printed: `print_score` of the metric classes (`np.round(self.score_val, decimals)` formatted with `{}`, for example
`rmse.py` 114-130, `ssim.py` 181-197, `snr.py` 150-166) and `MultipleMetrics.print_values` (`multiple.py` 613-622,
`f"{metric}: {result:.{decimals}f}"`), which `report` calls. A printed text is modelled by the number it denotes.
Scores are finite `float64` numbers; underflow and overflow are not modelled, and powers of ten are exact (as `float64` they are up to `10 ^ 22`).
-/

namespace Viqa

/-- `np.round(x, decimals)` for numbers with `p` bits: scaled by a power of ten, rounded to an integer and scaled back. -/
def npRound (p : ℕ) (x : ℚ) (decimals : ℤ) : ℚ :=
  if 0 ≤ decimals then fl p (nearestEven (fl p (x * 10 ^ decimals)) / 10 ^ decimals)
  else fl p (nearestEven (fl p (x / 10 ^ (-decimals))) * 10 ^ (-decimals))

/-- Numbers that are written with at most `n` decimal digits (and a decimal point or exponent). -/
def DecimalDigits (n : ℕ) (t : ℚ) : Prop := ∃ k e : ℤ, |k| < 10 ^ n ∧ t = k * 10 ^ e

/-- `"{}".format(v)` of a number with `p` bits is `repr`: a text with as few digits as possible that denotes a number rounded to `v`. -/
def ReprOf (p : ℕ) (v t : ℚ) : Prop :=
  fl p t = v ∧ ∃ n, DecimalDigits n t ∧ ∀ m s, DecimalDigits m s → fl p s = v → n ≤ m

/-- Number printed by `print_score(decimals)`, where `t` is the text. -/
def PrintsScore (x : ℚ) (decimals : ℤ) (t : ℚ) : Prop := ReprOf 53 (npRound 53 x decimals) t

/-- `multiple.py` 622: number printed by `print_values(decimals)`. The format rounds the exact value of the score. -/
def printsValue (x : ℚ) (decimals : ℤ) : Py ℚ :=
  if decimals < 0 then .error (.valueError "Format specifier missing precision")
  else .ok (nearestEven (x * 10 ^ decimals) / 10 ^ decimals)

end Viqa
