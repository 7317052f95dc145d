import Mathlib.Analysis.SpecialFunctions.Complex.Arg
import Mathlib.Analysis.SpecialFunctions.Pow.Real

/-!
Model of the weights of `_contrast_sensitivity_function` (mad.py 849-911) over the real numbers. Rounding of
floating point numbers is left out.
-/

namespace Viqa

/-- mad.py 886-889: the complex number at row `i` and column `j` of the grid of an image with `m` rows and
`n` columns; `np.meshgrid` repeats the horizontal coordinates along the rows. -/
noncomputable def csfPlane (m n : Nat) (nfreq : ℝ) (i j : Nat) : ℂ :=
  ((((-(n : ℝ) / 2 + 1 / 2 + j : ℝ) : ℂ) + Complex.I * ((-(m : ℝ) / 2 + 1 / 2 + i : ℝ) : ℂ)) * 2 * (nfreq : ℂ)) / (n : ℂ)

/-- mad.py 893-897: the factor of the direction, `w = 0.7`. -/
noncomputable def csfDirection (z : ℂ) : ℝ := (1 - 0.7) / 2 * Real.cos (4 * Complex.arg z) + (1 + 0.7) / 2

/-- mad.py 890, 898: the radial frequency. -/
noncomputable def csfRadius (z : ℂ) : ℝ := ‖z‖ / csfDirection z

/-- mad.py 904-910: the weight of a radial frequency. -/
noncomputable def csfWeight (lam fpeak r : ℝ) : ℝ :=
  if r < fpeak then 0.9809 else 2.6 * (0.0192 + lam * r) * Real.exp (-((lam * r) ^ (1.1 : ℝ)))

/-- mad.py 849-911 `_contrast_sensitivity_function`: the weight at row `i` and column `j`. -/
noncomputable def contrastSensitivity (m n : Nat) (nfreq lam fpeak : ℝ) (i j : Nat) : ℝ :=
  csfWeight lam fpeak (csfRadius (csfPlane m n nfreq i j))

end Viqa
