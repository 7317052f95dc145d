import Verif.Model.Rounding
import Mathlib.Analysis.SpecialFunctions.Sqrt

/-!
The last steps of `signal_to_noise_ratio` (`src/viqa/nr_metrics/snr.py` 1096-1099) and
`contrast_to_noise_ratio` (`src/viqa/nr_metrics/cnr.py` 837-842) with rounding. Model/Noise holds the same
steps without rounding, and the choice of the regions. NumPy adds in an order that depends on the shape
and on the layout of the array (pairwise summation): the order is a parameter, a tree with the values
of the region at its leaves.
-/

namespace Viqa

/-- A sum of several values with the order of its additions. -/
inductive Summation where
  | leaf (v : ℝ)
  | node (l r : Summation)

namespace Summation

/-- The values that are added. -/
def leaves : Summation → List ℝ
  | leaf v => [v]
  | node l r => l.leaves ++ r.leaves

/-- The same additions for other values. -/
def map (f : ℝ → ℝ) : Summation → Summation
  | leaf v => leaf (f v)
  | node l r => node (l.map f) (r.map f)

/-- `np.sum` in numbers with `p` bits. -/
noncomputable def eval (p : ℕ) : Summation → ℝ
  | leaf v => v
  | node l r => fl p (l.eval p + r.eval p)

/-- Number of values. -/
def size (t : Summation) : ℕ := t.leaves.length

end Summation

/-- Rounding to `p` bits of a number that was computed with at least 53: a quotient of a scalar by a count is a
float64 number (`numpy/core/_methods.py`: `ret.dtype.type(ret / rcount)`). -/
noncomputable def viaDouble (p : ℕ) (x : ℝ) : ℝ := fl p (fl (max p 53) x)

/-- `np.mean` -/
noncomputable def meanRounded (p : ℕ) (t : Summation) : ℝ := viaDouble p (t.eval p / t.size)

/-- The mean inside of `np.std` (`_var`): an array divided by a count, which NumPy 1.x does in the type of the array for
counts below `2 ^ 16`. -/
noncomputable def centreRounded (p : ℕ) (t : Summation) : ℝ :=
  if t.size < 2 ^ 16 then fl p (t.eval p / t.size) else viaDouble p (t.eval p / t.size)

/-- Square of `np.std` before the root (`numpy/core/_methods.py` `_var`). -/
noncomputable def varRounded (p : ℕ) (t : Summation) : ℝ :=
  viaDouble p ((t.map (fun v => fl p (fl p (v - centreRounded p t) * fl p (v - centreRounded p t)))).eval p / t.size)

/-- `np.std` -/
noncomputable def stdRounded (p : ℕ) (t : Summation) : ℝ := fl p (Real.sqrt (varRounded p t))

open Classical in
/-- `snr.py` 1096-1099 -/
noncomputable def snrRounded (p : ℕ) (signal : Summation) : ℝ :=
  if stdRounded p signal = 0 then 0 else fl p (meanRounded p signal / stdRounded p signal)

open Classical in
/-- `cnr.py` 837-842 -/
noncomputable def cnrRounded (p : ℕ) (signal background : Summation) : ℝ :=
  if stdRounded p background = 0 then 0
  else fl p (fl p (meanRounded p signal - meanRounded p background) / stdRounded p background)

end Viqa
