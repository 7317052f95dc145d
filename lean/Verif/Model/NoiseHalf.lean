import Verif.Model.NoiseRounded

/-!
The last steps of `signal_to_noise_ratio` (`src/viqa/nr_metrics/snr.py` 1096-1099) and
`contrast_to_noise_ratio` (`src/viqa/nr_metrics/cnr.py` 837-842) for images of type float16 (`_16fbit` files), with
NumPy 1.x: `np.mean` adds in float32 (`numpy/core/_methods.py` `_mean`), `np.std` stores its sums, differences and
squares as float16 (`_var` has no such exception). Overflow and the reduced precision of small float16 numbers are
modelled; those of the numbers in between (float32 and float64) are not, they lie far outside of the range of float16.
-/

namespace Viqa

/-- A float16 number, or infinity (`true`: negative), or not a number. -/
inductive Half where
  | num (x : ℝ)
  | inf (negative : Bool)
  | nan

open Classical in
/-- Rounding to 11 bits, below `2 ^ -14` to multiples of `2 ^ -24` (subnormal numbers). -/
noncomputable def halfRound (x : ℝ) : ℝ := if |x| < 1 / 2 ^ 14 then (nearestEven (x * 2 ^ 24) : ℝ) / 2 ^ 24 else fl 11 x

open Classical in
/-- Conversion to float16 of a result that was computed with `b` bits. -/
noncomputable def toHalf (b : ℕ) (x : ℝ) : Half :=
  if 65520 ≤ fl b x then .inf false else if fl b x ≤ -65520 then .inf true else .num (halfRound (fl b x))

/-- A sum of several values: the loops over an axis add in float32 (`HALF_pairwise_sum` in
`numpy/core/src/umath/loops_utils.h.src`), and `store` converts the result of a loop to float16. -/
inductive HalfSum where
  | leaf (v : Half)
  | add (l r : HalfSum)
  | store (t : HalfSum)

namespace HalfSum

def leaves : HalfSum → List Half
  | leaf v => [v]
  | add l r => l.leaves ++ r.leaves
  | store t => t.leaves

def map (f : Half → Half) : HalfSum → HalfSum
  | leaf v => leaf (f v)
  | add l r => add (l.map f) (r.map f)
  | store t => store (t.map f)

def size (t : HalfSum) : ℕ := t.leaves.length

/-- Addition in float32. -/
noncomputable def plus : Half → Half → Half
  | .num x, .num y => .num (fl 24 (x + y))
  | .num _, .inf b => .inf b
  | .inf b, .num _ => .inf b
  | .inf b, .inf c => if b = c then .inf b else .nan
  | _, _ => .nan

noncomputable def toStored : Half → Half
  | .num x => toHalf 24 x
  | e => e

noncomputable def eval : HalfSum → Half
  | leaf v => v
  | add l r => plus l.eval r.eval
  | store t => toStored t.eval

/-- `np.add.reduce` of a float16 array -/
noncomputable def total (t : HalfSum) : Half := toStored t.eval

end HalfSum

/-- Division by the number of values, computed with `b` bits. -/
noncomputable def divCount (b n : ℕ) : Half → Half
  | .num x => toHalf b (x / n)
  | e => e

/-- `v - mean` -/
noncomputable def differenceHalf : Half → Half → Half
  | .num x, .num y => toHalf 24 (x - y)
  | .num _, .inf b => .inf !b
  | .inf b, .num _ => .inf b
  | .inf b, .inf c => if b = c then .nan else .inf b
  | _, _ => .nan

noncomputable def squareHalf : Half → Half
  | .num x => toHalf 24 (x * x)
  | .inf _ => .inf false
  | .nan => .nan

/-- The mean inside of `np.std`: a float16 array divided by an integer (float32 up to 65535 values). -/
noncomputable def innerMean (t : HalfSum) : Half := divCount (if t.size < 2 ^ 16 then 24 else 53) t.size t.total

/-- Square of `np.std` before the root. The last quotient is one of two scalars, computed in float64. -/
noncomputable def varHalf (t : HalfSum) : Half :=
  divCount 53 t.size (t.map (fun v => squareHalf (differenceHalf v (innerMean t)))).total

/-- `np.std` -/
noncomputable def stdHalf (t : HalfSum) : Half :=
  match varHalf t with
  | .num x => toHalf 24 (Real.sqrt x)
  | .inf false => .inf false
  | _ => .nan

/-- `np.mean`: the sum is one of float32 numbers, the quotient one of scalars. -/
noncomputable def meanHalf (o : Summation) : Half := toHalf 24 (fl 53 (o.eval 24 / o.size))

open Classical in
/-- The quotient of `snr.py` 1099 and `cnr.py` 842, after the comparison of `np.std` with zero. -/
noncomputable def ratioHalf (s : Half) (m : Half) : Half :=
  match s, m with
  | .num s, .num m => if s = 0 then .num 0 else toHalf 24 (m / s)
  | .num s, .inf b => if s = 0 then .num 0 else .inf b
  | .num s, .nan => if s = 0 then .num 0 else .nan
  | .inf _, .num _ => .num 0
  | _, _ => .nan

/-- `snr.py` 1096-1099 -/
noncomputable def snrHalf (o : Summation) (t : HalfSum) : Half := ratioHalf (stdHalf t) (meanHalf o)

/-- `cnr.py` 837-842 -/
noncomputable def cnrHalf (signal background : Summation) (t : HalfSum) : Half :=
  ratioHalf (stdHalf t) (differenceHalf (meanHalf signal) (meanHalf background))

end Viqa
