import Verif.Model.Basic
import Mathlib.Analysis.SpecialFunctions.Sqrt
import Mathlib.Data.List.Sort

/-!
The numbers computed by `ImageArray.calculate_statistics` (`src/viqa/utils/loading.py` 198-230) for the list of the
pixels, in real arithmetic: `np.mean`, `np.median`, `np.var`, `np.std`, `np.min`, `np.max`, `np.histogram`,
`scipy.stats.skew` and `scipy.stats.kurtosis`. Where they are stored is modelled in Model/ImageArray and
Model/Statistics. Images without pixels are refused by `np.min`; the theorems are about the others.
-/

namespace Viqa

/-- `np.mean`. -/
noncomputable def pixMean (xs : List ℝ) : ℝ := xs.sum / xs.length

/-- Central moment: `scipy.stats._stats_py._moment`. -/
noncomputable def pixMoment (k : Nat) (xs : List ℝ) : ℝ := pixMean (xs.map (fun x => (x - pixMean xs) ^ k))

/-- `np.var`. -/
noncomputable def pixVar (xs : List ℝ) : ℝ := pixMoment 2 xs

/-- `np.std`. -/
noncomputable def pixStd (xs : List ℝ) : ℝ := Real.sqrt (pixVar xs)

/-- `np.min` and `np.max`; of no pixel a ValueError. -/
noncomputable def pixMin : List ℝ → Py ℝ
  | [] => .error (.valueError "zero-size array to reduction operation minimum which has no identity")
  | x :: xs => .ok (xs.foldl min x)

noncomputable def pixMax : List ℝ → Py ℝ
  | [] => .error (.valueError "zero-size array to reduction operation maximum which has no identity")
  | x :: xs => .ok (xs.foldl max x)

open Classical in
/-- The pixels in ascending order. -/
noncomputable def pixSorted (xs : List ℝ) : List ℝ := xs.insertionSort (· ≤ ·)

/-- `np.median`: the pixel in the middle, or the mean of the two in the middle. -/
noncomputable def pixMedian (xs : List ℝ) : ℝ :=
  let s := pixSorted xs
  if xs.length % 2 = 1 then s.getD (xs.length / 2) 0
  else (s.getD (xs.length / 2 - 1) 0 + s.getD (xs.length / 2) 0) / 2

open Classical in
/-- `scipy.stats.skew(axis=None)`: not a number if the pixels are nearly equal compared to their mean; `res` is
`np.finfo(dtype).resolution` of the type of the moments (1e-15 for integers and float64, 1e-6 for float32, 1e-3 for
float16). -/
noncomputable def pixSkew (res : ℝ) (xs : List ℝ) : Py ℝ :=
  if pixMoment 2 xs ≤ (res * pixMean xs) ^ 2 then .error .notANumber
  else .ok (pixMoment 3 xs / (pixMoment 2 xs * Real.sqrt (pixMoment 2 xs)))

open Classical in
/-- `scipy.stats.kurtosis(axis=None)`, with 3 subtracted. -/
noncomputable def pixKurtosis (res : ℝ) (xs : List ℝ) : Py ℝ :=
  if pixMoment 2 xs ≤ (res * pixMean xs) ^ 2 then .error .notANumber
  else .ok (pixMoment 4 xs / pixMoment 2 xs ^ 2 - 3)

open Classical in
/-- `np.histogram`: the range of the bins, from smallest to largest pixel; widened if these are the same. -/
noncomputable def histRange (lo hi : ℝ) : ℝ × ℝ := if lo = hi then (lo - 1 / 2, hi + 1 / 2) else (lo, hi)

/-- The edges, `np.linspace(first, last, n + 1)`. -/
noncomputable def histEdge (n : Nat) (lo hi : ℝ) (j : Nat) : ℝ :=
  (histRange lo hi).1 + j * ((histRange lo hi).2 - (histRange lo hi).1) / n

/-- The bin of a pixel: the scaled value cut to an integer; the largest value belongs to the last bin. -/
noncomputable def histBin (n : Nat) (lo hi x : ℝ) : Nat :=
  let i := ⌊(x - (histRange lo hi).1) / ((histRange lo hi).2 - (histRange lo hi).1) * n⌋₊
  if i = n then n - 1 else i

/-- `np.histogram(image, bins=n)`: the counts and the edges. -/
noncomputable def histogram (n : Nat) (xs : List ℝ) : Py (List Nat × List ℝ) :=
  match pixMin xs, pixMax xs with
  | .ok lo, .ok hi => .ok ((List.range n).map (fun j => xs.countP (fun x => histBin n lo hi x = j)),
      (List.range (n + 1)).map (histEdge n lo hi))
  | .error e, _ => .error e
  | _, .error e => .error e

end Viqa
