import Verif.Model.Rounding
import Verif.Model.Distance

/-!
RMSE and PSNR (`src/viqa/fr_metrics/rmse.py` 108-116, `src/viqa/fr_metrics/psnr.py` 121-131) in floating point
arithmetic with underflow. Model/Distance is the same in real arithmetic. Overflow is not modelled.
-/

namespace Viqa

/-- A binary floating point format: significant bits, and the exponent of the smallest positive number. -/
structure FloatFormat where
  bits : ℕ
  least : ℤ

/-- float32 -/
def single : FloatFormat := ⟨24, -149⟩
/-- float64 -/
def double : FloatFormat := ⟨53, -1074⟩

/-- Rounding to the nearest number of the format (ties to even): numbers below the smallest normal number are rounded
to multiples of the smallest positive number. -/
noncomputable def FloatFormat.round (F : FloatFormat) (x : ℝ) : ℝ :=
  if |x| < 2 ^ (F.least + F.bits - 1) then (nearestEven (x / 2 ^ F.least) : ℝ) * 2 ^ F.least else fl F.bits x

/-- An order in which `np.mean` adds the pixels: a tree with positions at its leaves. -/
inductive SumOrder (P : Type) where
  | leaf (q : P)
  | node (l r : SumOrder P)

namespace SumOrder
variable {P : Type}

/-- The positions. -/
def positions : SumOrder P → List P
  | leaf q => [q]
  | node l r => l.positions ++ r.positions

/-- Sum with rounded additions. -/
noncomputable def eval (F : FloatFormat) (f : P → ℝ) : SumOrder P → ℝ
  | leaf q => f q
  | node l r => F.round (l.eval F f + r.eval F f)

end SumOrder

/-- `skimage.metrics.mean_squared_error` called in `rmse.py` 114 and (by `peak_signal_noise_ratio`) in `psnr.py` 126:
`np.mean((image0 - image1) ** 2, dtype=np.float64)` with images of the format `F` (float32 images stay float32, float16 images become float32, all
others are converted to float64). -/
noncomputable def mseRounded {P : Type} (F : FloatFormat) (o : SumOrder P) (x y : P → ℝ) : ℝ :=
  double.round (o.eval double (fun q => F.round (F.round (x q - y q) * F.round (x q - y q))) / o.positions.length)

/-- `rmse.py` 114. -/
noncomputable def rmseRounded {P : Type} (F : FloatFormat) (o : SumOrder P) (x y : P → ℝ) : ℝ :=
  double.round (Real.sqrt (mseRounded F o x y))

open Classical in
/-- `psnr.py` 123-128 with `skimage.metrics.peak_signal_noise_ratio`: `10 * np.log10((data_range ** 2) / err)`. A
division by the float64 number 0 gives infinity with a warning. `log10` is the implementation of the platform. -/
noncomputable def psnrRounded {P : Type} (log10 : ℝ → ℝ) (F : FloatFormat) (o : SumOrder P) (dr : ℝ) (x y : P → ℝ) : Psnr :=
  if ∀ q ∈ o.positions, x q = y q then .infinite
  else if mseRounded F o x y = 0 then .infinite
  else .finite (double.round (10 * log10 (double.round (double.round (dr * dr) / mseRounded F o x y))))

end Viqa
