import Verif.Model.DistanceRounded
import Verif.Model.NoiseRounded
import Verif.Model.Ssim

/-!
`gradient_similarity` (`src/viqa/fr_metrics/gsm.py` 418-441) in floating point arithmetic with `b` significant bits: 24
for float32 images, 53 for all others. The gradient image and the mean of its absolute values are parameters (functions
of the image, with arithmetic of their own). Overflow and underflow are not modelled; float16 images are refused by `scipy.ndimage`. Model/Gsm is the same in exact
arithmetic.
-/

namespace Viqa

/-- Largest value, `np.max`. -/
noncomputable def SumOrder.top {P : Type} (g : P → ℝ) : SumOrder P → ℝ
  | leaf q => g q
  | node l r => max (l.top g) (r.top g)

/-- The same additions with the values of an image. -/
def SumOrder.additions {P : Type} (f : P → ℝ) : SumOrder P → Summation
  | leaf q => .leaf (f q)
  | node l r => .node (l.additions f) (r.additions f)

/-- `gsm.py` 433 at one pixel with divisor `d ≠ 0`. -/
noncomputable def gsmChange (b : ℕ) (gr gm d : ℝ) : ℝ := fl b (|fl b (gr - gm)| / d)

/-- `gsm.py` 436: numerator and denominator. -/
noncomputable def gsmNum (b : ℕ) (k r : ℝ) : ℝ := fl b (2 * fl b (1 - r)) |> fun v => fl b (v + k)
noncomputable def gsmDen (b : ℕ) (k r : ℝ) : ℝ := fl b (fl b (1 + fl b (fl b (1 - r) * fl b (1 - r))) + k)

/-- `gsm.py` 437. -/
noncomputable def gsmLum (b : ℕ) (dr x y : ℝ) : ℝ :=
  fl b (1 - fl b (fl b (fl b (x - y) / dr) * fl b (fl b (x - y) / dr)))

/-- `gsm.py` 438-439. -/
noncomputable def gsmCombine (b : ℕ) (p con lum : ℝ) : ℝ :=
  fl b (fl b (fl b (1 - fl b (p * con)) * con) + fl b (fl b (p * con) * lum))

open Classical in
/-- Quality of one pixel (`gsm.py` 433-439). A divisor of zero gives nan or an infinite change, and then nan. The sign of
an infinite quality is not modelled. -/
noncomputable def gsmQuality (b : ℕ) (p k dr gr gm d x y : ℝ) : NF :=
  if d = 0 then .nan
  else if gsmDen b k (gsmChange b gr gm d) = 0 then
    (if gsmNum b k (gsmChange b gr gm d) = 0 then .nan else .pinf)
  else .fin (gsmCombine b p (fl b (gsmNum b k (gsmChange b gr gm d) / gsmDen b k (gsmChange b gr gm d))) (gsmLum b dr x y))

/-- Value of a pixel in `np.nansum`. -/
noncomputable def NF.orZero : NF → ℝ
  | .fin v => v
  | _ => 0

open Classical in
/-- `np.nanmean`: nan is replaced by zero, the sum is divided by the number of the other pixels (scalars, a
float64 quotient). -/
noncomputable def nanMeanRounded {P : Type} (b : ℕ) (o : SumOrder P) (q : P → NF) : NF :=
  if ∃ i ∈ o.positions, q i = .pinf ∨ q i = .ninf then .pinf
  else if (o.positions.filter (fun i => q i ≠ .nan)).length = 0 then .nan
  else .fin (viaDouble b (((o.additions (fun i => (q i).orZero)).eval b) /
    (o.positions.filter (fun i => q i ≠ .nan)).length))

open Classical in
/-- `gsm.py` 418-441. `G` gives the gradient image (418-430), `key` is `_mean_of_abs` (423-424). A largest gradient of
zero makes `k` infinite or nan, and then every quality nan. `k` is a quotient of scalars, so computed in float64, and
converted by the addition to an array. -/
noncomputable def gsmRounded {P : Type} (b : ℕ) (G : (P → ℝ) → P → ℝ) (key : (P → ℝ) → ℝ) (o : SumOrder P)
    (dr c p : ℝ) (x y : P → ℝ) : NF :=
  if max (o.top (G x)) (o.top (G y)) = 0 then .nan
  else nanMeanRounded b o (fun i => gsmQuality b p (viaDouble b (c / max (o.top (G x)) (o.top (G y)))) dr (G x i) (G y i)
    ((if key (G x) < key (G y) then G y else G x) i) (x i) (y i))

end Viqa
