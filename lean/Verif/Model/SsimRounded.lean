import Verif.Model.Rounding
import Verif.Model.Ssim
import Verif.Model.NoiseRounded

/-!
`structural_similarity` (`src/viqa/fr_metrics/ssim.py` 365-421) in floating point arithmetic: the images and
all local quantities are float32 (24 bits), the last mean is float64. The filter is a parameter. The
exponents are 1, the default. Model/Ssim is the same computation in real arithmetic.
-/

namespace Viqa

/-- Values of the five filtered images at one position (ssim.py 374-380). -/
structure LocalStats where
  ux : ℝ
  uy : ℝ
  uxx : ℝ
  uyy : ℝ
  uxy : ℝ

/-- ssim.py 374-380 for a filter `F` (an image to the filtered image at the position of interest, with
arithmetic of its own); the products are float32 images and the results of the filter are stored as
float32. -/
noncomputable def localStats {P : Type} (F : (P → ℝ) → ℝ) (x y : P → ℝ) : LocalStats :=
  ⟨fl 24 (F x), fl 24 (F y), fl 24 (F (fun q => fl 24 (x q * x q))), fl 24 (F (fun q => fl 24 (y q * y q))),
    fl 24 (F (fun q => fl 24 (x q * y q)))⟩

/-- Quotient of two float32 numbers. -/
noncomputable def divRounded (a b : ℝ) : NF :=
  match npDiv a b with
  | .fin v => .fin (fl 24 v)
  | e => e

/-- ssim.py 384-391: `cov_norm * (uxy - ux * uy)`. -/
noncomputable def covRounded (norm uxy ux uy : ℝ) : ℝ := fl 24 (norm * fl 24 (uxy - fl 24 (ux * uy)))

open Classical in
/-- ssim.py 397-400. -/
noncomputable def structureRounded (big c3 vx vy vxy : ℝ) : ℝ :=
  nanToNum big (if vx < 0 ∨ vy < 0 then .nan
    else divRounded (fl 24 (vxy + c3)) (fl 24 (fl 24 (fl 24 (Real.sqrt vx) * fl 24 (Real.sqrt vy)) + c3)))

open Classical in
/-- ssim.py 402-405. -/
noncomputable def contrastRounded (big c2 vx vy : ℝ) : ℝ :=
  nanToNum big (if vx < 0 ∨ vy < 0 then .nan
    else divRounded (fl 24 (fl 24 (fl 24 (2 * fl 24 (Real.sqrt vx)) * fl 24 (Real.sqrt vy)) + c2))
      (fl 24 (fl 24 (vx + vy) + c2)))

/-- ssim.py 407-410. -/
noncomputable def luminanceRounded (big c1 ux uy : ℝ) : ℝ :=
  nanToNum big (divRounded (fl 24 (fl 24 (fl 24 (2 * ux) * uy) + c1))
    (fl 24 (fl 24 (fl 24 (ux * ux) + fl 24 (uy * uy)) + c1)))

/-- ssim.py 383-412: the index at one position; `norm`, `c1` and `c2` are float32 numbers, half of `c2` is one
too. -/
noncomputable def ssimRounded (big norm c1 c2 : ℝ) (s : LocalStats) : ℝ :=
  let vx := covRounded norm s.uxx s.ux s.ux
  let vy := covRounded norm s.uyy s.uy s.uy
  let vxy := covRounded norm s.uxy s.ux s.uy
  fl 24 (fl 24 (luminanceRounded big c1 s.ux s.uy * contrastRounded big c2 vx vy)
    * structureRounded big (c2 / 2) vx vy vxy)

/-- ssim.py 393-394: `(k * data_range) ** 2` in float64, converted to float32 by the addition to an array. -/
noncomputable def ssimConst (k dr : ℝ) : ℝ := fl 24 (fl 53 (fl 53 (k * dr) * fl 53 (k * dr)))

end Viqa
