import Verif.Model.NotANumberGsm
import Verif.Model.NotANumber
import Verif.Model.Normalize

/-!
Normalization of floating point images with pixels that are not a number, `src/viqa/utils/loading.py` 788-891 `normalize_data`
with `data_range_output=(0, 1)` and `automatic_data_range=True`, as `load_data` (762, 766) calls it for `data_range=1`.
-/

namespace Viqa

/-- Lines 856-867: `np.min` and `np.max` are nan if there is a nan, and then every pixel is. If they are equal every pixel is `0 / 0`,
which is nan. -/
def normalizeUnitN (x : NDArray (Option Rat)) : Py (NDArray (Option Rat)) :=
  match cleanArray x with
  | none => .ok ⟨x.shape, fun _ => none⟩
  | some a =>
    match arrMin a, arrMax a with
    | .ok mn, .ok mx =>
      if mx - mn = 0 then .ok ⟨x.shape, fun _ => none⟩
      else .ok ⟨x.shape, fun i => some ((a.get i - mn) * (1 - 0) / (mx - mn) + 0)⟩
    | .error e, _ => .error e
    | _, .error e => .error e

/-- The pixels as real numbers, as the metrics see them. -/
noncomputable def realPixelsN (x : NDArray (Option Rat)) : NDArray (Option ℝ) := ⟨x.shape, fun i => (x.get i).map (fun q : Rat => (q : ℝ))⟩

/-- `SSIM(data_range=1, normalize=True).score(img_r, img_m)`: both images are normalized, then compared. -/
noncomputable def normalizedSsim (big : ℝ) (a : SsimArgs) (x y : NDArray (Option Rat)) : Py ℝ :=
  match normalizeUnitN x, normalizeUnitN y with
  | .ok x', .ok y' => structuralSimilarityN big a 1 (realPixelsN x') (realPixelsN y')
  | .error e, _ => .error e
  | _, .error e => .error e

end Viqa
