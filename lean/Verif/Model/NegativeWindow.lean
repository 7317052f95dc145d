import Verif.Model.Ssim

/-!
Model of `structural_similarity` (`ssim.py` 200-421) for an integer `win_size` of any sign. Libraries: `uniform_filter` of SciPy
leaves axes alone whose size is not greater than one (and does not look at the mode then); `crop` of scikit-image slices with
`slice(pad, n - pad)` on every axis, also for a negative `pad`.
-/

namespace Viqa

/-- `slice(pad, n - pad)` for `pad = -c`: the last `c` positions of every axis. -/
def lastPositions (c : Nat) (shape : List Nat) : List (List Nat) :=
  (indices (shape.map (fun n => min n c))).map (fun p => List.zipWith (fun n i => n - min n c + i) shape p)

/-- `ssim.py` 348-353 for a negative window: a Gaussian filter, or no filter at all. -/
noncomputable def negativeFilter (a : SsimArgs) (m : BorderMode) : Filter :=
  if a.gaussian then ⟨gaussRadius a.sigma, gaussWeight a.sigma (gaussRadius a.sigma), m, a.cval⟩ else ⟨0, boxWeight 0, m, a.cval⟩

/-- `ssim.py` 306-421 with `win_size = w`. For a negative `w` no axis is shorter than the window (330), `w % 2` is the remainder
of Python (340), `n = w**ndim` may be negative (369), and `pad = (w - 1) // 2` is negative (416). -/
noncomputable def structuralSimilarityInt (big : ℝ) (a : SsimArgs) (w : Int) (dr : ℝ) (x y : NDArray ℝ) : Py ℝ := by
  classical exact
  if 0 ≤ w then structuralSimilarity big { a with winSize := some w.toNat } dr x y
  else if a.k1 < 0 then .error (.valueError "K1 must be positive")
  else if a.k2 < 0 then .error (.valueError "K2 must be positive")
  else if a.sigma < 0 then .error (.valueError "sigma must be positive")
  else if w % 2 ≠ 1 then .error (.valueError "win_size must be odd.")
  else if w ^ x.ndim = 1 then .error .zeroDivisionError
  else match (if a.gaussian then (if a.sigma = 0 then .ok .reflect else borderMode a.mode) else .ok .reflect) with
    | .error e => .error e
    | .ok m =>
      match allOk ((lastPositions ((1 - w) / 2).toNat x.shape).map
          (ssimAt big (negativeFilter a m) (((w ^ x.ndim : Int) : ℝ) / (((w ^ x.ndim : Int) : ℝ) - 1)) dr a x y)) with
      | .error e => .error e
      | .ok l => meanList l

end Viqa
