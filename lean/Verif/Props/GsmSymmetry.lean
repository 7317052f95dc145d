import Verif.Model.Gsm
import Verif.Props.Gsm

/-!
C129: GSM does not depend on which of the two images is the reference.
-/

namespace Viqa

theorem ratAbs_sub_comm (a b : Rat) : ratAbs (a - b) = ratAbs (b - a) := by
  rw [ratAbs_eq, ratAbs_eq, abs_sub_comm]

theorem quality_symm (p k dr gr gm d a b : Rat) :
    quality floatOps p k dr gr gm d a b = quality floatOps p k dr gm gr d b a := by
  unfold quality
  have hl : lumSim floatOps dr a b = lumSim floatOps dr b a := by
    show 1 - ((a - b) / dr) ^ 2 = 1 - ((b - a) / dr) ^ 2
    ring
  rw [ratAbs_sub_comm gr gm, hl]

theorem largest_pair (a b : Rat) : largest a [b] = largest b [a] := by
  simp only [largest]
  by_cases h : a < b
  · rw [if_pos h, if_neg (not_lt.2 h.le)]
  · by_cases h' : b < a
    · rw [if_neg h, if_pos h']
    · rw [if_neg h, if_neg h']
      exact le_antisymm (not_lt.1 h') (not_lt.1 h)

theorem strongest_pair (g h : NDArray Rat) (hne : meanAbs g ≠ meanAbs h) : strongest g [h] = strongest h [g] := by
  simp only [strongest]
  rcases lt_or_gt_of_ne hne with hlt | hlt
  · rw [if_pos hlt, if_neg (not_lt.2 hlt.le)]
  · rw [if_neg (not_lt.2 hlt.le), if_pos hlt]

/-- The gradient image GSM uses for an image, with the kernels `w :: ws`. -/
def chosenGradient (ops : PixelOps) (x : NDArray Rat) (w : NDArray Int) (ws : List (NDArray Int)) : NDArray Rat :=
  strongest (gradient ops w x) (ws.map (fun w => gradient ops w x))

theorem gsmWith_symm (dr c p : Rat) (x y : NDArray Rat) (hs : x.shape = y.shape) (w : NDArray Int)
    (ws : List (NDArray Int)) (hne : meanAbs (chosenGradient floatOps x w ws) ≠ meanAbs (chosenGradient floatOps y w ws)) :
    gsmWith floatOps dr c p x y w ws = gsmWith floatOps dr c p y x w ws := by
  unfold chosenGradient at hne
  unfold gsmWith
  simp only
  generalize strongest (gradient floatOps w x) (ws.map (fun w => gradient floatOps w x)) = gr at hne ⊢
  generalize strongest (gradient floatOps w y) (ws.map (fun w => gradient floatOps w y)) = gm at hne ⊢
  cases hr : gr.toList with
  | nil =>
    cases gm.toList <;> rfl
  | cons r0 rs =>
    cases hm : gm.toList with
    | nil => rfl
    | cons m0 ms =>
      simp only
      rw [largest_pair (largest r0 rs), strongest_pair gr gm hne, hs]
      split
      · rfl
      · congr 1
        exact List.map_congr_left (fun i _ => quality_symm _ _ _ _ _ _ _ _)

/-- Mean absolute gradient of the direction GSM chooses for the image. -/
def Spec.edgeStrength (x : NDArray Rat) : Rat :=
  if x.ndim = 3 then meanAbs (chosenGradient floatOps x gsmKernelX kernels3d.tail)
  else meanAbs (chosenGradient floatOps x gsmKernel2dX kernels2d.tail)

/-- **C129, partial**: true for floating point images unless the mean absolute gradients of both images
are equal (then the gradients of the first image are the divisors). What is missing is refuted below. -/
theorem C129_partial (dr c p : Rat) (x y : NDArray Rat) (hs : x.shape = y.shape)
    (hne : Spec.edgeStrength x ≠ Spec.edgeStrength y) :
    gradientSimilarity floatOps dr c p x y = gradientSimilarity floatOps dr c p y x := by
  have hnd : y.ndim = x.ndim := by unfold NDArray.ndim; rw [hs]
  unfold Spec.edgeStrength at hne
  unfold gradientSimilarity
  rw [hnd] at hne ⊢
  by_cases h3 : x.ndim = 3
  · rw [if_pos h3, if_pos h3] at hne
    rw [if_pos h3, if_pos h3]
    exact gsmWith_symm dr c p x y hs _ _ hne
  · rw [if_neg h3, if_neg h3] at hne
    rw [if_neg h3, if_neg h3]
    by_cases h2 : x.ndim = 2
    · rw [if_pos h2, if_pos h2]
      exact gsmWith_symm dr c p x y hs _ _ hne
    · rw [if_neg h2, if_neg h2]

/-- Non-trivial instance: two different images with a score. -/
example : Spec.edgeStrength (row [0, 1, 1]) ≠ Spec.edgeStrength (row [0, 3, 1]) ∧
    gradientSimilarity floatOps 255 200 (1 / 10) (row [0, 1, 1]) (row [0, 3, 1]) ≠ .ok 1 ∧
    gradientSimilarity floatOps 255 200 (1 / 10) (row [0, 1, 1]) (row [0, 3, 1]) ≠ .error .notANumber := by
  decide +kernel

/-- **C129, refuted** for an image and its mirror image, even as floating point images. -/
theorem C129_refuted : (row [1, 1, 0]).shape = (row [0, 1, 1]).shape ∧
    ∃ v w : Rat, v ≠ w ∧
      gradientSimilarity floatOps 255 200 (1 / 10) (row [0, 1, 1]) (row [1, 1, 0]) = .ok v ∧
      gradientSimilarity floatOps 255 200 (1 / 10) (row [1, 1, 0]) (row [0, 1, 1]) = .ok w := by
  refine ⟨rfl, 594234475 / 708730884, 2559454171 / 2867602500, ?_⟩
  decide +kernel

/-- **C129, refuted** for unsigned 8 bit images, also if the gradients differ: the differences of the gray
values wrap around. -/
theorem C129_unsigned_refuted :
    gradientSimilarity (unsignedOps 8) 255 200 (1 / 10) (row [0, 1, 1]) (row [0, 2, 2]) ≠
      gradientSimilarity (unsignedOps 8) 255 200 (1 / 10) (row [0, 2, 2]) (row [0, 1, 1]) ∧
    meanAbs (chosenGradient (unsignedOps 8) (row [0, 1, 1]) gsmKernel2dX kernels2d.tail) ≠
      meanAbs (chosenGradient (unsignedOps 8) (row [0, 2, 2]) gsmKernel2dX kernels2d.tail) := by
  decide +kernel

end Viqa
