import Verif.Props.GsmRounded

/-! C129 as computed: the gradient similarity of two images in floating point arithmetic. -/

namespace Viqa

variable {P : Type}

theorem gsmChange_comm (b : ℕ) (u v d : ℝ) : gsmChange b u v d = gsmChange b v u d := by
  unfold gsmChange
  rw [show u - v = -(v - u) by ring, fl_neg, abs_neg]

theorem gsmLum_comm (b : ℕ) (dr x y : ℝ) : gsmLum b dr x y = gsmLum b dr y x := by
  unfold gsmLum
  rw [show x - y = -(y - x) by ring, fl_neg, neg_div, fl_neg, neg_mul_neg]

/-- **C129 as computed** (part): the gradient similarity, rounded after every operation to float32 or float64, is exactly the same if
reference and modified image are swapped, whatever the gradients are, unless the mean absolute gradients are equal. What is
missing: images with equal mean gradients (`C129_refuted`). -/
theorem C129_rounded_partial (b : ℕ) (G : (P → ℝ) → P → ℝ) (key : (P → ℝ) → ℝ) (o : SumOrder P) (dr c p : ℝ)
    (x y : P → ℝ) (hne : key (G x) ≠ key (G y)) :
    gsmRounded b G key o dr c p x y = gsmRounded b G key o dr c p y x := by
  have hd : (if key (G x) < key (G y) then G y else G x) = (if key (G y) < key (G x) then G x else G y) := by
    rcases lt_or_gt_of_ne hne with h | h
    · rw [if_pos h, if_neg h.not_gt]
    · rw [if_neg h.not_gt, if_pos h]
  unfold gsmRounded
  rw [max_comm (o.top (G y)), hd]
  congr 2
  funext i
  unfold gsmQuality
  rw [gsmChange_comm b (G x i), gsmLum_comm b dr (x i)]

/-- Two pixels 0, 10 and 0, 30; the gradient is the difference to the first pixel. -/
example : gsmRounded 24 (fun z i => z i - z false) (fun g => g true) (.node (.leaf false) (.leaf true)) 255 200 (1 / 10)
      (fun i => if i then 10 else 0) (fun i => if i then 30 else 0) =
    gsmRounded 24 (fun z i => z i - z false) (fun g => g true) (.node (.leaf false) (.leaf true)) 255 200 (1 / 10)
      (fun i => if i then 30 else 0) (fun i => if i then 10 else 0) :=
  C129_rounded_partial _ _ _ _ _ _ _ _ _ (by norm_num)

end Viqa
