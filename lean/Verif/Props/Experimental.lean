import Verif.Model.Experimental
import Verif.Props.Dispatch

/-!
C217: what the argument `experimental` of the gradient similarity does.
-/

namespace Viqa

variable {α : Type}

/-- Without the argument this is the choice of Model/Dispatch.lean. -/
theorem dispatchGsm_left_out (g : List (NDArray α) → List (NDArray α) → Py ℝ) (f : NDArray α → NDArray α → Py ℝ) (c : Bool)
    (dim : DimArg) (sl : SliceArg) (x y : NDArray α) : dispatchGsm f none dim sl x y = dispatch .gsm g f c dim sl x y := by
  unfold dispatchGsm dispatch
  by_cases h3 : x.ndim = 3
  · rw [if_pos h3, if_pos ⟨h3, fun h => by cases h⟩]
    cases dim <;> cases sl <;> rfl
  · rw [if_neg h3, if_neg (show ¬ (x.ndim = 3 ∧ (Kind.seesColour .gsm = true → x.lastDim ≠ 3)) from fun h => h3 h.1)]
    by_cases h2 : x.ndim = 2
    · rw [if_pos h2, if_pos (show x.ndim = 2 ∨ (Kind.seesColour .gsm = true ∧ x.ndim = 3 ∧ x.lastDim = 3) from .inl h2)]
      rfl
    · rw [if_neg h2, if_neg]
      rintro (h | h)
      · exact h2 h
      · exact h3 h.2.1

/-- **C217 (partial).** Full volumes: `experimental=False` does the same as leaving the argument out, for every `dim`.
Missing: slices and 2D images (`C217_slice_refuted`, `C217_plane_refuted`). -/
theorem C217_false_partial (g : List (NDArray α) → List (NDArray α) → Py ℝ) (f : NDArray α → NDArray α → Py ℝ) (c : Bool)
    (dim : DimArg) (x y : NDArray α) (h3 : x.ndim = 3) :
    dispatchGsm f (some false) dim .none x y = dispatch .gsm g f c dim .none x y := by
  rw [← dispatchGsm_left_out g f c]
  unfold dispatchGsm
  rw [if_pos h3, if_pos h3]
  cases dim <;> rfl

/-- **C217 (partial).** Full volumes: with `experimental=True` the score is the one of the volumes as a whole, with the warning
of a full volume; `dim` has to be given but does not matter. -/
theorem C217_true_partial (f : NDArray α → NDArray α → Py ℝ) (dim : DimArg) (x y : NDArray α) (h3 : x.ndim = 3) :
    ((dim ≠ .none → (dispatchGsm f (some true) dim .none x y).val = f x y ∧ (dispatchGsm f (some true) dim .none x y).warns ≠ []) ∧
      (dim = .none → ∃ m, (dispatchGsm f (some true) dim .none x y).val = .error (.valueError m))) := by
  unfold dispatchGsm
  rw [if_pos h3]
  refine ⟨fun hd => ?_, fun hd => ?_⟩
  · cases dim with
    | none => exact absurd rfl hd
    | num v => exact ⟨rfl, List.cons_ne_nil _ _⟩
    | other b => exact ⟨rfl, List.cons_ne_nil _ _⟩
  · subst hd
    exact ⟨_, rfl⟩

/-- **C217, refuted** for a wrong `dim`: with `experimental=True` it is not noticed, otherwise it raises. -/
theorem C217_dim_refuted (g : List (NDArray α) → List (NDArray α) → Py ℝ) (f : NDArray α → NDArray α → Py ℝ) (c : Bool)
    (dim : DimArg) (hd : dim ≠ .none) (hw : ∀ k : Nat, k < 3 → dim ≠ .num k) (x y : NDArray α) (h3 : x.ndim = 3) :
    (dispatchGsm f (some true) dim .none x y).val = f x y ∧
      ∃ m, (dispatch .gsm g f c dim .none x y).val = .error (.valueError m) := by
  refine ⟨((C217_true_partial f dim x y h3).1 hd).1, ?_⟩
  rw [← dispatchGsm_left_out g f c]
  unfold dispatchGsm
  rw [if_pos h3]
  cases dim with
  | none => exact absurd rfl hd
  | other b => exact ⟨_, rfl⟩
  | num v =>
    refine ⟨"Invalid dim value. Must be integer of 0, 1 or 2.", ?_⟩
    show gsmVolume f none (.num v) x y = _
    have e : (DimArg.num v).axis = none := by
      have h0 := hw 0 (by omega)
      have h1 := hw 1 (by omega)
      have h2 := hw 2 (by omega)
      simp only [ne_eq, DimArg.num.injEq, Nat.cast_zero, Nat.cast_one, Nat.cast_ofNat] at h0 h1 h2
      simp [DimArg.axis, h0, h1, h2]
    simp [gsmVolume, score3, e]

/-- **C217, refuted** for slices: a slice that is scored without the argument raises TypeError with it, also with
`experimental=False`. -/
theorem C217_slice_refuted (g : List (NDArray α) → List (NDArray α) → Py ℝ) (f : NDArray α → NDArray α → Py ℝ) (c e : Bool)
    (x y : NDArray α) (n0 n1 n2 : Nat) (hx : x.shape = [n0, n1, n2]) (hy : y.shape = [n0, n1, n2]) (d : Nat) (hd : d < 3)
    (i : Int) (j : Nat) (hj : Spec.Means ([n0, n1, n2].getD d 0) i j) :
    (∃ px qy, Spec.IsSlice x d j px ∧ Spec.IsSlice y d j qy ∧ (dispatch .gsm g f c (.num d) (.int i) x y).val = f px qy) ∧
      ∃ m, (dispatchGsm f (some e) (.num d) (.int i) x y).val = .error (.typeError m) := by
  have h3 : x.ndim = 3 := by simp [NDArray.ndim, hx]
  have ex := takeSlice_means x d i j (by rw [hx]; exact hj)
  have ey := takeSlice_means y d i j (by rw [hy]; exact hj)
  rw [← dispatchGsm_left_out g f c]
  unfold dispatchGsm
  rw [if_pos h3, if_pos h3]
  simp only [axis_num d hd, ex, ey]
  exact ⟨⟨_, _, isSlice_planeAt x _ _ _ hx d j hd hj.1, isSlice_planeAt y _ _ _ hy d j hd hj.1, rfl⟩, _, rfl⟩

/-- **C217, refuted** for 2D images: no value of the argument is accepted. -/
theorem C217_plane_refuted (g : List (NDArray α) → List (NDArray α) → Py ℝ) (f : NDArray α → NDArray α → Py ℝ) (c e : Bool)
    (x y : NDArray α) (h2 : x.ndim = 2) (dim : DimArg) (sl : SliceArg) :
    (dispatch .gsm g f c dim sl x y).val = f x y ∧ ∃ m, (dispatchGsm f (some e) dim sl x y).val = .error (.typeError m) := by
  rw [← dispatchGsm_left_out g f c]
  unfold dispatchGsm
  have h3 : ¬ x.ndim = 3 := by omega
  rw [if_neg h3, if_neg h3, if_pos h2, if_pos h2]
  exact ⟨rfl, _, rfl⟩

/-- A function that tells volumes from planes. -/
def axesScore (x _ : NDArray Rat) : Py ℝ := .ok x.ndim

/-- A volume has the score 3 as a whole with `experimental=True`, even for `dim=7`, and the mean 2 of its slices with
`experimental=False`. -/
example : (dispatchGsm axesScore (some true) (.num 7) .none ⟨[4, 4, 4], fun _ => 0⟩ ⟨[4, 4, 4], fun _ => 5⟩).val = .ok 3 ∧
    (dispatchGsm axesScore (some false) (.num 1) .none ⟨[4, 4, 4], fun _ => 0⟩ ⟨[4, 4, 4], fun _ => 5⟩).val = .ok 2 := by
  constructor
  · rw [((C217_true_partial axesScore (.num 7) ⟨[4, 4, 4], fun _ => 0⟩ ⟨[4, 4, 4], fun _ => 5⟩ rfl).1 (by simp)).1]
    norm_num [axesScore, NDArray.ndim]
  · rw [C217_false_partial (fun _ _ => .ok 0) axesScore false (.num 1) _ _ rfl]
    have := (C35_mean_over_slices_partial .gsm (.inl rfl) (fun _ _ => .ok 0) axesScore false ⟨[4, 4, 4], fun _ => 0⟩
      ⟨[4, 4, 4], fun _ => 5⟩ 4 4 4 rfl rfl (by omega) 1 (by omega) (by simp) (fun _ => 2) (fun i px qy h1 h2 => by
        rw [(C217_plane_refuted (fun _ _ => .ok 0) axesScore false false px qy (by
          simp only [NDArray.ndim, h1.2.1]; rfl) .none .none).1]
        simp only [axesScore, NDArray.ndim, h1.2.1]
        norm_num)).1
    rw [show ((1 : Rat)) = ((1 : Nat) : Rat) by norm_num, this]
    simp [Spec.meanScore]
    norm_num

/-- The middle slice of the volume is scored without the argument only. -/
example (e : Bool) : ∃ m, (dispatchGsm axesScore (some e) (.num (2 : Nat)) (.int (-2)) ⟨[4, 4, 4], fun _ => 0⟩ ⟨[4, 4, 4], fun _ => 5⟩).val =
    .error (.typeError m) :=
  (C217_slice_refuted (fun _ _ => .ok 0) axesScore false e _ _ 4 4 4 rfl rfl 2 (by omega) (-2) 2 ⟨by simp, .inr (by simp)⟩).2

example : ∃ m, (dispatchGsm axesScore (some false) .none .none ⟨[4, 4], fun _ => 0⟩ ⟨[4, 4], fun _ => 5⟩).val = .error (.typeError m) :=
  (C217_plane_refuted (fun _ _ => .ok 0) axesScore false false _ _ rfl .none .none).2

end Viqa
