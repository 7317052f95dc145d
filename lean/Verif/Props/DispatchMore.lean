import Verif.Props.Dispatch

/-!
C118 (the argument `reduction` of the piq metrics) and C119 (messages for incomplete arguments).
-/

namespace Viqa

section
variable {α : Type} (g : List (NDArray α) → List (NDArray α) → Py ℝ)

/-- The default of the argument is the model used for C34 and C35. -/
theorem piqScoreRed_mean (chromatic : Bool) (x y : NDArray α) : piqScoreRed g chromatic .mean x y = piqScore g chromatic x y := by
  unfold piqScoreRed piqTensor piqScore
  cases checkChromatic chromatic x with
  | error e => rfl
  | ok bx =>
    cases checkChromatic chromatic y with
    | error e => rfl
    | ok b =>
      dsimp only
      cases collect (List.zipWith g bx b) with
      | error e => rfl
      | ok l => cases l <;> rfl

theorem piqTensor_volume (x y : NDArray α) (n0 n1 n2 : Nat) (hx : x.shape = [n0, n1, n2]) (hy : y.shape = [n0, n1, n2])
    (s : Nat → ℝ) (hs : ∀ i px py, Spec.IsSlice x 2 i px → Spec.IsSlice y 2 i py → g [px] [py] = .ok (s i)) :
    collect (List.zipWith g ((slicesAlong x 2).map (fun p => [p])) ((slicesAlong y 2).map (fun p => [p]))) =
      .ok ((List.range n2).map s) := by
  rw [List.zipWith_map]
  have h := zipWith_slices (fun a b => g [a] [b]) x y 2 (by rw [hx, hy])
  rw [h, hx, ← collect_ok, List.map_map]
  congr 1
  apply List.map_congr_left
  intro i hi
  have hi' : i < [n0, n1, n2].getD 2 0 := List.mem_range.1 hi
  exact hs i _ _ (isSlice_planeAt x _ _ _ hx 2 i (by omega) hi') (isSlice_planeAt y _ _ _ hy 2 i (by omega) hi')

/-- **C118, partial.** For gray volumes whose slices along the last axis score `s i`: `mean` gives the mean, `sum` the sum of
these scores. Missing: `none`, see `C118_refuted`. -/
theorem C118_mean_sum_partial (x y : NDArray α) (n0 n1 n2 : Nat) (hn : 0 < n2) (hx : x.shape = [n0, n1, n2])
    (hy : y.shape = [n0, n1, n2]) (s : Nat → ℝ)
    (hs : ∀ i px py, Spec.IsSlice x 2 i px → Spec.IsSlice y 2 i py → g [px] [py] = .ok (s i)) :
    piqScoreRed g false .mean x y = .ok (Spec.meanScore n2 s) ∧
    piqScoreRed g false .sum x y = .ok ((List.range n2).map s).sum := by
  have hnx : x.ndim = 3 := by simp [NDArray.ndim, hx]
  have hny : y.ndim = 3 := by simp [NDArray.ndim, hy]
  have h := piqTensor_volume g x y n0 n1 n2 hx hy s hs
  constructor
  · unfold piqScoreRed piqTensor checkChromatic
    simp only [Bool.false_eq_true, if_false, hnx, hny, if_true, h]
    have := meanOf_map n2 hn s
    rw [show ((List.range n2).map (fun i => (.ok (s i) : Py ℝ))) = ((List.range n2).map s).map .ok by simp, collect_ok] at this
    rw [this]
    rfl
  · unfold piqScoreRed piqTensor checkChromatic
    simp only [Bool.false_eq_true, if_false, hnx, hny, if_true, h]
    rfl

/-- Four slices of the score 2. -/
example : piqScoreRed (fun _ _ => .ok 2) false .sum (⟨[2, 2, 4], fun i => i⟩ : NDArray (List Nat)) ⟨[2, 2, 4], fun i => i⟩ = .ok 8 := by
  rw [(C118_mean_sum_partial (fun _ _ => .ok 2) _ _ 2 2 4 (by omega) rfl rfl (fun _ => 2) (fun _ _ _ _ _ => rfl)).2]
  norm_num [List.range_succ]

/-- **C118, refuted** for `none`: for every volume with more than one slice, all of which can be scored, RuntimeError is
raised after the calculation. -/
theorem C118_refuted (x y : NDArray α) (n0 n1 n2 : Nat) (hn : 1 < n2) (hx : x.shape = [n0, n1, n2])
    (hy : y.shape = [n0, n1, n2]) (s : Nat → ℝ)
    (hs : ∀ i px py, Spec.IsSlice x 2 i px → Spec.IsSlice y 2 i py → g [px] [py] = .ok (s i)) :
    piqTensor g false .none x y = .ok ((List.range n2).map s) ∧
    ∃ msg, piqScoreRed g false .none x y = .error (.runtimeError msg) := by
  have hnx : x.ndim = 3 := by simp [NDArray.ndim, hx]
  have hny : y.ndim = 3 := by simp [NDArray.ndim, hy]
  have h := piqTensor_volume g x y n0 n1 n2 hx hy s hs
  have ht : piqTensor g false .none x y = .ok ((List.range n2).map s) := by
    unfold piqTensor checkChromatic
    simp only [Bool.false_eq_true, if_false, hnx, hny, if_true, h]
  refine ⟨ht, ?_⟩
  unfold piqScoreRed
  rw [ht]
  obtain ⟨m, rfl⟩ : ∃ m, n2 = m + 2 := ⟨n2 - 2, by omega⟩
  refine ⟨"a Tensor with several elements cannot be converted to Scalar", ?_⟩
  simp [List.range_succ_eq_map, tensorFloat]

/-- **C118, partial.** For planes all three values give the same score. -/
theorem C118_plane_partial (x y : NDArray α) (hx : x.ndim = 2) (hy : y.ndim = 2) (red : Reduction) :
    piqScoreRed g false red x y = g [x] [y] := by
  unfold piqScoreRed piqTensor checkChromatic
  simp only [Bool.false_eq_true, if_false, hx, hy, if_true, show ¬ (2 = 3) by omega]
  cases h : g [x] [y] with
  | error e => simp [collect, h]
  | ok v => cases red <;> simp [collect, h, tensorFloat, meanOf]

example : ∃ msg, piqScoreRed (fun _ _ => .ok 1) false .none (⟨[2, 2, 4], fun i => i⟩ : NDArray (List Nat))
    ⟨[2, 2, 4], fun i => i⟩ = .error (.runtimeError msg) :=
  (C118_refuted (fun _ _ => .ok 1) _ _ 2 2 4 (by omega) rfl rfl (fun _ => 1) (fun _ _ _ _ _ => rfl)).2

/-! ### C119 -/

variable (k : Kind) (f : NDArray α → NDArray α → Py ℝ) (chromatic : Bool) (x y : NDArray α)

/-- **C119, partial.** Exact condition: the message for a volume without `dim` says that `dim` must be given only for FSIM
without a slice or with an integer slice, and for the metrics other than MAD with an integer slice. -/
theorem C119_dim_message_iff_partial (n0 n1 n2 : Nat) (hx : x.shape = [n0, n1, n2]) (h3 : n2 ≠ 3) (s : SliceArg) :
    (dispatch k g f chromatic .none s x y).val =
        .error (.valueError "If images are 3D, dim and im_slice (optional) must be given.") ↔
      (k = .fsim ∧ s = .none) ∨ (k ≠ .mad ∧ ∃ i, s = .int i) := by
  unfold dispatch
  rw [if_pos ⟨by simp [NDArray.ndim, hx], fun _ => by simp [NDArray.lastDim, hx, h3]⟩]
  cases s <;> cases k <;> simp [PyW.raise, volumeMessage]

example : (dispatch .fsim (fun _ _ => .ok 1) (fun _ _ => .ok 0) false .none .none (⟨[2, 2, 4], fun i => i⟩ : NDArray (List Nat))
    ⟨[2, 2, 4], fun i => i⟩).val = .error (.valueError "If images are 3D, dim and im_slice (optional) must be given.") :=
  (C119_dim_message_iff_partial _ .fsim _ false _ _ 2 2 4 rfl (by omega) .none).2 (.inl ⟨rfl, rfl⟩)

/-- **C119, refuted**: a volume without `dim` and `im_slice` is refused by five of the six metrics with a message about
`im_slice`, and MAD does so for every slice. -/
theorem C119_refuted (n0 n1 n2 : Nat) (hx : x.shape = [n0, n1, n2]) (h3 : n2 ≠ 3) (hk : k ≠ .fsim) :
    (∃ msg ∈ ["im_slice must be an integer.", "im_slice must be an integer or None."],
      (dispatch k g f chromatic .none .none x y).val = .error (.valueError msg)) ∧
    ∀ s, (dispatch .mad g f chromatic .none s x y).val = .error (.valueError "im_slice must be an integer or None.") := by
  constructor
  · unfold dispatch
    rw [if_pos ⟨by simp [NDArray.ndim, hx], fun _ => by simp [NDArray.lastDim, hx, h3]⟩]
    cases k <;> first | exact absurd rfl hk | simp [PyW.raise, volumeMessage]
  · intro s
    unfold dispatch
    rw [if_pos ⟨by simp [NDArray.ndim, hx], fun _ => by simp [NDArray.lastDim, hx, h3]⟩]
    rfl

/-- **C119.** A slice that is neither an integer nor None is always reported as such. -/
theorem C119_slice_message (n0 n1 n2 : Nat) (hx : x.shape = [n0, n1, n2]) (h3 : n2 ≠ 3) (d : DimArg) (b : Bool) :
    ∃ msg ∈ ["im_slice must be an integer.", "im_slice must be an integer or None."],
      dispatch k g f chromatic d (.other b) x y = ⟨[], .error (.valueError msg)⟩ := by
  unfold dispatch
  rw [if_pos ⟨by simp [NDArray.ndim, hx], fun _ => by simp [NDArray.lastDim, hx, h3]⟩]
  cases d <;> cases k <;> simp [PyW.raise, volumeMessage]

example : (dispatch .gsm (fun _ _ => .ok 1) (fun _ _ => .ok 0) false .none .none
    (⟨[2, 2, 4], fun i => i⟩ : NDArray (List Nat)) ⟨[2, 2, 4], fun i => i⟩).val = .error (.valueError "im_slice must be an integer.") := by
  simp [dispatch, NDArray.ndim, NDArray.lastDim, PyW.raise, volumeMessage]

end

end Viqa
