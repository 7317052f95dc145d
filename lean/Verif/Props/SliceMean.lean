import Verif.Props.Dispatch
import Mathlib.Algebra.Order.BigOperators.Group.List

/-!
C175: the score of a volume and the scores of its slices, for the metrics computed slice by slice.
-/

namespace Viqa

/-- The axis along which a volume is cut: `dim` for GSM and MAD, the last axis for the metrics of piq (C35). -/
def Spec.cutAxis (k : Kind) (d : Nat) : Nat := if k = .gsm ∨ k = .mad then d else 2

variable {α : Type}

theorem volume_mean (k : Kind) (g : List (NDArray α) → List (NDArray α) → Py ℝ)
    (f : NDArray α → NDArray α → Py ℝ) (x y : NDArray α) (n0 n1 n2 : Nat)
    (hx : x.shape = [n0, n1, n2]) (hy : y.shape = [n0, n1, n2]) (h3 : n2 ≠ 3)
    (d : Nat) (hd : d < 3) (hn : 0 < [n0, n1, n2].getD (Spec.cutAxis k d) 0) (s : Nat → ℝ)
    (hs : ∀ i px qy, Spec.IsSlice x (Spec.cutAxis k d) i px → Spec.IsSlice y (Spec.cutAxis k d) i qy →
      (dispatch k g f false .none .none px qy).val = .ok (s i)) :
    (dispatch k g f false (.num d) .none x y).val =
      .ok (Spec.meanScore ([n0, n1, n2].getD (Spec.cutAxis k d) 0) s) := by
  by_cases hk : k = .gsm ∨ k = .mad
  · have e : Spec.cutAxis k d = d := if_pos hk
    rw [e] at hn hs ⊢
    exact (C35_mean_over_slices_partial k hk g f false x y n0 n1 n2 hx hy h3 d hd hn s hs).1
  · have e : Spec.cutAxis k d = 2 := if_neg hk
    rw [e] at hn hs ⊢
    exact C35_piq_last_axis k (by cases k <;> simp at hk ⊢) g f x y n0 n1 n2 hx hy h3 hn _ (by simp) s hs

/-- **C175.** The score of a volume lies between the worst and the best score of its slices. -/
theorem C175_between (k : Kind) (g : List (NDArray α) → List (NDArray α) → Py ℝ)
    (f : NDArray α → NDArray α → Py ℝ) (x y : NDArray α) (n0 n1 n2 : Nat)
    (hx : x.shape = [n0, n1, n2]) (hy : y.shape = [n0, n1, n2]) (h3 : n2 ≠ 3)
    (d : Nat) (hd : d < 3) (hn : 0 < [n0, n1, n2].getD (Spec.cutAxis k d) 0) (s : Nat → ℝ)
    (hs : ∀ i px qy, Spec.IsSlice x (Spec.cutAxis k d) i px → Spec.IsSlice y (Spec.cutAxis k d) i qy →
      (dispatch k g f false .none .none px qy).val = .ok (s i)) :
    ∃ v, (dispatch k g f false (.num d) .none x y).val = .ok v ∧
      (∃ i < [n0, n1, n2].getD (Spec.cutAxis k d) 0, s i ≤ v) ∧
      ∃ i < [n0, n1, n2].getD (Spec.cutAxis k d) 0, v ≤ s i := by
  refine ⟨_, volume_mean k g f x y n0 n1 n2 hx hy h3 d hd hn s hs, ?_⟩
  generalize [n0, n1, n2].getD (Spec.cutAxis k d) 0 = n at hn
  have hpos : (0 : ℝ) < (n : ℝ) := by exact_mod_cast hn
  unfold Spec.meanScore
  constructor
  · by_contra hc
    push Not at hc
    have hne : (List.range n).map s ≠ [] := by simp; omega
    have : ((List.range n).map (fun _ => ((List.range n).map s).sum / n)).sum < ((List.range n).map s).sum := by
      apply List.sum_lt_sum_of_ne_nil (by simpa using hne)
      intro i hi
      exact hc i (List.mem_range.1 hi)
    rw [List.map_const', List.sum_replicate, List.length_range, nsmul_eq_mul,
      mul_div_cancel₀ _ hpos.ne'] at this
    exact lt_irrefl _ this
  · by_contra hc
    push Not at hc
    have hne : (List.range n).map s ≠ [] := by simp; omega
    have : ((List.range n).map s).sum < ((List.range n).map (fun _ => ((List.range n).map s).sum / n)).sum := by
      apply List.sum_lt_sum_of_ne_nil (by simpa using hne)
      intro i hi
      exact hc i (List.mem_range.1 hi)
    rw [List.map_const', List.sum_replicate, List.length_range, nsmul_eq_mul,
      mul_div_cancel₀ _ hpos.ne'] at this
    exact lt_irrefl _ this

theorem sum_range_change (n j : Nat) (hj : j < n) (s s' : Nat → ℝ) (h : ∀ i < n, i ≠ j → s' i = s i) :
    ((List.range n).map s').sum - ((List.range n).map s).sum = s' j - s j := by
  induction n with
  | zero => omega
  | succ n ih =>
    rw [List.range_succ, List.map_append, List.map_append, List.sum_append, List.sum_append]
    simp only [List.map_cons, List.map_nil, List.sum_cons, List.sum_nil, add_zero]
    by_cases hjn : j = n
    · subst hjn
      have : (List.range j).map s' = (List.range j).map s :=
        List.map_congr_left (fun i hi => h i (by simp at hi; omega) (by simp at hi; omega))
      rw [this]; ring
    · have := ih (by omega) (fun i hi => h i (by omega))
      have hn := h n (by omega) (fun e => hjn e.symm)
      linarith

/-- **C175.** If two modified volumes differ only in slice `j`, then their scores differ by the difference of the scores of
this slice, divided by the number of slices. -/
theorem C175_one_slice (k : Kind) (g : List (NDArray α) → List (NDArray α) → Py ℝ)
    (f : NDArray α → NDArray α → Py ℝ) (x y y' : NDArray α) (n0 n1 n2 : Nat)
    (hx : x.shape = [n0, n1, n2]) (hy : y.shape = [n0, n1, n2]) (hy' : y'.shape = [n0, n1, n2]) (h3 : n2 ≠ 3)
    (d : Nat) (hd : d < 3) (j : Nat) (hj : j < [n0, n1, n2].getD (Spec.cutAxis k d) 0)
    (hsame : ∀ u v w : Nat, [u, v, w].getD (Spec.cutAxis k d) 0 ≠ j → y'.get [u, v, w] = y.get [u, v, w])
    (s s' : Nat → ℝ)
    (hs : ∀ i px qy, Spec.IsSlice x (Spec.cutAxis k d) i px → Spec.IsSlice y (Spec.cutAxis k d) i qy →
      (dispatch k g f false .none .none px qy).val = .ok (s i))
    (hs' : ∀ i px qy, Spec.IsSlice x (Spec.cutAxis k d) i px → Spec.IsSlice y' (Spec.cutAxis k d) i qy →
      (dispatch k g f false .none .none px qy).val = .ok (s' i)) :
    ∃ v v', (dispatch k g f false (.num d) .none x y).val = .ok v ∧
      (dispatch k g f false (.num d) .none x y').val = .ok v' ∧
      v' - v = (s' j - s j) / ([n0, n1, n2].getD (Spec.cutAxis k d) 0 : Nat) := by
  have hax : Spec.cutAxis k d < 3 := by unfold Spec.cutAxis; split_ifs <;> omega
  refine ⟨_, _, volume_mean k g f x y n0 n1 n2 hx hy h3 d hd (by omega) s hs,
    volume_mean k g f x y' n0 n1 n2 hx hy' h3 d hd (by omega) s' hs', ?_⟩
  have heq : ∀ i < [n0, n1, n2].getD (Spec.cutAxis k d) 0, i ≠ j → s' i = s i := by
    intro i hi hij
    have hp := isSlice_planeAt x _ _ _ hx _ i hax hi
    have hq := isSlice_planeAt y _ _ _ hy _ i hax hi
    have hq' : Spec.IsSlice y' (Spec.cutAxis k d) i (planeAt y (Spec.cutAxis k d) i) := by
      generalize Spec.cutAxis k d = ax at hax hq hsame
      obtain rfl | rfl | rfl : ax = 0 ∨ ax = 1 ∨ ax = 2 := by omega
      all_goals
        simp only [Spec.IsSlice, hy, hy'] at hq ⊢
        refine ⟨hq.1, hq.2.1, fun u v => (hq.2.2 u v).trans (hsame _ _ _ (by simpa using hij)).symm⟩
    have h1 := hs i _ _ hp hq
    have h2 := hs' i _ _ hp hq'
    rw [h1] at h2
    injection h2 with h2
    exact h2.symm
  unfold Spec.meanScore
  rw [← sub_div, sum_range_change _ j hj s s' heq]

/-! ### Examples -/

example : ∃ v, (dispatch .gsm (fun _ _ => .ok 1) (fun p _ => .ok (p.get [0, 0])) false (.num (2 : Nat)) .none
    (⟨[4, 2, 5], fun i => i.sum⟩ : NDArray ℝ) ⟨[4, 2, 5], fun i => i.sum⟩).val = .ok v ∧ (∃ i < 5, ((i : Nat) : ℝ) ≤ v) ∧
      ∃ i < 5, v ≤ ((i : Nat) : ℝ) :=
  C175_between .gsm (fun _ _ => .ok 1) (fun p _ => .ok (p.get [0, 0])) (⟨[4, 2, 5], fun i => i.sum⟩ : NDArray ℝ)
    ⟨[4, 2, 5], fun i => i.sum⟩ 4 2 5 rfl rfl (by omega) 2 (by omega) (by decide) (fun i => i) (by
      rintro i px qy ⟨_, hps, hpv⟩ ⟨_, hqs, _⟩
      rw [dispatch_plane _ _ _ _ _ _ _ _ (by simp [NDArray.ndim, hps])]
      simp [score2, Kind.isPiq, hpv])

/-- Slice 3 of five is brighter by 10, and scored 10 higher: the volume is scored 2 higher. -/
example : ∃ v v', (dispatch .mad (fun _ _ => .ok 1) (fun _ q => .ok (q.get [0, 0])) false (.num (2 : Nat)) .none
      (⟨[4, 2, 5], fun i => i.sum⟩ : NDArray ℝ) ⟨[4, 2, 5], fun i => i.sum⟩).val = .ok v ∧
    (dispatch .mad (fun _ _ => .ok 1) (fun _ q => .ok (q.get [0, 0])) false (.num (2 : Nat)) .none
      (⟨[4, 2, 5], fun i => i.sum⟩ : NDArray ℝ)
      ⟨[4, 2, 5], fun i => if i.getD 2 0 = 3 then i.sum + 10 else i.sum⟩).val = .ok v' ∧ v' - v = 2 := by
  obtain ⟨v, v', h1, h2, h3⟩ := C175_one_slice .mad (fun _ _ => .ok 1) (fun _ q => .ok (q.get [0, 0]))
    (⟨[4, 2, 5], fun i => i.sum⟩ : NDArray ℝ) ⟨[4, 2, 5], fun i => i.sum⟩
    ⟨[4, 2, 5], fun i => if i.getD 2 0 = 3 then i.sum + 10 else i.sum⟩ 4 2 5 rfl rfl rfl (by omega) 2 (by omega) 3
    (by decide) (fun u v w h => by simp [Spec.cutAxis] at h; simp [h]) (fun i => i)
    (fun i => if i = 3 then i + 10 else i)
    (by
      rintro i px qy ⟨_, hps, hpv⟩ ⟨_, hqs, hqv⟩
      rw [dispatch_plane _ _ _ _ _ _ _ _ (by simp [NDArray.ndim, hps])]
      simp [score2, Kind.isPiq, hqv])
    (by
      rintro i px qy ⟨_, hps, hpv⟩ ⟨_, hqs, hqv⟩
      rw [dispatch_plane _ _ _ _ _ _ _ _ (by simp [NDArray.ndim, hps])]
      by_cases hi : i = 3 <;> simp [score2, Kind.isPiq, hqv, hi])
  refine ⟨v, v', h1, h2, ?_⟩
  rw [h3]
  norm_num [Spec.cutAxis]

end Viqa
