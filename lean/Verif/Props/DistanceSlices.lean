import Verif.Props.Distance
import Verif.Model.Dispatch

/-!
C152: the RMSE of a volume and the RMSE of its slices.
-/

namespace Viqa

/-- The index with `j` inserted at an axis. -/
def insertAxis (axis j : Nat) (idx : List Nat) : List Nat := idx.take axis ++ j :: idx.drop axis

/-- A sum over all pixels, slice by slice. -/
theorem sum_slices (sh : List Nat) : ∀ (axis : Nat) (_ : axis < sh.length) (f : List Nat → ℝ),
    ((indices sh).map f).sum = ((List.range (sh.getD axis 0)).map (fun j =>
      ((indices (sh.eraseIdx axis)).map (fun idx => f (insertAxis axis j idx))).sum)).sum := by
  have hcons : ∀ (n : Nat) (sh : List Nat) (f : List Nat → ℝ), ((indices (n :: sh)).map f).sum =
      ((List.range n).map (fun i => ((indices sh).map (fun t => f (i :: t))).sum)).sum := by
    intro n sh f
    show (((List.range n).flatMap (fun i => (indices sh).map (i :: ·))).map f).sum = _
    generalize List.range n = l
    induction l with
    | nil => rfl
    | cons i l ih =>
      rw [List.flatMap_cons, List.map_append, List.sum_append, ih, List.map_cons, List.sum_cons, List.map_map]
      rfl
  have hswap : ∀ (l m : List Nat) (g : Nat → Nat → ℝ), (l.map (fun i => (m.map (fun j => g i j)).sum)).sum =
      (m.map (fun j => (l.map (fun i => g i j)).sum)).sum := by
    intro l m g
    induction l with
    | nil => simp
    | cons i l ih => rw [List.map_cons, List.sum_cons, ih, ← sum_map_add]; simp
  induction sh with
  | nil => intro axis h; simp at h
  | cons n sh ih =>
    intro axis h f
    cases axis with
    | zero => rw [hcons]; rfl
    | succ axis =>
      rw [hcons]
      have h' : axis < sh.length := by simpa using h
      simp only [ih axis h']
      rw [hswap]
      show _ = ((List.range (sh.getD axis 0)).map (fun j => ((indices (n :: sh.eraseIdx axis)).map _).sum)).sum
      simp only [hcons]
      rfl

theorem size_slices (sh : List Nat) (axis : Nat) (h : axis < sh.length) :
    sh.prod = sh.getD axis 0 * (sh.eraseIdx axis).prod := by
  induction sh generalizing axis with
  | nil => simp at h
  | cons n sh ih =>
    cases axis with
    | zero => simp
    | succ axis =>
      rw [List.prod_cons, ih axis (by simpa using h), List.eraseIdx_cons_succ, List.prod_cons, List.getD_cons_succ]
      ring

/-- **C152.** The square of the RMSE of two volumes is the mean of the squares of the RMSE of their
slices, whatever the axis. -/
theorem C152_slices (a b : NDArray ℝ) (h : Comparable a b) (axis : Nat) (hax : axis < a.ndim) :
    ∃ (r : ℝ) (rs : List ℝ), rmse a b = .ok r ∧ List.zipWith rmse (slicesAlong a axis) (slicesAlong b axis) = rs.map .ok ∧
      rs.length = a.shape.getD axis 0 ∧ rs ≠ [] ∧ r ^ 2 = (rs.map (fun s => s ^ 2)).sum / rs.length := by
  have hs := h.1
  have hsize : a.shape.prod ≠ 0 := h.2
  rw [size_slices a.shape axis hax] at hsize
  obtain ⟨hn, hp⟩ := mul_ne_zero_iff.1 hsize
  have hcomp : ∀ j, Comparable (planeAt a axis j) (planeAt b axis j) := by
    intro j
    refine ⟨?_, hp⟩
    show a.shape.eraseIdx axis = b.shape.eraseIdx axis
    rw [hs]
  let m : Nat → ℝ := fun j => ((indices (a.shape.eraseIdx axis)).map (fun idx =>
    (a.get (insertAxis axis j idx) - b.get (insertAxis axis j idx)) ^ 2)).sum / (a.shape.eraseIdx axis).prod
  have hm : ∀ j, rmse (planeAt a axis j) (planeAt b axis j) = .ok (Real.sqrt (m j)) := fun j => rmse_eq (hcomp j)
  have hm0 : ∀ j, 0 ≤ m j := fun j => mse_nonneg (planeAt a axis j) (planeAt b axis j)
  refine ⟨_, (List.range (a.shape.getD axis 0)).map (fun j => Real.sqrt (m j)), rmse_eq h, ?_, ?_, ?_, ?_⟩
  · unfold slicesAlong
    rw [← hs, List.zipWith_map, List.zipWith_self, List.map_map]
    exact List.map_congr_left (fun j _ => hm j)
  · simp
  · intro he
    rw [List.map_eq_nil_iff, List.range_eq_nil] at he
    exact hn he
  · rw [Real.sq_sqrt (mse_nonneg a b), List.map_map, List.length_map, List.length_range]
    have e : ((fun s : ℝ => s ^ 2) ∘ fun j => Real.sqrt (m j)) = m := by
      funext j
      exact Real.sq_sqrt (hm0 j)
    rw [e, sum_slices a.shape axis hax]
    have e2 : (a.size : ℝ) = a.shape.getD axis 0 * (a.shape.eraseIdx axis).prod := by
      unfold NDArray.size
      rw [size_slices a.shape axis hax]
      push_cast
      rfl
    have e3 : ∀ j, ((indices (a.shape.eraseIdx axis)).map (fun idx =>
        (a.get (insertAxis axis j idx) - b.get (insertAxis axis j idx)) ^ 2)).sum = (a.shape.eraseIdx axis).prod * m j := by
      intro j
      show _ = _ * (_ / _)
      rw [mul_div_cancel₀]
      exact_mod_cast hp
    simp only [e3]
    rw [sum_map_mul, e2, mul_comm (a.shape.getD axis 0 : ℝ), mul_div_mul_left]
    exact_mod_cast hp

/-- **C152.** The RMSE of two volumes lies between the RMSE of two of their slices. -/
theorem C152_between (a b : NDArray ℝ) (h : Comparable a b) (axis : Nat) (hax : axis < a.ndim) :
    ∃ (r : ℝ) (rs : List ℝ), rmse a b = .ok r ∧ List.zipWith rmse (slicesAlong a axis) (slicesAlong b axis) = rs.map .ok ∧
      (∃ s ∈ rs, s ≤ r) ∧ ∃ s ∈ rs, r ≤ s := by
  obtain ⟨r, rs, hr, hrs, -, hne, hsq⟩ := C152_slices a b h axis hax
  have hr0 : 0 ≤ r := by
    obtain ⟨v, hv, hv0⟩ := C28_nonneg a b h
    rw [hr] at hv; cases hv; exact hv0
  have hs0 : ∀ s ∈ rs, 0 ≤ s := by
    intro s hs
    have : (Except.ok s : Py ℝ) ∈ rs.map .ok := List.mem_map_of_mem hs
    rw [← hrs] at this
    obtain ⟨k, hk, e⟩ := List.mem_iff_getElem.1 this
    rw [List.getElem_zipWith] at e
    unfold rmse at e
    split at e
    · cases e
    · cases e; exact Real.sqrt_nonneg _
  have hlen : (0 : ℝ) < rs.length := by exact_mod_cast List.length_pos_of_ne_nil hne
  rw [eq_div_iff hlen.ne'] at hsq
  refine ⟨r, rs, hr, hrs, ?_, ?_⟩
  · by_contra hc
    push Not at hc
    have : (rs.map (fun _ => r ^ 2)).sum < (rs.map (fun s => s ^ 2)).sum :=
      List.sum_lt_sum_of_ne_nil hne _ _ (fun s hs => by
        have := hc s hs
        nlinarith)
    rw [sum_const, ← hsq] at this
    linarith
  · by_contra hc
    push Not at hc
    have : (rs.map (fun s => s ^ 2)).sum < (rs.map (fun _ => r ^ 2)).sum :=
      List.sum_lt_sum_of_ne_nil hne _ _ (fun s hs => by
        have h1 := hc s hs
        have h2 := hs0 s hs
        nlinarith)
    rw [sum_const, ← hsq] at this
    linarith

/-- Two volumes of two slices: the first slices agree, the second ones differ by 2. -/
example : ∃ r, rmse ⟨[1, 2, 2], fun _ => 0⟩ ⟨[1, 2, 2], fun i => if i.getD 2 0 = 0 then 0 else 2⟩ = .ok r ∧ r ^ 2 = 2 := by
  obtain ⟨r, rs, hr, hrs, -, -, h⟩ := C152_slices ⟨[1, 2, 2], fun _ => 0⟩
    ⟨[1, 2, 2], fun i => if i.getD 2 0 = 0 then 0 else 2⟩ ⟨rfl, by decide⟩ 2 (by decide)
  refine ⟨r, hr, ?_⟩
  have e : ∀ j, Comparable (planeAt (⟨[1, 2, 2], fun _ => 0⟩ : NDArray ℝ) 2 j)
      (planeAt ⟨[1, 2, 2], fun i => if i.getD 2 0 = 0 then 0 else 2⟩ 2 j) := fun j => ⟨rfl, by show [1, 2].prod ≠ 0; decide⟩
  have e' : indices [1, 2] = [[0, 0], [0, 1]] := by decide
  have hl : List.zipWith rmse (slicesAlong (⟨[1, 2, 2], fun _ => 0⟩ : NDArray ℝ) 2)
      (slicesAlong ⟨[1, 2, 2], fun i => if i.getD 2 0 = 0 then 0 else 2⟩ 2) = [.ok (Real.sqrt 0), .ok (Real.sqrt 4)] := by
    show [rmse _ _, rmse _ _] = _
    rw [rmse_eq (e 0), rmse_eq (e 1)]
    have s1 : (planeAt (⟨[1, 2, 2], fun _ => 0⟩ : NDArray ℝ) 2 0).shape = [1, 2] := rfl
    have s2 : (planeAt (⟨[1, 2, 2], fun _ => 0⟩ : NDArray ℝ) 2 1).shape = [1, 2] := rfl
    have n1 : (planeAt (⟨[1, 2, 2], fun _ => 0⟩ : NDArray ℝ) 2 0).size = 2 := rfl
    have n2 : (planeAt (⟨[1, 2, 2], fun _ => 0⟩ : NDArray ℝ) 2 1).size = 2 := rfl
    rw [s1, s2, n1, n2, e']
    norm_num [planeAt]
  rw [hl] at hrs
  obtain rfl : rs = [Real.sqrt 0, Real.sqrt 4] := by
    have : ([Real.sqrt 0, Real.sqrt 4].map .ok : List (Py ℝ)) = rs.map .ok := hrs
    exact (List.map_injective_iff.2 (fun _ _ h => Except.ok.inj h) this).symm
  rw [h]
  simp only [List.map_cons, List.map_nil, Real.sq_sqrt (le_refl (0 : ℝ)), Real.sq_sqrt (show (0 : ℝ) ≤ 4 by norm_num)]
  norm_num

example : ∃ (r : ℝ) (rs : List ℝ), rmse ⟨[3, 2, 2], fun _ => 0⟩ ⟨[3, 2, 2], fun i => i.sum⟩ = .ok r ∧
    List.zipWith rmse (slicesAlong ⟨[3, 2, 2], fun _ => 0⟩ 0) (slicesAlong ⟨[3, 2, 2], fun i => i.sum⟩ 0) = rs.map .ok ∧
    (∃ s ∈ rs, s ≤ r) ∧ ∃ s ∈ rs, r ≤ s :=
  C152_between ⟨[3, 2, 2], fun _ => 0⟩ ⟨[3, 2, 2], fun i => i.sum⟩ ⟨rfl, by decide⟩ 0 (by decide)

end Viqa
