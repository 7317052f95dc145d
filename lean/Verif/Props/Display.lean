import Verif.Model.Display
import Verif.Props.Dispatch
import Verif.Spec.Region

/-!
Properties of the views and exports: C67, C68, C97 to C102.
-/

namespace Viqa

open Spec

variable {α : Type}

/-! ### The three views -/

theorem viewX_ok (img : NDArray α) (n0 n1 n2 : Nat) (hs : img.shape = [n0, n1, n2]) (x : Int) (i : Nat)
    (h : Means n0 x i) : ∃ p, viewX img x = .ok p ∧ p.shape = [n2, n1] ∧
      ∀ y z, y < n1 → z < n2 → p.get [z, y] = img.get [i, y, z] := by
  unfold viewX
  rw [takeSlice_means img 0 x i (by simpa [hs] using h)]
  simp only [bind, Except.bind]
  refine ⟨swapAxes (flipAxis (flipAxis (planeAt img 0 i) 1) 1) 0 1, by
    simp [rot90, flipAxis, planeAt, hs, NDArray.ndim], ?_, ?_⟩
  · simp [swapAxes, flipAxis, planeAt, hs, swapAt]
  · intro y z hy hz
    simp only [swapAxes, flipAxis, planeAt, hs, swapAt]
    have : n2 - 1 - (n2 - 1 - z) = z := by omega
    simp [this]

theorem viewY_ok (img : NDArray α) (n0 n1 n2 : Nat) (hs : img.shape = [n0, n1, n2]) (y : Int) (i : Nat)
    (h : Means n1 y i) : ∃ p, viewY img y = .ok p ∧ p.shape = [n2, n0] ∧
      ∀ x z, x < n0 → z < n2 → p.get [z, x] = img.get [x, i, z] := by
  unfold viewY
  rw [takeSlice_means img 1 y i (by simpa [hs] using h)]
  simp only [bind, Except.bind]
  refine ⟨swapAxes (flipAxis (flipAxis (planeAt img 1 i) 1) 1) 0 1, by
    simp [rot90, flipAxis, planeAt, hs, NDArray.ndim], ?_, ?_⟩
  · simp [swapAxes, flipAxis, planeAt, hs, swapAt]
  · intro x z hx hz
    simp only [swapAxes, flipAxis, planeAt, hs, swapAt]
    have : n2 - 1 - (n2 - 1 - z) = z := by omega
    simp [this]

theorem viewZ_ok (img : NDArray α) (n0 n1 n2 : Nat) (hs : img.shape = [n0, n1, n2]) (z : Int) (i : Nat)
    (h : Means n2 z i) : ∃ p, viewZ img z = .ok p ∧ p.shape = [n1, n0] ∧
      ∀ x y, x < n0 → y < n1 → p.get [y, x] = img.get [x, y, i] := by
  unfold viewZ
  rw [takeSlice_means img 2 z i (by simpa [hs] using h)]
  simp only [bind, Except.bind]
  refine ⟨flipAxis (swapAxes (flipAxis (planeAt img 2 i) 0) 0 1) 1, by
    simp [rot90, flipAxis, planeAt, hs, NDArray.ndim], ?_, ?_⟩
  · simp [swapAxes, flipAxis, planeAt, hs, swapAt]
  · intro x y hx hy
    simp only [swapAxes, flipAxis, planeAt, hs, swapAt]
    have : n0 - 1 - (n0 - 1 - x) = x := by omega
    simp [this]

theorem means_of_range (n : Nat) (i : Int) (h1 : -(n : Int) ≤ i) (h2 : i < n) : ∃ j, Means n i j := by
  by_cases h : 0 ≤ i
  · exact ⟨i.toNat, by omega, Or.inl (by omega)⟩
  · exact ⟨(i + n).toNat, by omega, Or.inr (by omega)⟩

theorem range_of_means (n : Nat) (i : Int) (j : Nat) (h : Means n i j) : -(n : Int) ≤ i ∧ i < n := by
  obtain ⟨h1, h2 | h2⟩ := h <;> omega

theorem threeViews_ok (img : NDArray α) (n0 n1 n2 : Nat) (hs : img.shape = [n0, n1, n2]) (x y z : Int) (i j k : Nat)
    (hi : Means n0 x i) (hj : Means n1 y j) (hk : Means n2 z k) (mark : Int → Int → Option Mark) :
    ∃ a b c, threeViews img x y z mark = .ok [⟨a, some z, some y, mark y z⟩, ⟨b, some z, some x, mark x z⟩,
        ⟨c, some y, some x, mark x y⟩] ∧
      (a.shape = [n2, n1] ∧ ∀ y z, y < n1 → z < n2 → a.get [z, y] = img.get [i, y, z]) ∧
      (b.shape = [n2, n0] ∧ ∀ x z, x < n0 → z < n2 → b.get [z, x] = img.get [x, j, z]) ∧
      (c.shape = [n1, n0] ∧ ∀ x y, x < n0 → y < n1 → c.get [y, x] = img.get [x, y, k]) := by
  obtain ⟨a, ha, ha'⟩ := viewX_ok img n0 n1 n2 hs x i hi
  obtain ⟨b, hb, hb'⟩ := viewY_ok img n0 n1 n2 hs y j hj
  obtain ⟨c, hc, hc'⟩ := viewZ_ok img n0 n1 n2 hs z k hk
  exact ⟨a, b, c, by simp [threeViews, ha, hb, hc, bind, Except.bind], ha', hb', hc'⟩

theorem viewX_bad (img : NDArray α) (x : Int) (h : ∀ j, ¬ Means (img.shape.getD 0 0) x j) : viewX img x = .error .indexError := by
  unfold viewX
  rw [takeSlice_range img 0 x h]
  rfl

theorem viewY_bad (img : NDArray α) (x : Int) (h : ∀ j, ¬ Means (img.shape.getD 1 0) x j) : viewY img x = .error .indexError := by
  unfold viewY
  rw [takeSlice_range img 1 x h]
  rfl

theorem viewZ_bad (img : NDArray α) (x : Int) (h : ∀ j, ¬ Means (img.shape.getD 2 0) x j) : viewZ img x = .error .indexError := by
  unfold viewZ
  rw [takeSlice_range img 2 x h]
  rfl

theorem allInts_three (a b c : NumArg) (s : List Int) (h : allInts [a, b, c] = some s) :
    ∃ x y z : Int, a = .int x ∧ b = .int y ∧ c = .int z ∧ s = [x, y, z] := by
  cases a <;> cases b <;> cases c <;> simp [allInts] at h
  exact ⟨_, _, _, rfl, rfl, rfl, h.symm⟩

/-! ### C67 -/

/-- The slices are valid indices. -/
def ValidSlices (n0 n1 n2 : Nat) (slices : List NumArg) : Prop :=
  ∃ x y z : Int, slices = [.int x, .int y, .int z] ∧ (-(n0 : Int) ≤ x ∧ x < n0) ∧ (-(n1 : Int) ≤ y ∧ y < n1) ∧
    (-(n2 : Int) ≤ z ∧ z < n2)

theorem visualize3d_ints (img : NDArray α) (n0 n1 n2 : Nat) (hs : img.shape = [n0, n1, n2]) (x y z : Int) :
    visualize3d img [.int x, .int y, .int z] =
      if (-(n0 : Int) ≤ x ∧ x ≤ n0) ∧ (-(n1 : Int) ≤ y ∧ y ≤ n1) ∧ (-(n2 : Int) ≤ z ∧ z ≤ n2) then
        threeViews img x y z (fun _ _ => none)
      else .error (.valueError "The slices are out of bounds.") := by
  have hr : List.range 3 = [0, 1, 2] := rfl
  unfold visualize3d
  rw [if_neg (by simp)]
  simp only [allInts, List.mapM_cons, List.mapM_nil, bind, Option.bind, pure]
  rw [if_neg (by simp [NDArray.ndim, hs])]
  by_cases h : (-(n0 : Int) ≤ x ∧ x ≤ n0) ∧ (-(n1 : Int) ≤ y ∧ y ≤ n1) ∧ (-(n2 : Int) ≤ z ∧ z ≤ n2)
  · rw [if_pos h, if_neg]
    · rfl
    · simp [hs, hr, h]
  · rw [if_neg h, if_pos]
    simp only [List.length_cons, List.length_nil, Nat.zero_add, hr, hs]
    simp only [List.all_cons, List.all_nil, Bool.and_true, Bool.and_eq_true, decide_eq_true_eq]
    simpa using h

/-- **C67.** A volume is shown exactly for three valid indices. -/
theorem C67_shown_iff (img : NDArray α) (n0 n1 n2 : Nat) (hs : img.shape = [n0, n1, n2]) (slices : List NumArg) :
    (∃ p, visualize3d img slices = .ok p) ↔ ValidSlices n0 n1 n2 slices := by
  constructor
  · rintro ⟨p, hp⟩
    have h3 : slices.length = 3 := by
      apply Classical.byContradiction
      intro h
      unfold visualize3d at hp
      rw [if_pos h] at hp
      cases hp
    obtain ⟨a, b, c, rfl⟩ := List.length_eq_three.1 h3
    have hi : ∃ s, allInts [a, b, c] = some s := by
      cases hx : allInts [a, b, c] with
      | none =>
        unfold visualize3d at hp
        rw [if_neg (by simp), hx] at hp
        cases hp
      | some s => exact ⟨s, rfl⟩
    obtain ⟨s, hx⟩ := hi
    obtain ⟨x, y, z, rfl, rfl, rfl, rfl⟩ := allInts_three a b c s hx
    rw [visualize3d_ints img n0 n1 n2 hs] at hp
    split at hp
    · rename_i hb
      refine ⟨x, y, z, rfl, ?_⟩
      have hx' : ∃ j, Means n0 x j := by
        apply Classical.byContradiction
        intro hn
        unfold threeViews at hp
        rw [viewX_bad img x (by intro j hj; exact hn ⟨j, by simpa [hs] using hj⟩)] at hp
        cases hp
      have hy' : ∃ j, Means n1 y j := by
        apply Classical.byContradiction
        intro hn
        unfold threeViews at hp
        rw [viewY_bad img y (by intro j hj; exact hn ⟨j, by simpa [hs] using hj⟩)] at hp
        cases hv : viewX img x <;> rw [hv] at hp <;> cases hp
      have hz' : ∃ j, Means n2 z j := by
        apply Classical.byContradiction
        intro hn
        unfold threeViews at hp
        rw [viewZ_bad img z (by intro j hj; exact hn ⟨j, by simpa [hs] using hj⟩)] at hp
        cases hv : viewX img x with
        | error e => rw [hv] at hp; cases hp
        | ok a => cases hw : viewY img y <;> rw [hv, hw] at hp <;> cases hp
      obtain ⟨i, hi⟩ := hx'
      obtain ⟨j, hj⟩ := hy'
      obtain ⟨k, hk⟩ := hz'
      exact ⟨range_of_means _ _ _ hi, range_of_means _ _ _ hj, range_of_means _ _ _ hk⟩
    · cases hp
  · rintro ⟨x, y, z, rfl, h0, h1, h2⟩
    rw [visualize3d_ints img n0 n1 n2 hs, if_pos (by omega)]
    obtain ⟨i, hi⟩ := means_of_range n0 x h0.1 h0.2
    obtain ⟨j, hj⟩ := means_of_range n1 y h1.1 h1.2
    obtain ⟨k, hk⟩ := means_of_range n2 z h2.1 h2.2
    obtain ⟨a, b, c, h, -⟩ := threeViews_ok img n0 n1 n2 hs x y z i j k hi hj hk (fun _ _ => none)
    exact ⟨_, h⟩

/-- **C67, partial.** Everything else raises ValueError, unless a slice equals the length of its axis.
Missing: that case, see `C67_refuted`. -/
theorem C67_value_error_partial (img : NDArray α) (slices : List NumArg)
    (h : ∀ n0 n1 n2, img.shape = [n0, n1, n2] → ¬ ValidSlices n0 n1 n2 slices ∧
      ∀ (k : Nat) (x : Int), slices[k]? = some (.int x) → x ≠ (([n0, n1, n2].getD k 0 : Nat) : Int)) :
    ∃ m, visualize3d img slices = .error (.valueError m) := by
  by_cases h3 : slices.length ≠ 3
  · exact ⟨_, by unfold visualize3d; rw [if_pos h3]⟩
  · simp only [ne_eq, Decidable.not_not] at h3
    obtain ⟨a, b, c, rfl⟩ := List.length_eq_three.1 h3
    cases hx : allInts [a, b, c] with
    | none => exact ⟨_, by unfold visualize3d; rw [if_neg (by simp), hx]⟩
    | some s =>
      obtain ⟨x, y, z, rfl, rfl, rfl, rfl⟩ := allInts_three a b c s hx
      by_cases hn : img.ndim ≠ 3
      · exact ⟨_, by unfold visualize3d; rw [if_neg (by simp), hx]; simp only; rw [if_pos hn]⟩
      · simp only [ne_eq, Decidable.not_not] at hn
        obtain ⟨n0, n1, n2, hs⟩ := List.length_eq_three.1 hn
        obtain ⟨h1, h2⟩ := h n0 n1 n2 hs
        rw [visualize3d_ints img n0 n1 n2 hs, if_neg]
        · exact ⟨_, rfl⟩
        · intro hb
          apply h1
          have e0 := h2 0 x rfl
          have e1 := h2 1 y rfl
          have e2 := h2 2 z rfl
          simp only [List.getD_cons_zero, List.getD_cons_succ] at e0 e1 e2
          exact ⟨x, y, z, rfl, by omega, by omega, by omega⟩

/-- **C67, refuted** for the first index behind the end, for every volume: it passes the check and raises
IndexError. -/
theorem C67_refuted (img : NDArray α) (n0 n1 n2 : Nat) (hs : img.shape = [n0, n1, n2]) :
    visualize3d img [.int n0, .int 0, .int 0] = .error .indexError := by
  rw [visualize3d_ints img n0 n1 n2 hs, if_pos (by omega)]
  unfold threeViews
  rw [viewX_bad]
  · rfl
  · intro j hj
    have := range_of_means _ _ _ hj
    simp [hs] at this

/-- A small volume. -/
def exampleVolume3 : NDArray Nat := ⟨[2, 3, 4], fun i => i.getD 0 0 * 100 + i.getD 1 0 * 10 + i.getD 2 0⟩

example : ∃ m, visualize3d exampleVolume3 [.int 1, .int (-4), .int 0] = .error (.valueError m) :=
  C67_value_error_partial exampleVolume3 _ (by
    rintro n0 n1 n2 h
    simp only [exampleVolume3, List.cons.injEq, and_true] at h
    obtain ⟨rfl, rfl, rfl⟩ := h
    refine ⟨?_, ?_⟩
    · rintro ⟨x, y, z, h, -, hy, -⟩
      simp only [List.cons.injEq, NumArg.int.injEq, and_true] at h
      omega
    · intro k x hk
      match k, hk with
      | 0, hk => simp at hk ⊢; omega
      | 1, hk => simp at hk ⊢; omega
      | 2, hk => simp at hk ⊢; omega
      | k + 3, hk => simp at hk)

example : ∃ p, visualize3d exampleVolume3 [.int 1, .int (-1), .int 0] = .ok p := by
  exact (C67_shown_iff exampleVolume3 2 3 4 rfl _).2 ⟨1, -1, 0, rfl, by omega, by omega, by omega⟩

/-! ### C98, C99 -/

/-- **C98.** In the three views the voxel `(x, y, z)` appears at the coordinates named by the labels of the
axes: `(y, z)` in the first view, `(x, z)` in the second and `(x, y)` in the third. -/
theorem C98_views (img : NDArray α) (n0 n1 n2 : Nat) (hs : img.shape = [n0, n1, n2]) (x y z : Int) (i j k : Nat)
    (hi : Means n0 x i) (hj : Means n1 y j) (hk : Means n2 z k) :
    ∃ a b c, visualize3d img [.int x, .int y, .int z] = .ok [a, b, c] ∧
      (a.shown.shape = [n2, n1] ∧ ∀ y z, y < n1 → z < n2 → a.shown.get [z, y] = img.get [i, y, z]) ∧
      (b.shown.shape = [n2, n0] ∧ ∀ x z, x < n0 → z < n2 → b.shown.get [z, x] = img.get [x, j, z]) ∧
      (c.shown.shape = [n1, n0] ∧ ∀ x y, x < n0 → y < n1 → c.shown.get [y, x] = img.get [x, y, k]) := by
  have r0 := range_of_means _ _ _ hi
  have r1 := range_of_means _ _ _ hj
  have r2 := range_of_means _ _ _ hk
  rw [visualize3d_ints img n0 n1 n2 hs, if_pos (by omega)]
  obtain ⟨a, b, c, h, ha, hb, hc⟩ := threeViews_ok img n0 n1 n2 hs x y z i j k hi hj hk (fun _ _ => none)
  exact ⟨_, _, _, h, ha, hb, hc⟩

/-- Voxel (1, 2, 3) in the first view of the slices (1, -1, 0). -/
example : ∃ a b c, visualize3d (⟨[2, 3, 4], fun i => i⟩ : NDArray (List Nat)) [.int 1, .int (-1), .int 0] = .ok [a, b, c] ∧
    a.shown.get [3, 2] = [1, 2, 3] ∧ b.shown.get [3, 0] = [0, 2, 3] ∧ c.shown.get [1, 0] = [0, 1, 0] := by
  obtain ⟨a, b, c, h, ⟨-, ha⟩, ⟨-, hb⟩, -, hc⟩ := C98_views (⟨[2, 3, 4], fun i => i⟩ : NDArray (List Nat)) 2 3 4 rfl 1 (-1) 0 1 2 0
    ⟨by decide, by decide⟩ ⟨by decide, by decide⟩ ⟨by decide, by decide⟩
  exact ⟨a, b, c, h, ha 2 3 (by decide) (by decide), hb 0 3 (by decide) (by decide), hc 0 1 (by decide) (by decide)⟩

/-- **C99, partial.** For indices counted from the front, the lines in every view mark the slices of the other
two views. Missing: negative indices, see `C99_refuted`. -/
theorem C99_lines_partial (img : NDArray α) (n0 n1 n2 : Nat) (hs : img.shape = [n0, n1, n2]) (i j k : Nat)
    (hi : i < n0) (hj : j < n1) (hk : k < n2) :
    ∃ a b c, visualize3d img [.int i, .int j, .int k] = .ok [a, b, c] ∧
      (a.vline = some (j : Int) ∧ a.hline = some (k : Int)) ∧ (b.vline = some (i : Int) ∧ b.hline = some (k : Int)) ∧
      (c.vline = some (i : Int) ∧ c.hline = some (j : Int)) := by
  rw [visualize3d_ints img n0 n1 n2 hs, if_pos (by omega)]
  obtain ⟨a, b, c, h, -⟩ := threeViews_ok img n0 n1 n2 hs i j k i j k ⟨hi, Or.inl rfl⟩ ⟨hj, Or.inl rfl⟩
    ⟨hk, Or.inl rfl⟩ (fun _ _ => none)
  exact ⟨_, _, _, h, ⟨rfl, rfl⟩, ⟨rfl, rfl⟩, ⟨rfl, rfl⟩⟩

example : ∃ a b c, visualize3d (⟨[2, 3, 4], fun i => i⟩ : NDArray (List Nat)) [.int (1 : Nat), .int (2 : Nat), .int (0 : Nat)] = .ok [a, b, c] ∧
    a.vline = some 2 ∧ a.hline = some 0 ∧ c.vline = some 1 := by
  obtain ⟨a, b, c, h, h1, -, h3⟩ := C99_lines_partial (⟨[2, 3, 4], fun i => i⟩ : NDArray (List Nat)) 2 3 4 rfl 1 2 0
    (by decide) (by decide) (by decide)
  exact ⟨a, b, c, h, h1.1, h1.2, h3.1⟩

/-- **C99, refuted** for negative indices: the lines are drawn outside of the image, for every volume. -/
theorem C99_refuted (img : NDArray α) (n0 n1 n2 : Nat) (hs : img.shape = [n0, n1, n2]) (h0 : 0 < n0) (h1 : 0 < n1)
    (h2 : 0 < n2) : ∃ a b c, visualize3d img [.int (-1), .int (-1), .int (-1)] = .ok [a, b, c] ∧
      (∀ y z, y < n1 → z < n2 → a.shown.get [z, y] = img.get [n0 - 1, y, z]) ∧
      a.vline = some (-1) ∧ a.hline = some (-1) ∧ b.vline = some (-1) := by
  rw [visualize3d_ints img n0 n1 n2 hs, if_pos (by omega)]
  obtain ⟨a, b, c, h, ha, -⟩ := threeViews_ok img n0 n1 n2 hs (-1) (-1) (-1) (n0 - 1) (n1 - 1) (n2 - 1)
    ⟨by omega, Or.inr (by omega)⟩ ⟨by omega, Or.inr (by omega)⟩ ⟨by omega, Or.inr (by omega)⟩ (fun _ _ => none)
  exact ⟨_, _, _, h, ha.2, rfl, rfl, rfl⟩

/-! ### C100 -/

namespace Spec

/-- The mark drawn for a region surrounds the point. A square of side `2 r` holds the pixels from its
lower edge to below its upper edge, as the region does. -/
def Surrounds (m : Mark) (h v : Nat) : Prop :=
  match m with
  | .rect a b r => a - r ≤ h ∧ (h : Int) < a + r ∧ b - r ≤ v ∧ (v : Int) < b + r
  | .circle a b r => ((h : Int) - a) ^ 2 + ((v : Int) - b) ^ 2 ≤ r ^ 2

/-- The pixel belongs to the region of the kind around the centre. -/
def InRegion (kind : RKind) (c : List Int) (r : Int) (idx : List Nat) : Prop :=
  match kind with
  | .cubic => InBox c r idx
  | _ => sqDist idx c ≤ r ^ 2

end Spec

theorem inBox_two (a b r : Int) (i j : Nat) : InBox [a, b] r [i, j] ↔
    (a - r ≤ i ∧ (i : Int) < a + r) ∧ (b - r ≤ j ∧ (j : Int) < b + r) := by
  constructor
  · intro h
    exact ⟨by simpa using h 0 (by simp), by simpa using h 1 (by simp)⟩
  · rintro ⟨h1, h2⟩ k hk
    simp only [List.length_cons, List.length_nil] at hk
    obtain rfl | rfl : k = 0 ∨ k = 1 := by omega
    · simpa using h1
    · simpa using h2

theorem inBox_three (a b c r : Int) (i j l : Nat) : InBox [a, b, c] r [i, j, l] ↔
    (a - r ≤ i ∧ (i : Int) < a + r) ∧ (b - r ≤ j ∧ (j : Int) < b + r) ∧ (c - r ≤ l ∧ (l : Int) < c + r) := by
  constructor
  · intro h
    exact ⟨by simpa using h 0 (by simp), by simpa using h 1 (by simp), by simpa using h 2 (by simp)⟩
  · rintro ⟨h1, h2, h3⟩ k hk
    simp only [List.length_cons, List.length_nil] at hk
    obtain rfl | rfl | rfl : k = 0 ∨ k = 1 ∨ k = 2 := by omega
    · simpa using h1
    · simpa using h2
    · simpa using h3

theorem sqDist_two (a b : Int) (i j : Nat) : sqDist [i, j] [a, b] = ((i : Int) - a) ^ 2 + ((j : Int) - b) ^ 2 := by
  simp [sqDist, show List.range 2 = [0, 1] from rfl]

theorem sqDist_three (a b c : Int) (i j l : Nat) :
    sqDist [i, j, l] [a, b, c] = ((i : Int) - a) ^ 2 + (((j : Int) - b) ^ 2 + ((l : Int) - c) ^ 2) := by
  simp [sqDist, show List.range 3 = [0, 1, 2] from rfl]

/-- **C100, partial.** In the three views of a volume the mark surrounds exactly the shown voxels that belong to
the region, for cubic and spherical regions around a voxel. Missing: 2D images, see `C100_plane_refuted` and
`C100_mirrored_refuted`. -/
theorem C100_volume_partial (img : NDArray α) (n0 n1 n2 : Nat) (hs : img.shape = [n0, n1, n2]) (c0 c1 c2 : Nat)
    (h0 : c0 < n0) (h1 : c1 < n1) (h2 : c2 < n2) (r : Int) (hr : 0 < r) (kind : RKind)
    (hk : kind = .cubic ∨ kind = .spherical) :
    ∃ a b c ma mb mc, snrViews3d img (c0, c1, c2) r kind = .ok [a, b, c] ∧
      a.mark = some ma ∧ b.mark = some mb ∧ c.mark = some mc ∧
      (∀ y z, y < n1 → z < n2 → a.shown.get [z, y] = img.get [c0, y, z] ∧
        (Surrounds ma y z ↔ InRegion kind [c0, c1, c2] r [c0, y, z])) ∧
      (∀ x z, x < n0 → z < n2 → b.shown.get [z, x] = img.get [x, c1, z] ∧
        (Surrounds mb x z ↔ InRegion kind [c0, c1, c2] r [x, c1, z])) ∧
      (∀ x y, x < n0 → y < n1 → c.shown.get [y, x] = img.get [x, y, c2] ∧
        (Surrounds mc x y ↔ InRegion kind [c0, c1, c2] r [x, y, c2])) := by
  have hinv : kind ≠ .invalid := by rcases hk with rfl | rfl <;> decide
  unfold snrViews3d
  rw [if_neg hinv]
  obtain ⟨a, b, c, h, ha, hb, hc⟩ := threeViews_ok img n0 n1 n2 hs c0 c1 c2 c0 c1 c2 ⟨h0, Or.inl rfl⟩ ⟨h1, Or.inl rfl⟩
    ⟨h2, Or.inl rfl⟩ (fun h v => markFor kind h v r)
  rcases hk with rfl | rfl
  · refine ⟨_, _, _, .rect c1 c2 r, .rect c0 c2 r, .rect c0 c1 r, h, rfl, rfl, rfl, ?_, ?_, ?_⟩
    · intro y z hy hz
      refine ⟨ha.2 y z hy hz, ?_⟩
      simp only [Surrounds, InRegion, inBox_three]
      omega
    · intro x z hx hz
      refine ⟨hb.2 x z hx hz, ?_⟩
      simp only [Surrounds, InRegion, inBox_three]
      omega
    · intro x y hx hy
      refine ⟨hc.2 x y hx hy, ?_⟩
      simp only [Surrounds, InRegion, inBox_three]
      omega
  · refine ⟨_, _, _, .circle c1 c2 r, .circle c0 c2 r, .circle c0 c1 r, h, rfl, rfl, rfl, ?_, ?_, ?_⟩
    · intro y z hy hz
      refine ⟨ha.2 y z hy hz, ?_⟩
      simp only [Surrounds, InRegion, sqDist_three, sub_self]
      norm_num
    · intro x z hx hz
      refine ⟨hb.2 x z hx hz, ?_⟩
      simp only [Surrounds, InRegion, sqDist_three, sub_self]
      norm_num
    · intro x y hx hy
      refine ⟨hc.2 x y hx hy, ?_⟩
      simp only [Surrounds, InRegion, sqDist_three, sub_self]
      norm_num

/-- The voxel next to the centre is marked, the one two away is not. -/
example : ∃ a b c ma, snrViews3d (⟨[9, 9, 9], fun i => i⟩ : NDArray (List Nat)) ((4 : Nat), (4 : Nat), (4 : Nat)) 1 .cubic = .ok [a, b, c] ∧
    a.mark = some ma ∧ (Surrounds ma 4 3 ↔ InRegion .cubic [(4 : Nat), (4 : Nat), (4 : Nat)] 1 [4, 4, 3]) := by
  obtain ⟨a, b, c, ma, mb, mc, h, h1, -, -, ha, -⟩ := C100_volume_partial (⟨[9, 9, 9], fun i => i⟩ : NDArray (List Nat)) 9 9 9 rfl 4 4 4
    (by decide) (by decide) (by decide) 1 (by decide) .cubic (.inl rfl)
  exact ⟨a, b, c, ma, h, h1, (ha 4 3 (by decide) (by decide)).2⟩

/-- **C100, refuted** for 2D images: in the view of the background of CNR the region with the centre `(c0, c1)`,
`c0 ≠ c1`, contains a pixel that is shown outside of the mark. The coordinates of the mark are exchanged. -/
theorem C100_plane_refuted (img : NDArray α) (n0 n1 : Nat) (c0 c1 : Nat) (r : Nat) (hr : 0 < r)
    (hb : BoxInside [n0, n1] [c0, c1] r) (hne : c0 ≠ c1) (signal : Int × Int) :
    ∃ b s m, cnrViews2d img signal (c0, c1) r .cubic = .ok [b, s] ∧ b.mark = some m ∧ b.shown = img ∧
      ∃ i j, i < n0 ∧ j < n1 ∧ InRegion .cubic [c0, c1] r [i, j] ∧ ¬ Surrounds m j i := by
  have e0 : 0 ≤ (c0 : Int) - r ∧ (c0 : Int) + r ≤ n0 := by simpa using hb.2 0 (by simp)
  have e1 : 0 ≤ (c1 : Int) - r ∧ (c1 : Int) + r ≤ n1 := by simpa using hb.2 1 (by simp)
  refine ⟨_, _, .rect c0 c1 r, rfl, rfl, rfl, ?_⟩
  simp only [Surrounds, InRegion, inBox_two]
  rcases Nat.lt_or_gt_of_ne hne with h | h
  · exact ⟨c0 - r, c1 + r - 1, by omega, by omega, by omega, by omega⟩
  · exact ⟨c0 + r - 1, c1 - r, by omega, by omega, by omega, by omega⟩

/-- **C100, refuted** for 2D images in the views of the signal (CNR and SNR), which show the mirror image: even
for equal coordinates the mark misses pixels of the region unless the centre is in the middle. -/
theorem C100_mirrored_refuted (img : NDArray α) (n0 n1 : Nat) (hs : img.shape = [n0, n1]) (c r : Nat) (hr : 0 < r)
    (hb : BoxInside [n0, n1] [c, c] r) (hne : 2 * c ≠ n1) :
    ∃ p m, snrView2d img (c, c) r .cubic = .ok p ∧ p.mark = some m ∧
      ∃ i j h, i < n0 ∧ j < n1 ∧ h < n1 ∧ p.shown.get [i, h] = img.get [i, j] ∧ h = n1 - 1 - j ∧
        InRegion .cubic [c, c] r [i, j] ∧ ¬ Surrounds m h i := by
  have e0 : 0 ≤ (c : Int) - r ∧ (c : Int) + r ≤ n0 := by simpa using hb.2 0 (by simp)
  have e1 : 0 ≤ (c : Int) - r ∧ (c : Int) + r ≤ n1 := by simpa using hb.2 1 (by simp)
  refine ⟨_, .rect c c r, rfl, rfl, ?_⟩
  have hget : ∀ i h, h < n1 → (flipAxis img 1).get [i, h] = img.get [i, n1 - 1 - h] := by
    intro i h _
    simp [flipAxis, hs]
  simp only [Surrounds, InRegion, inBox_two]
  rcases Nat.lt_or_gt_of_ne hne with h | h
  · refine ⟨c - r, c - r, n1 - 1 - (c - r), by omega, by omega, by omega, ?_, rfl, by omega, by omega⟩
    rw [hget _ _ (by omega)]
    congr 3
    omega
  · refine ⟨c - r, c + r - 1, n1 - 1 - (c + r - 1), by omega, by omega, by omega, ?_, rfl, by omega, by omega⟩
    rw [hget _ _ (by omega)]
    congr 3
    omega

/-- **C100, partial**, 2D: the mark is right if the coordinates of the centre are equal and the image is not
mirrored (background of CNR). -/
theorem C100_diagonal_partial (img : NDArray α) (c r : Int) (signal : Int × Int) (kind : RKind)
    (hk : kind = .cubic ∨ kind = .spherical) :
    ∃ b s m, cnrViews2d img signal (c, c) r kind = .ok [b, s] ∧ b.mark = some m ∧ b.shown = img ∧
      ∀ i j, Surrounds m j i ↔ InRegion kind [c, c] r [i, j] := by
  rcases hk with rfl | rfl
  · refine ⟨_, _, .rect c c r, rfl, rfl, rfl, ?_⟩
    intro i j
    simp only [Surrounds, InRegion, inBox_two]
    omega
  · refine ⟨_, _, .circle c c r, rfl, rfl, rfl, ?_⟩
    intro i j
    simp only [Surrounds, InRegion, sqDist_two]
    rw [add_comm]

example (img : NDArray α) : ∃ b s m, cnrViews2d img (5, 5) (((3 : Nat) : Int), ((5 : Nat) : Int)) ((2 : Nat) : Int) .cubic = .ok [b, s] ∧
    b.mark = some m ∧ b.shown = img ∧
      ∃ i j, i < 10 ∧ j < 10 ∧ InRegion .cubic [((3 : Nat) : Int), ((5 : Nat) : Int)] ((2 : Nat) : Int) [i, j] ∧ ¬ Surrounds m j i :=
  C100_plane_refuted img 10 10 3 5 2 (by decide) ⟨rfl, by
    intro k hk
    simp only [List.length_cons, List.length_nil] at hk
    obtain rfl | rfl : k = 0 ∨ k = 1 := by omega
    · simp
    · simp⟩ (by decide) (5, 5)

/-! ### C101 -/

/-- Two images show the same pixels. -/
def SamePixels (a b : NDArray α) : Prop := a.shape = b.shape ∧ ∀ idx, InShape a.shape idx → a.get idx = b.get idx

/-- **C101**, exact condition: `visualize_2d` and `export_image` show a 2D image alike exactly if the image is equal
to its mirror image. -/
theorem C101_alike_iff_partial (img : NDArray α) (n0 n1 : Nat) (hs : img.shape = [n0, n1]) (x y z : Option Int) :
    ∃ p q, visualize2d img = .ok p ∧ exportPlane img x y z = .ok q ∧
      (SamePixels p.shown q ↔ ∀ i j, i < n0 → j < n1 → img.get [i, j] = img.get [i, n1 - 1 - j]) := by
  refine ⟨_, _, by unfold visualize2d; rw [if_neg (by simp [NDArray.ndim, hs])],
    by unfold exportPlane; rw [if_pos (Or.inl (by simp [NDArray.ndim, hs]))], ?_⟩
  have hget : ∀ i j, (flipAxis img 1).get [i, j] = img.get [i, n1 - 1 - j] := by
    intro i j; simp [flipAxis, hs]
  constructor
  · intro h i j hi hj
    have := h.2 [i, j] (by simp [hs, InShape, hi, hj])
    rw [hget] at this
    exact this
  · intro h
    refine ⟨rfl, ?_⟩
    intro idx hidx
    simp only [hs] at hidx
    match idx, hidx with
    | [i, j], hidx =>
      simp only [InShape] at hidx
      rw [hget]
      exact h i j hidx.1 hidx.2.1

example : ∃ p q, visualize2d (⟨[2, 2], fun i => i⟩ : NDArray (List Nat)) = .ok p ∧
    exportPlane (⟨[2, 2], fun i => i⟩ : NDArray (List Nat)) none none none = .ok q ∧ ¬ SamePixels p.shown q := by
  obtain ⟨p, q, h1, h2, h⟩ := C101_alike_iff_partial (⟨[2, 2], fun i => i⟩ : NDArray (List Nat)) 2 2 rfl none none none
  exact ⟨p, q, h1, h2, fun hs => absurd (h.1 hs 0 0 (by decide) (by decide)) (by decide)⟩

/-- **C101, refuted**: an image of two different pixels. -/
theorem C101_refuted : ¬ ∀ (img : NDArray Nat) (p : Panel Nat) (q : NDArray Nat), visualize2d img = .ok p →
    exportPlane img none none none = .ok q → SamePixels p.shown q := by
  intro h
  let img : NDArray Nat := ⟨[1, 2], fun i => i.getD 1 0⟩
  have := (h img _ _ rfl rfl).2 [0, 0] (by simp [InShape, img])
  simp [flipAxis, img] at this

/-! ### C102 -/

/-- **C102, refuted**: without the undocumented keyword argument `region_type`, showing the regions of CNR fails
for every image and every choice of centres and radius. -/
theorem C102_refuted (a : NDArray α) (stored : StoredRegions) (signal background : List NumArg)
    (radius : Option NumArg) : ∃ e, cnrVisualize a stored signal background radius none = .error e := by
  unfold cnrVisualize
  cases h1 : chosenRegions stored signal background radius with
  | error e => exact ⟨e, rfl⟩
  | ok t =>
    obtain ⟨s, b, r⟩ := t
    simp only [bind, Except.bind]
    by_cases h2 : a.ndim ≠ s.length ∨ a.ndim ≠ b.length
    · rw [if_pos h2]; exact ⟨_, rfl⟩
    · rw [if_neg h2]
      cases checkRadius r with
      | error e => exact ⟨e, rfl⟩
      | ok r' =>
        cases checkBorder s r with
        | error e => exact ⟨e, rfl⟩
        | ok _ =>
          cases checkBorder b r with
          | error e => exact ⟨e, rfl⟩
          | ok _ => exact ⟨_, rfl⟩

/-- **C102, partial**: with `region_type` and centres inside of a volume the regions are shown. `C102_plane_partial` is the same for 2D images. -/
theorem C102_shown_partial (a : NDArray α) (n0 n1 n2 : Nat) (hs : a.shape = [n0, n1, n2]) (s b : Nat × Nat × Nat)
    (r : Nat) (hr : 0 < r) (hsr : r ≤ s.1 ∧ r ≤ s.2.1 ∧ r ≤ s.2.2) (hbr : r ≤ b.1 ∧ r ≤ b.2.1 ∧ r ≤ b.2.2)
    (hsi : s.1 < n0 ∧ s.2.1 < n1 ∧ s.2.2 < n2) (hbi : b.1 < n0 ∧ b.2.1 < n1 ∧ b.2.2 < n2)
    (stored : StoredRegions) (t : String) (ht : regionKind t = .cubic ∨ regionKind t = .spherical) :
    ∃ ps, cnrVisualize a stored [.int s.1, .int s.2.1, .int s.2.2] [.int b.1, .int b.2.1, .int b.2.2]
      (some (.int r)) (some t) = .ok ps ∧ ps.length = 6 := by
  have hborder : ∀ c : Nat × Nat × Nat, (r ≤ c.1 ∧ r ≤ c.2.1 ∧ r ≤ c.2.2) →
      checkBorder [.int c.1, .int c.2.1, .int c.2.2] (.int r) = .ok () := by
    intro c hc
    simp only [checkBorder, tooClose]
    rw [abs_of_nonneg (by omega), abs_of_nonneg (by omega), abs_of_nonneg (by omega),
      decide_eq_false (by omega), decide_eq_false (by omega), decide_eq_false (by omega)]
  unfold cnrVisualize chosenRegions
  simp only
  rw [if_neg (by simp; omega)]
  simp only [bind, Except.bind]
  rw [if_neg (by simp [NDArray.ndim, hs])]
  have hrad : checkRadius (.int r) = .ok (r : Int) := by
    unfold checkRadius
    simp only
    rw [if_neg (by omega)]
  rw [hrad]
  simp only
  rw [hborder s hsr, hborder b hbr]
  simp only
  rw [if_pos (by simp [NDArray.ndim, hs])]
  unfold cnrViews3d
  rw [if_neg (by rcases ht with h | h <;> simp [h])]
  have key : ∀ c : Nat × Nat × Nat, (c.1 < n0 ∧ c.2.1 < n1 ∧ c.2.2 < n2) →
      ∃ p q u, threeViews a (centre3 (centreInts [.int c.1, .int c.2.1, .int c.2.2])).1
        (centre3 (centreInts [.int c.1, .int c.2.1, .int c.2.2])).2.1
        (centre3 (centreInts [.int c.1, .int c.2.1, .int c.2.2])).2.2
        (fun h v => markFor (regionKind t) h v r) = .ok [p, q, u] := by
    intro c hc
    obtain ⟨p, q, u, h, -⟩ := threeViews_ok a n0 n1 n2 hs c.1 c.2.1 c.2.2 c.1 c.2.1 c.2.2 ⟨hc.1, Or.inl rfl⟩
      ⟨hc.2.1, Or.inl rfl⟩ ⟨hc.2.2, Or.inl rfl⟩ (fun h v => markFor (regionKind t) h v r)
    exact ⟨_, _, _, h⟩
  obtain ⟨p, q, u, hb'⟩ := key b hbi
  obtain ⟨p', q', u', hs'⟩ := key s hsi
  rw [hb', hs']
  exact ⟨_, rfl, rfl⟩

example : ∃ ps, cnrVisualize exampleVolume3 none [.int ((1 : Nat) : Int), .int ((2 : Nat) : Int), .int ((3 : Nat) : Int)]
    [.int ((1 : Nat) : Int), .int ((1 : Nat) : Int), .int ((1 : Nat) : Int)] (some (.int ((1 : Nat) : Int))) (some "cubic") = .ok ps ∧ ps.length = 6 :=
  C102_shown_partial exampleVolume3 2 3 4 rfl (1, 2, 3) (1, 1, 1) 1 (by decide) (by decide) (by decide) (by decide)
    (by decide) none "cubic" (Or.inl rfl)

/-- **C102, partial**, for 2D images: the background and the signal are shown, and both are marked. -/
theorem C102_plane_partial (a : NDArray α) (n0 n1 : Nat) (hs : a.shape = [n0, n1]) (s b : Nat × Nat)
    (r : Nat) (hr : 0 < r) (hsr : r ≤ s.1 ∧ r ≤ s.2) (hbr : r ≤ b.1 ∧ r ≤ b.2)
    (stored : StoredRegions) (t : String) (ht : regionKind t = .cubic ∨ regionKind t = .spherical) :
    ∃ p q, cnrVisualize a stored [.int s.1, .int s.2] [.int b.1, .int b.2] (some (.int r)) (some t) = .ok [p, q] ∧
      p.mark ≠ none ∧ q.mark ≠ none := by
  have hborder : ∀ c : Nat × Nat, (r ≤ c.1 ∧ r ≤ c.2) → checkBorder [.int c.1, .int c.2] (.int r) = .ok () := by
    intro c hc
    simp only [checkBorder, tooClose]
    rw [abs_of_nonneg (by omega), abs_of_nonneg (by omega), decide_eq_false (by omega), decide_eq_false (by omega)]
  unfold cnrVisualize chosenRegions
  simp only
  rw [if_neg (by simp; omega)]
  simp only [bind, Except.bind]
  rw [if_neg (by simp [NDArray.ndim, hs])]
  have hrad : checkRadius (.int r) = .ok (r : Int) := by
    unfold checkRadius
    simp only
    rw [if_neg (by omega)]
  rw [hrad]
  simp only
  rw [hborder s hsr, hborder b hbr]
  simp only
  rw [if_neg (by simp [NDArray.ndim, hs]), if_pos (by simp [NDArray.ndim, hs])]
  unfold cnrViews2d
  rcases ht with h | h <;> simp [h, markFor]

example : ∃ p q, cnrVisualize (⟨[4, 5], fun _ => (7 : Nat)⟩ : NDArray Nat) none [.int ((1 : Nat) : Int), .int ((2 : Nat) : Int)]
    [.int ((2 : Nat) : Int), .int ((3 : Nat) : Int)] (some (.int ((1 : Nat) : Int))) (some "spherical") = .ok [p, q] ∧
    p.mark ≠ none ∧ q.mark ≠ none :=
  C102_plane_partial _ 4 5 rfl (1, 2) (2, 3) 1 (by decide) (by decide) (by decide) none "spherical" (Or.inr rfl)

end Viqa
