import Verif.Props.RegionTurn

/-!
C214: centre, radius and scores found automatically if the image is flipped, transposed or rotated.
-/

namespace Viqa

/-- No other pixel is as far from the nearest pixel outside the cleaned region as the centre. -/
def Spec.OnlyDeepest (l : Largest) : Prop :=
  ∀ p, InShape l.cleaned.shape p → p ≠ l.centre → ∃ q, InShape l.cleaned.shape q ∧ l.cleaned.get q = false ∧
    ∀ q', InShape l.cleaned.shape q' → l.cleaned.get q' = false → sqDist p (toInts q) < sqDist l.centre (toInts q')

/-! ### Positions -/

/-- Square of the distance of two positions. -/
def posDist (p q : List Int) : Int := ((List.zipWith (fun x y => x - y) p q).map (· ^ 2)).sum

theorem posDist_ints (p q : List Nat) : distSq p (toInts q) = posDist (toInts p) (toInts q) := by
  rw [distSq_eq]
  unfold fromCentre posDist toInts
  rw [List.zipWith_map_left]

theorem posDist_cons (x y : Int) (p q : List Int) : posDist (x :: p) (y :: q) = (x - y) ^ 2 + posDist p q := by
  simp [posDist]

theorem posDist_nonneg (p q : List Int) : 0 ≤ posDist p q := by
  unfold posDist
  apply List.sum_nonneg
  intro x hx
  obtain ⟨y, -, rfl⟩ := List.mem_map.1 hx
  positivity

theorem posDist_self (p : List Int) : posDist p p = 0 := by
  induction p with
  | nil => rfl
  | cons x p ih => rw [posDist_cons, ih]; ring

theorem posDist_zero (p q : List Int) (hl : q.length = p.length) (h : posDist p q = 0) : q = p := by
  induction p generalizing q with
  | nil => simpa using hl
  | cons x p ih =>
    cases q with
    | nil => simp at hl
    | cons y q =>
      rw [posDist_cons] at h
      have h1 := posDist_nonneg p q
      have h2 := sq_nonneg (x - y)
      have h3 : (x - y) ^ 2 = 0 := by omega
      have h4 : x - y = 0 := by simpa using h3
      rw [ih q (by simpa using hl) (by omega), show y = x by omega]

theorem mem_cross (p q : List Int) : q ∈ crossNeighbours p ↔ q = p ∨ ∃ k, k < p.length ∧
    (q = p.modify k (· - 1) ∨ q = p.modify k (· + 1)) := by
  unfold crossNeighbours
  simp

/-- The neighbours are the positions at distance at most one. -/
theorem mem_cross_iff (p q : List Int) : q ∈ crossNeighbours p ↔ q.length = p.length ∧ posDist p q ≤ 1 := by
  rw [mem_cross]
  constructor
  · rintro (rfl | ⟨k, hk, h⟩)
    · exact ⟨rfl, by rw [posDist_self]; omega⟩
    · have key : ∀ (s : Int), s ^ 2 = 1 → ∀ (p : List Int) (k : Nat), posDist p (p.modify k (· + s)) ≤ 1 := by
        intro s hs p
        induction p with
        | nil => intro k; cases k <;> simp [posDist]
        | cons x p ih =>
          intro k
          cases k with
          | zero =>
            rw [List.modify_zero_cons, posDist_cons, posDist_self]
            have : (x - (x + s)) ^ 2 = s ^ 2 := by ring
            rw [this, hs]; omega
          | succ k =>
            rw [List.modify_succ_cons, posDist_cons]
            have := ih k
            have e : (x - x) ^ 2 = (0 : Int) := by simp
            rw [e]; omega
      rcases h with rfl | rfl
      · exact ⟨by simp, key (-1) (by norm_num) p k⟩
      · exact ⟨by simp, key 1 (by norm_num) p k⟩
  · rintro ⟨hl, h⟩
    induction p generalizing q with
    | nil => left; simpa using hl
    | cons x p ih =>
      cases q with
      | nil => simp at hl
      | cons y q =>
        rw [posDist_cons] at h
        have h1 := posDist_nonneg p q
        have hl' : q.length = p.length := by simpa using hl
        by_cases hxy : x - y = 0
        · rw [hxy] at h
          have e : x = y := by omega
          subst e
          rcases ih q hl' (by simpa using h) with rfl | ⟨k, hk, h⟩
          · left; rfl
          · right
            refine ⟨k + 1, by simpa using hk, ?_⟩
            rcases h with rfl | rfl
            · left; rfl
            · right; rfl
        · have h2 : 1 ≤ (x - y) ^ 2 := by
            have : 0 < (x - y) ^ 2 := by positivity
            omega
          have h3 : q = p := posDist_zero p q hl' (by omega)
          subst h3
          have h4 : (x - y) ^ 2 = 1 := by omega
          right
          refine ⟨0, by simp, ?_⟩
          rcases (sq_eq_sq_iff_eq_or_eq_neg.1 (by rw [h4]; norm_num : (x - y) ^ 2 = (1 : Int) ^ 2)) with h5 | h5
          · left; simp; omega
          · right; simp; omega

/-! ### Motions -/

/-- `P` moves the positions of an image of shape `sh` to those of one of shape `sh'`, `Q` moves them back. -/
structure Moves (sh sh' : List Nat) (P Q : List Int → List Int) : Prop where
  len : ∀ p, p.length = sh.length → (P p).length = sh'.length
  ins : ∀ p, Spec.RegionFits 1 0 sh p → Spec.RegionFits 1 0 sh' (P p)
  dist : ∀ p q, p.length = sh.length → q.length = sh.length → posDist (P p) (P q) = posDist p q
  back : ∀ p, p.length = sh.length → Q (P p) = p

theorem moves_flip (sh : List Nat) (k : Nat) : Moves sh sh (flipPos sh k) (flipPos sh k) where
  len p h := by unfold flipPos; rw [List.length_modify, h]
  ins p h := within_flip h k
  dist p q _ _ := by
    unfold posDist
    have e : List.zipWith (fun x y => x - y) (flipPos sh k p) (flipPos sh k q) =
        (List.zipWith (fun x y => x - y) p q).modify k (fun x => -x) := by
      apply List.ext_getElem?
      intro j
      rw [List.getElem?_zipWith, List.getElem?_modify, List.getElem?_zipWith]
      unfold flipPos
      rw [List.getElem?_modify, List.getElem?_modify]
      by_cases hk : k = j
      · simp only [hk, if_true]
        cases p[j]? <;> cases q[j]? <;> simp
      · simp only [hk, if_false]
        cases p[j]? <;> cases q[j]? <;> simp
    rw [e, map_modify_same]
    intro x; ring
  back p _ := flipPos_invol sh k p

theorem moves_swap (sh : List Nat) (i j : Nat) (hi : i < sh.length) (hj : j < sh.length) :
    Moves sh (swapAt sh i j) (fun p => swapAt p i j) (fun p => swapAt p i j) where
  len p h := by rw [length_swapAt, length_swapAt, h]
  ins p h := within_swap h i j hi hj
  dist p q hp hq := by
    have hl : (List.zipWith (fun x y : Int => x - y) p q).length = sh.length := by rw [List.length_zipWith]; omega
    have e : List.zipWith (fun x y => x - y) (swapAt p i j) (swapAt q i j) =
        swapAt (List.zipWith (fun x y => x - y) p q) i j := by
      apply List.ext_getElem?
      intro k
      rw [swapAt_getElem? _ _ _ _ (by omega) (by omega), List.getElem?_zipWith, List.getElem?_zipWith,
        swapAt_getElem? _ _ _ _ (by omega) (by omega), swapAt_getElem? _ _ _ _ (by omega) (by omega)]
    unfold posDist
    rw [e]
    exact ((swapAt_perm _ i j (by omega) (by omega)).map _).sum_eq
  back p h := swapAt_invol _ _ _ (by omega) (by omega)

theorem Moves.trans {s1 s2 s3 : List Nat} {P1 Q1 P2 Q2 : List Int → List Int} (h1 : Moves s1 s2 P1 Q1)
    (h2 : Moves s2 s3 P2 Q2) : Moves s1 s3 (fun p => P2 (P1 p)) (fun p => Q1 (Q2 p)) where
  len p h := h2.len _ (h1.len p h)
  ins p h := h2.ins _ (h1.ins p h)
  dist p q hp hq := by rw [h2.dist _ _ (h1.len p hp) (h1.len q hq), h1.dist p q hp hq]
  back p h := by rw [h2.back _ (h1.len p h), h1.back p h]

theorem moves_refl (sh : List Nat) : Moves sh sh id id where
  len _ h := h
  ins _ h := h
  dist _ _ _ _ := rfl
  back _ _ := rfl

theorem inside_iff (sh idx : List Nat) : Spec.RegionFits 1 0 sh (toInts idx) ↔ InShape sh idx := by
  rw [within_iff, inShape_iff]
  constructor
  · rintro ⟨hl, h⟩
    refine ⟨by simpa using hl, fun k i n h1 h2 => ?_⟩
    have := h k n i h2 (by simp [h1])
    omega
  · rintro ⟨hl, h⟩
    refine ⟨by simpa using hl, fun k n x h1 h2 => ?_⟩
    rw [List.getElem?_map] at h2
    obtain ⟨i, hi, rfl⟩ := Option.map_eq_some_iff.1 h2
    have := h k i n hi h1
    omega

theorem inside_nonneg {sh : List Nat} {p : List Int} (h : Spec.RegionFits 1 0 sh p) : ∀ x ∈ p, 0 ≤ x := by
  intro x hx
  obtain ⟨k, hk⟩ := List.mem_iff_getElem?.1 hx
  rw [within_iff] at h
  have hlt : k < sh.length := by rw [← h.1]; exact (List.getElem?_eq_some_iff.1 hk).1
  exact (h.2 k _ x (List.getElem?_eq_getElem hlt) hk).1

theorem toInts_toNat {p : List Int} (h : ∀ x ∈ p, 0 ≤ x) : toInts (p.map Int.toNat) = p := by
  unfold toInts
  rw [List.map_map]
  conv_rhs => rw [← List.map_id p]
  apply List.map_congr_left
  intro x hx
  have := h x hx
  simp; omega

theorem toNat_toInts (p : List Nat) : (toInts p).map Int.toNat = p := by
  unfold toInts
  rw [List.map_map]
  conv_rhs => rw [← List.map_id p]
  apply List.map_congr_left
  intro x _
  simp

/-- The value at a moved position. -/
def MovedTo {α} (P : List Int → List Int) (b b' : NDArray α) : Prop :=
  ∀ p, Spec.RegionFits 1 0 b.shape p → b'.get ((P p).map Int.toNat) = b.get (p.map Int.toNat)

theorem boolAt_iff (b : NDArray Bool) (p : List Int) : boolAt b p = true ↔ Spec.RegionFits 1 0 b.shape p ∧ b.get (p.map Int.toNat) = true := by
  unfold boolAt
  simp only [Bool.and_eq_true, List.all_eq_true, decide_eq_true_eq]
  constructor
  · rintro ⟨h1, h2, h3⟩
    refine ⟨?_, h3⟩
    rw [← inside_iff, toInts_toNat h1] at h2
    exact h2
  · rintro ⟨h1, h2⟩
    refine ⟨inside_nonneg h1, ?_, h2⟩
    rw [← inside_iff, toInts_toNat (inside_nonneg h1)]
    exact h1

/-- A motion of images. -/
structure MovedImage {α} (P Q : List Int → List Int) (b b' : NDArray α) : Prop where
  fwd : Moves b.shape b'.shape P Q
  bwd : Moves b'.shape b.shape Q P
  val : MovedTo P b b'

theorem boolAt_moved {P Q} {b b' : NDArray Bool} (h : MovedImage P Q b b') (p : List Int) (hp : p.length = b.shape.length) :
    boolAt b' (P p) = boolAt b p := by
  rw [Bool.eq_iff_iff, boolAt_iff, boolAt_iff]
  constructor
  · rintro ⟨h1, h2⟩
    have h3 := h.bwd.ins _ h1
    rw [h.fwd.back p hp] at h3
    exact ⟨h3, by rw [← h.val p h3]; exact h2⟩
  · rintro ⟨h1, h2⟩
    exact ⟨h.fwd.ins _ h1, by rw [h.val p h1]; exact h2⟩

theorem cross_moved {P Q} {sh sh'} (h : Moves sh sh' P Q) (g : Moves sh' sh Q P) (p : List Int) (hp : p.length = sh.length)
    (φ : List Int → Bool) (ψ : List Int → Bool) (hφ : ∀ q, q.length = sh.length → ψ (P q) = φ q) :
    (crossNeighbours (P p)).all ψ = (crossNeighbours p).all φ ∧ (crossNeighbours (P p)).any ψ = (crossNeighbours p).any φ := by
  have a1 : ∀ q ∈ crossNeighbours p, P q ∈ crossNeighbours (P p) ∧ q.length = sh.length := by
    intro q hq
    rw [mem_cross_iff] at hq ⊢
    have hl : q.length = sh.length := by omega
    exact ⟨⟨by rw [h.len _ hl, h.len _ hp], by rw [h.dist _ _ hp hl]; exact hq.2⟩, hl⟩
  have a2 : ∀ q ∈ crossNeighbours (P p), Q q ∈ crossNeighbours p ∧ P (Q q) = q ∧ (Q q).length = sh.length := by
    intro q hq
    rw [mem_cross_iff] at hq
    have hl : q.length = sh'.length := by rw [hq.1, h.len _ hp]
    refine ⟨?_, g.back q hl, g.len q hl⟩
    rw [mem_cross_iff]
    refine ⟨by rw [g.len q hl, hp], ?_⟩
    have e := g.dist (P p) q (h.len _ hp) hl
    rw [h.back p hp] at e
    rw [e]; exact hq.2
  constructor
  · rw [Bool.eq_iff_iff, List.all_eq_true, List.all_eq_true]
    constructor
    · intro hh q hq
      rw [← hφ q (a1 q hq).2]
      exact hh _ (a1 q hq).1
    · intro hh q hq
      obtain ⟨b1, b2, b3⟩ := a2 q hq
      rw [← b2, hφ _ b3]
      exact hh _ b1
  · rw [Bool.eq_iff_iff, List.any_eq_true, List.any_eq_true]
    constructor
    · rintro ⟨q, hq, hv⟩
      obtain ⟨b1, b2, b3⟩ := a2 q hq
      exact ⟨Q q, b1, by rw [← hφ _ b3, b2]; exact hv⟩
    · rintro ⟨q, hq, hv⟩
      exact ⟨P q, (a1 q hq).1, by rw [hφ q (a1 q hq).2]; exact hv⟩

theorem step_moved {P Q} {b b' : NDArray Bool} (h : MovedImage P Q b b') :
    MovedImage P Q (erodeStep b) (erodeStep b') ∧ MovedImage P Q (dilateStep b) (dilateStep b') := by
  have key : ∀ p, Spec.RegionFits 1 0 b.shape p →
      (erodeStep b').get ((P p).map Int.toNat) = (erodeStep b).get (p.map Int.toNat) ∧
      (dilateStep b').get ((P p).map Int.toNat) = (dilateStep b).get (p.map Int.toNat) := by
    intro p hp
    have hl := ((within_iff _ _ _ _).1 hp).1
    have c := cross_moved h.fwd h.bwd p hl (boolAt b) (boolAt b') (fun q hq => boolAt_moved h q hq)
    have e1 := toInts_toNat (inside_nonneg hp)
    have e2 := toInts_toNat (inside_nonneg (h.fwd.ins p hp))
    unfold toInts at e1 e2
    unfold erodeStep dilateStep
    simp only
    rw [e1, e2]
    exact c
  exact ⟨⟨h.fwd, h.bwd, fun p hp => (key p hp).1⟩, ⟨h.fwd, h.bwd, fun p hp => (key p hp).2⟩⟩

theorem iterate_moved {P Q} (F : NDArray Bool → NDArray Bool)
    (hF : ∀ b b', MovedImage P Q b b' → MovedImage P Q (F b) (F b')) (n : Nat) (b b' : NDArray Bool)
    (h : MovedImage P Q b b') : MovedImage P Q (iterateN F n b) (iterateN F n b') := by
  induction n generalizing b b' with
  | zero => exact h
  | succ n ih => exact ih _ _ (hF _ _ h)

theorem clean_moved {P Q} {b b' : NDArray Bool} (h : MovedImage P Q b b') (hs : b'.size = b.size) (it : Int) :
    MovedImage P Q (cleanBinary b it) (cleanBinary b' it) := by
  unfold cleanBinary
  rw [hs]
  exact iterate_moved _ (fun _ _ h => (step_moved h).1) _ _ _ (iterate_moved _ (fun _ _ h => (step_moved h).2) _ _ _ h)

/-! ### Depth -/

/-- Index of the moved pixel. -/
def movedIndex (P : List Int → List Int) (idx : List Nat) : List Nat := (P (toInts idx)).map Int.toNat

theorem movedIndex_spec {P Q} {sh sh'} (h : Moves sh sh' P Q) (_ : Moves sh' sh Q P) (i : List Nat) (hi : InShape sh i) :
    InShape sh' (movedIndex P i) ∧ toInts (movedIndex P i) = P (toInts i) ∧ movedIndex Q (movedIndex P i) = i := by
  have h1 := h.ins _ ((inside_iff _ _).2 hi)
  have e := toInts_toNat (inside_nonneg h1)
  refine ⟨?_, e, ?_⟩
  · rw [← inside_iff]
    unfold movedIndex
    rw [e]; exact h1
  · have hl : (toInts i).length = sh.length := by simpa using ((inShape_iff _ _).1 hi).1
    show (Q (toInts (movedIndex P i))).map Int.toNat = i
    rw [show toInts (movedIndex P i) = P (toInts i) from e, h.back _ hl, toNat_toInts]

theorem movedIndex_get {α} {P Q} {b b' : NDArray α} (h : MovedImage P Q b b') (i : List Nat) (hi : InShape b.shape i) :
    b'.get (movedIndex P i) = b.get i := by
  have := h.val _ ((inside_iff _ _).2 hi)
  rw [toNat_toInts] at this
  exact this

theorem movedIndex_dist {P Q} {sh sh'} (h : Moves sh sh' P Q) (g : Moves sh' sh Q P) (i j : List Nat)
    (hi : InShape sh i) (hj : InShape sh j) :
    distSq (movedIndex P i) (toInts (movedIndex P j)) = distSq i (toInts j) := by
  rw [posDist_ints, posDist_ints, (movedIndex_spec h g i hi).2.1, (movedIndex_spec h g j hj).2.1]
  exact h.dist _ _ (by simpa using ((inShape_iff _ _).1 hi).1) (by simpa using ((inShape_iff _ _).1 hj).1)

theorem MovedImage.symm {α} {P Q} {b b' : NDArray α} (h : MovedImage P Q b b') : MovedImage Q P b' b where
  fwd := h.bwd
  bwd := h.fwd
  val p hp := by
    have := h.val _ (h.bwd.ins p hp)
    rw [h.bwd.back p (((within_iff _ _ _ _).1 hp).1)] at this
    exact this.symm

theorem edtSq_none (b : NDArray Bool) (hb : ∀ q, InShape b.shape q → b.get q = true) (i : List Nat) : edtSq b i = 0 := by
  unfold edtSq
  rw [List.filter_eq_nil_iff.2]
  · rfl
  · intro q hq
    simp [hb q ((mem_indices _ _).1 hq)]

theorem edtSq_le_moved {P Q} {b b' : NDArray Bool} (h : MovedImage P Q b b') (i : List Nat) (hi : InShape b.shape i) :
    edtSq b' (movedIndex P i) ≤ edtSq b i := by
  by_cases hb : ∃ q, InShape b.shape q ∧ b.get q = false
  · obtain ⟨q, hq, hf, e⟩ := edtSq_attained b i hb
    have m := movedIndex_spec h.fwd h.bwd q hq
    have := edtSq_le b' (movedIndex P i) (movedIndex P q) m.1 (by rw [movedIndex_get h q hq]; exact hf)
    rw [movedIndex_dist h.fwd h.bwd i q hi hq] at this
    omega
  · have hb1 : ∀ q, InShape b.shape q → b.get q = true := by
      intro q hq
      by_contra hc
      exact hb ⟨q, hq, by simpa using hc⟩
    rw [edtSq_none b hb1, edtSq_none b']
    intro q hq
    have m := movedIndex_spec h.bwd h.fwd q hq
    rw [← movedIndex_get h.symm q hq]
    exact hb1 _ m.1

theorem edtSq_moved {P Q} {b b' : NDArray Bool} (h : MovedImage P Q b b') (i : List Nat) (hi : InShape b.shape i) :
    edtSq b' (movedIndex P i) = edtSq b i := by
  apply le_antisymm (edtSq_le_moved h i hi)
  have m := movedIndex_spec h.fwd h.bwd i hi
  have := edtSq_le_moved h.symm _ m.1
  rw [m.2.2] at this
  exact this

theorem argmaxBy_none {α} (f : α → Int) (l : List α) : argmaxBy f l = none ↔ l = [] := by
  cases l with
  | nil => simp [argmaxBy]
  | cons a l =>
    rw [argmaxBy]
    cases argmaxBy f l with
    | none => simp
    | some y => simp only; split <;> simp

/-- The search in a moved image: same radius; same centre if it is the only deepest pixel. -/
theorem centreRadius_moved {P Q} {b b' : NDArray Bool} (h : MovedImage P Q b b') :
    (centreRadius b').map Prod.snd = (centreRadius b).map Prod.snd ∧
    ∀ c r, centreRadius b = some (c, r) → (∀ p, InShape b.shape p → p ≠ c → edtSq b p < edtSq b c) →
      centreRadius b' = some (movedIndex P c, r) := by
  have main : ∀ c c', argmaxBy (edtSq b) (indices b.shape) = some c → argmaxBy (edtSq b') (indices b'.shape) = some c' →
      InShape b.shape c ∧ InShape b'.shape c' ∧ edtSq b' c' = edtSq b c := by
    intro c c' hc hc'
    obtain ⟨m1, x1⟩ := argmaxBy_spec _ _ _ hc
    obtain ⟨m2, x2⟩ := argmaxBy_spec _ _ _ hc'
    rw [mem_indices] at m1 m2
    refine ⟨m1, m2, le_antisymm ?_ ?_⟩
    · have s := movedIndex_spec h.bwd h.fwd c' m2
      rw [← edtSq_moved h.symm c' m2]
      exact x1 _ ((mem_indices _ _).2 s.1)
    · have s := movedIndex_spec h.fwd h.bwd c m1
      rw [← edtSq_moved h c m1]
      exact x2 _ ((mem_indices _ _).2 s.1)
  have nn : argmaxBy (edtSq b) (indices b.shape) = none ↔ argmaxBy (edtSq b') (indices b'.shape) = none := by
    rw [argmaxBy_none, argmaxBy_none]
    constructor
    · intro e
      by_contra hne
      obtain ⟨j, hj⟩ := List.exists_mem_of_ne_nil _ hne
      have := (mem_indices _ _).2 (movedIndex_spec h.bwd h.fwd j ((mem_indices _ _).1 hj)).1
      rw [e] at this; cases this
    · intro e
      by_contra hne
      obtain ⟨j, hj⟩ := List.exists_mem_of_ne_nil _ hne
      have := (mem_indices _ _).2 (movedIndex_spec h.fwd h.bwd j ((mem_indices _ _).1 hj)).1
      rw [e] at this; cases this
  unfold centreRadius
  cases hc : argmaxBy (edtSq b) (indices b.shape) with
  | none => rw [nn.1 hc]; simp
  | some c =>
    cases hc' : argmaxBy (edtSq b') (indices b'.shape) with
    | none => rw [nn.2 hc'] at hc; cases hc
    | some c' =>
      obtain ⟨m1, m2, e⟩ := main c c' hc hc'
      refine ⟨by simp [e], fun d r hd hu => ?_⟩
      simp only [Option.map_some, Option.some.injEq, Prod.mk.injEq] at hd ⊢
      obtain ⟨rfl, rfl⟩ := hd
      have s := movedIndex_spec h.bwd h.fwd c' m2
      have e2 : movedIndex Q c' = c := by
        by_contra hne
        have := hu _ s.1 hne
        rw [edtSq_moved h.symm c' m2] at this
        omega
      rw [← e2, s.2.2]
      exact ⟨rfl, by rw [e, e2]⟩

/-! ### From the image to the search -/

theorem flipPos_toNat {sh : List Nat} {q : List Int} (h : Spec.RegionFits 1 0 sh q) (k : Nat) :
    (flipPos sh k q).map Int.toNat = flipIndex sh k (q.map Int.toNat) := by
  rw [within_iff] at h
  apply List.ext_getElem?
  intro j
  unfold flipPos flipIndex
  rw [List.getElem?_map, List.getElem?_modify, List.getElem?_modify, List.getElem?_map]
  by_cases hk : k = j
  · subst hk
    simp only [if_true]
    cases hx : q[k]? with
    | none => simp
    | some x =>
      have hlt : k < sh.length := by rw [← h.1]; exact (List.getElem?_eq_some_iff.1 hx).1
      have := h.2 k _ x (List.getElem?_eq_getElem hlt) hx
      simp [List.getElem?_eq_getElem hlt]
      omega
  · simp only [hk, if_false]
    cases q[j]? <;> simp

theorem swapAt_toNat (q : List Int) (i j : Nat) (hi : i < q.length) (hj : j < q.length) :
    (swapAt q i j).map Int.toNat = swapAt (q.map Int.toNat) i j := by
  apply List.ext_getElem?
  intro k
  rw [List.getElem?_map, swapAt_getElem? _ _ _ _ hi hj, swapAt_getElem? _ _ _ _ (by simpa using hi) (by simpa using hj),
    List.getElem?_map]

theorem inside_nat {sh : List Nat} {p : List Int} (h : Spec.RegionFits 1 0 sh p) : InShape sh (p.map Int.toNat) := by
  rw [← inside_iff, toInts_toNat (inside_nonneg h)]
  exact h

theorem turnedWith_moved {a a' : NDArray Rat} {f : List Int → List Int} (h : Spec.TurnedWith 1 a a' f) :
    (∃ g, MovedImage f g a a') ∧ a'.ndim = a.ndim ∧ (∀ n ∈ a'.shape, n ∈ a.shape) := by
  induction h with
  | start => exact ⟨⟨id, moves_refl _, moves_refl _, fun _ _ => rfl⟩, rfl, fun _ h => h⟩
  | flip a1 f k _ hk ih =>
    obtain ⟨⟨g, hg⟩, hd, hn⟩ := ih
    refine ⟨⟨fun p => g (flipPos a1.shape k p), hg.fwd.trans (moves_flip a1.shape k),
      (moves_flip a1.shape k).trans hg.bwd, ?_⟩, hd, hn⟩
    intro p hp
    have hq := hg.fwd.ins p hp
    rw [← hg.val p hp]
    show a1.get (flipIndex a1.shape k ((flipPos a1.shape k (f p)).map Int.toNat)) = _
    rw [flipPos_toNat hq, flipIndex_invol _ _ _ (inside_nat hq)]
  | swap a1 f i j _ hi hj ih =>
    obtain ⟨⟨g, hg⟩, hd, hn⟩ := ih
    have hi' : i < a1.shape.length := hi
    have hj' : j < a1.shape.length := hj
    have back := moves_swap (swapAt a1.shape i j) i j (by rw [length_swapAt]; exact hi) (by rw [length_swapAt]; exact hj)
    rw [swapAt_invol _ _ _ hi hj] at back
    refine ⟨⟨fun p => g (swapAt p i j), hg.fwd.trans (moves_swap a1.shape i j hi hj), back.trans hg.bwd, ?_⟩, ?_, ?_⟩
    · intro p hp
      have hq := hg.fwd.ins p hp
      have hl := ((within_iff _ _ _ _).1 hq).1
      rw [← hg.val p hp]
      show a1.get (swapAt ((swapAt (f p) i j).map Int.toNat) i j) = _
      rw [swapAt_toNat _ _ _ (by omega) (by omega), swapAt_invol _ _ _ (by simp; omega) (by simp; omega)]
    · rw [← hd]
      show (swapAt a1.shape i j).length = _
      rw [length_swapAt]; rfl
    · intro n hn'
      exact hn n ((swapAt_perm a1.shape i j hi hj).mem_iff.1 hn')

theorem moved_perm {P Q} {sh sh'} (h : Moves sh sh' P Q) (g : Moves sh' sh Q P) :
    ((indices sh).map (movedIndex P)).Perm (indices sh') := by
  refine map_perm_of_bij _ _ _ (movedIndex Q) (indices_nodup _) (indices_nodup _) ?_ ?_
  · intro i hi
    have := movedIndex_spec h g i ((mem_indices _ _).1 hi)
    exact ⟨(mem_indices _ _).2 this.1, this.2.2⟩
  · intro i hi
    have := movedIndex_spec g h i ((mem_indices _ _).1 hi)
    exact ⟨(mem_indices _ _).2 this.1, this.2.2⟩

theorem moved_toList {α} {P Q} {b b' : NDArray α} (h : MovedImage P Q b b') : b'.toList.Perm b.toList := by
  unfold NDArray.toList
  refine ((moved_perm h.fwd h.bwd).symm.map _).trans ?_
  rw [List.map_map, List.map_congr_left (f := b'.get ∘ movedIndex P) (g := b.get)
    (fun i hi => movedIndex_get h i ((mem_indices _ _).1 hi))]

theorem moved_size {α} {P Q} {b b' : NDArray α} (h : MovedImage P Q b b') : b'.size = b.size := by
  have := (moved_toList h).length_eq
  unfold NDArray.toList at this
  rw [List.length_map, List.length_map, length_indices, length_indices] at this
  exact this

theorem percentile_perm {l l' : List Rat} (h : l.Perm l') (q : Rat) : percentile l q = percentile l' q := by
  unfold percentile
  have e : l.insertionSort (· ≤ ·) = l'.insertionSort (· ≤ ·) :=
    List.Perm.eq_of_pairwise' (List.pairwise_insertionSort _ _) (List.pairwise_insertionSort _ _)
      ((List.perm_insertionSort _ _).trans (h.trans (List.perm_insertionSort _ _).symm))
  rw [e, h.length_eq]

theorem getBinary_moved {P Q} {a a' : NDArray Rat} (h : MovedImage P Q a a') (lo hi : Rat) :
    (∃ e, getBinary a lo hi = .error e ∧ getBinary a' lo hi = .error e) ∨
    ∃ b b', getBinary a lo hi = .ok b ∧ getBinary a' lo hi = .ok b' ∧ MovedImage P Q b b' ∧ b.shape = a.shape ∧ b'.shape = a'.shape := by
  unfold getBinary
  rw [moved_size h, percentile_perm (moved_toList h), percentile_perm (moved_toList h)]
  split
  · exact .inl ⟨_, rfl, rfl⟩
  · split
    · exact .inl ⟨_, rfl, rfl⟩
    · refine .inr ⟨_, _, rfl, rfl, ⟨h.fwd, h.bwd, ?_⟩, rfl, rfl⟩
      intro p hp
      have := h.val p hp
      simp only [NDArray.map]
      rw [this]

theorem onlyDeepest_edt (l : Largest) (hc : InShape l.cleaned.shape l.centre) (h : Spec.OnlyDeepest l) :
    ∀ p, InShape l.cleaned.shape p → p ≠ l.centre → edtSq l.cleaned p < edtSq l.cleaned l.centre := by
  intro p hp hne
  obtain ⟨q, hq, hf, hlt⟩ := h p hp hne
  obtain ⟨q', hq', hf', e⟩ := edtSq_attained l.cleaned l.centre ⟨q, hq, hf⟩
  have h1 := edtSq_le l.cleaned p q hq hf
  have h2 := hlt q' hq' hf'
  rw [e]
  rw [distSq_eq_sqDist _ _ (by simp [inShape_length _ _ hq, inShape_length _ _ hp])] at h1
  rw [distSq_eq_sqDist _ _ (by simp [inShape_length _ _ hq', inShape_length _ _ hc])]
  omega

theorem not_colour {α} {a : NDArray α} (h : 3 < a.lastDim) : isColour a = false := by
  unfold isColour
  rw [Bool.and_eq_false_iff]; right
  rw [beq_eq_false_iff_ne]; omega

/-- The search in a binary image with more than three pixels along the last axis. -/
theorem findLargest_eq (b : NDArray Bool) (it : Int) (hd : b.ndim = 2 ∨ b.ndim = 3) (hl : 3 < b.lastDim) :
    findLargest b it = if ¬ (false ∈ b.toList ∧ true ∈ b.toList) then .error (.valueError "Image must be binary.")
      else match centreRadius (cleanBinary b it) with
        | none => .error .indexError
        | some (c, r) => .ok ⟨c, r, cleanBinary b it⟩ := by
  unfold findLargest
  rw [if_neg (show ¬ isColour b = true by rw [not_colour hl]; simp), if_pos (by omega : b.ndim = 2 ∨ b.ndim = 3 ∧ 3 < b.lastDim)]
  split <;> rfl

theorem found_inside (b : NDArray Bool) (it : Int) (l : Largest) (h : findLargest b it = .ok l)
    (hc : InShape b.shape l.centre) :
    Spec.RegionFits 1 l.radius b.shape (toInts l.centre) := by
  by_cases hne : ∃ idx, InShape b.shape idx ∧ l.cleaned.get idx = true
  · obtain ⟨h1, -, -, h4, -⟩ := C58_valid b it l h hne
    rw [within_iff]
    have hlen := inShape_length _ _ h1
    refine ⟨by simpa using hlen, fun k n x hk1 hk2 => ?_⟩
    rw [List.getElem?_map] at hk2
    obtain ⟨i, hi, rfl⟩ := Option.map_eq_some_iff.1 hk2
    have hk := (List.getElem?_eq_some_iff.1 hi).1
    have := h4 k hk
    simp only [List.getD_eq_getElem?_getD, hi, hk1, Option.getD_some] at this
    omega
  · have hz : l.radius = 0 := by
      refine C58_empty b it l h (fun idx hidx => ?_)
      by_contra hcon
      exact hne ⟨idx, hidx, by simpa using hcon⟩
    rw [hz]
    exact (inside_iff _ _).2 hc

theorem findLargest_moved {P Q} {b b' : NDArray Bool} (h : MovedImage P Q b b') (it : Int)
    (hd : b.ndim = 2 ∨ b.ndim = 3) (hl : 3 < b.lastDim) (hd' : b'.ndim = 2 ∨ b'.ndim = 3) (hl' : 3 < b'.lastDim) :
    (∃ e, findLargest b it = .error e ∧ findLargest b' it = .error e) ∨
    ∃ l l', findLargest b it = .ok l ∧ findLargest b' it = .ok l' ∧ l'.radius = l.radius ∧
      MovedImage P Q l.cleaned l'.cleaned ∧ l.cleaned.shape = b.shape ∧ l'.cleaned.shape = b'.shape ∧
      InShape b.shape l.centre ∧ InShape b'.shape l'.centre ∧
      (Spec.OnlyDeepest l → toInts l'.centre = P (toInts l.centre)) := by
  have hm : MovedImage P Q (cleanBinary b it) (cleanBinary b' it) := clean_moved h (moved_size h) it
  have inc : ∀ (v : NDArray Bool) c r, centreRadius (cleanBinary v it) = some (c, r) → InShape v.shape c := by
    intro v c r hv
    unfold centreRadius at hv
    obtain ⟨c', h1, h2⟩ := Option.map_eq_some_iff.1 hv
    cases h2
    have := (argmaxBy_spec _ _ _ h1).1
    rw [mem_indices, cleanBinary_shape] at this
    exact this
  have e1 := findLargest_eq b it hd hl
  have e2 := findLargest_eq b' it hd' hl'
  have hbin : ¬ (false ∈ b'.toList ∧ true ∈ b'.toList) ↔ ¬ (false ∈ b.toList ∧ true ∈ b.toList) := by
    rw [(moved_toList h).mem_iff, (moved_toList h).mem_iff]
  by_cases hb : ¬ (false ∈ b.toList ∧ true ∈ b.toList)
  · rw [if_pos hb] at e1
    rw [if_pos (hbin.2 hb)] at e2
    exact .inl ⟨_, e1, e2⟩
  · rw [if_neg hb] at e1
    rw [if_neg (fun hh => hb (hbin.1 hh))] at e2
    obtain ⟨hr, hc⟩ := centreRadius_moved hm
    cases hcr : centreRadius (cleanBinary b it) with
    | none =>
      rw [hcr] at hr e1
      cases hcr' : centreRadius (cleanBinary b' it) with
      | none => rw [hcr'] at e2; exact .inl ⟨_, e1, e2⟩
      | some x => rw [hcr'] at hr; simp at hr
    | some x =>
      obtain ⟨c, r⟩ := x
      rw [hcr] at hr e1
      cases hcr' : centreRadius (cleanBinary b' it) with
      | none => rw [hcr'] at hr; simp at hr
      | some x' =>
        obtain ⟨c', r'⟩ := x'
        rw [hcr'] at hr e2
        have hin := inc b c r hcr
        refine .inr ⟨_, _, e1, e2, by simpa using hr, hm, cleanBinary_shape _ _, cleanBinary_shape _ _, hin, inc b' c' r' hcr', ?_⟩
        intro hu
        have hin' : InShape (cleanBinary b it).shape c := by rw [cleanBinary_shape]; exact hin
        have := hc c r hcr (onlyDeepest_edt ⟨c, r, cleanBinary b it⟩ hin' hu)
        rw [hcr'] at this
        simp only [Option.some.injEq, Prod.mk.injEq] at this
        show toInts c' = P (toInts c)
        rw [this.1]
        exact (movedIndex_spec hm.fwd hm.bwd c hin').2.1

/-- The automatic search in an image and in the turned one. -/
theorem autoFind_moved {P Q} {a a' : NDArray Rat} (h : MovedImage P Q a a') (lo hi : Rat) (it : Int)
    (hd : a.ndim = 2 ∨ a.ndim = 3) (hl : 3 < a.lastDim) (hd' : a'.ndim = 2 ∨ a'.ndim = 3) (hl' : 3 < a'.lastDim) :
    (∃ e, autoFind a lo hi it = .error e ∧ autoFind a' lo hi it = .error e) ∨
    ∃ l l', autoFind a lo hi it = .ok l ∧ autoFind a' lo hi it = .ok l' ∧ l'.radius = l.radius ∧
      MovedImage P Q l.cleaned l'.cleaned ∧ l.cleaned.shape = a.shape ∧ l'.cleaned.shape = a'.shape ∧
      Spec.RegionFits 1 l.radius a.shape (toInts l.centre) ∧ Spec.RegionFits 1 l'.radius a'.shape (toInts l'.centre) ∧
      (Spec.OnlyDeepest l → toInts l'.centre = P (toInts l.centre)) := by
  unfold autoFind
  simp only [not_colour hl, not_colour hl', Bool.false_eq_true, if_false]
  rcases getBinary_moved h lo hi with ⟨e, e1, e2⟩ | ⟨b, b', e1, e2, hb, s1, s2⟩
  · rw [e1, e2]; exact .inl ⟨e, rfl, rfl⟩
  · rw [e1, e2]
    have n1 : b.ndim = a.ndim := by unfold NDArray.ndim; rw [s1]
    have n2 : b'.ndim = a'.ndim := by unfold NDArray.ndim; rw [s2]
    have l1 : b.lastDim = a.lastDim := by unfold NDArray.lastDim; rw [s1]
    have l2 : b'.lastDim = a'.lastDim := by unfold NDArray.lastDim; rw [s2]
    rcases findLargest_moved hb it (by omega) (by omega) (by omega) (by omega) with
      ⟨e, f1, f2⟩ | ⟨l, l', f1, f2, hr, hm, c1, c2, i1, i2, hu⟩
    · exact .inl ⟨e, f1, f2⟩
    · have r1 := found_inside b it l f1 i1
      have r2 := found_inside b' it l' f2 i2
      rw [s1] at c1 r1
      rw [s2] at c2 r2
      exact .inr ⟨l, l', f1, f2, hr, hm, c1, c2, r1, r2, hu⟩

/-- **C214.** The radius found automatically does not depend on the orientation of the image; if the search
raises an exception, it does so for every orientation. -/
theorem C214_radius (a a' : NDArray Rat) (f : List Int → List Int) (h : Spec.TurnedWith 1 a a' f)
    (hd : a.ndim = 2 ∨ a.ndim = 3) (hn : ∀ n ∈ a.shape, 3 < n) (lower upper : Rat) (it : Int) :
    (autoFind a' lower upper it).map Largest.radius = (autoFind a lower upper it).map Largest.radius := by
  obtain ⟨⟨g, hm⟩, h1, h2⟩ := turnedWith_moved h
  have hn' : ∀ n ∈ a'.shape, 3 < n := fun n hh => hn n (h2 n hh)
  have hd' : a'.ndim = 2 ∨ a'.ndim = 3 := by rw [h1]; exact hd
  rcases autoFind_moved hm lower upper it hd (lastDim_large hd hn) hd' (lastDim_large hd' hn') with
    ⟨e, e1, e2⟩ | ⟨l, l', e1, e2, hr, -⟩
  · rw [e1, e2]
  · rw [e1, e2]; simp [Except.map, hr]

/-- **C214 (partial).** The centre found automatically turns with the image if no other pixel lies as deep inside
the region. Missing: several pixels at the same depth (`C214_refuted`). -/
theorem C214_centre_partial (a a' : NDArray Rat) (f : List Int → List Int) (h : Spec.TurnedWith 1 a a' f)
    (hd : a.ndim = 2 ∨ a.ndim = 3) (hn : ∀ n ∈ a.shape, 3 < n) (lower upper : Rat) (it : Int) (l : Largest)
    (hl : autoFind a lower upper it = .ok l) (hu : Spec.OnlyDeepest l) :
    ∃ l', autoFind a' lower upper it = .ok l' ∧ toInts l'.centre = f (toInts l.centre) ∧ l'.radius = l.radius := by
  obtain ⟨⟨g, hm⟩, h1, h2⟩ := turnedWith_moved h
  have hn' : ∀ n ∈ a'.shape, 3 < n := fun n hh => hn n (h2 n hh)
  have hd' : a'.ndim = 2 ∨ a'.ndim = 3 := by rw [h1]; exact hd
  rcases autoFind_moved hm lower upper it hd (lastDim_large hd hn) hd' (lastDim_large hd' hn') with
    ⟨e, e1, e2⟩ | ⟨k, k', e1, e2, hr, -, -, -, -, -, hc⟩
  · rw [e1] at hl; cases hl
  · rw [e1] at hl
    cases hl
    exact ⟨k', e2, hc hu, hr⟩

/-! ### Scores -/

theorem natCentre_given (c : List Nat) : natCentre c = Spec.given (toInts c) := by
  unfold natCentre Spec.given toInts
  simp

/-- A found region has the score of the region given by hand. -/
theorem snr_auto_given (a : NDArray Rat) (kind : String) (hk : regionKind kind = .cubic ∨ regionKind kind = .spherical)
    (lower upper : Rat) (it : Int) (l : Largest) (h : autoFind a lower upper it = .ok l) :
    snr a { center := none, radius := .int 0, regionType := kind, auto := true, iterations := it, lower := lower, upper := upper } =
      snr a { center := some (Spec.given (toInts l.centre)), radius := .int l.radius, regionType := kind } := by
  unfold snr
  simp only [if_true, h, bind, Except.bind, Bool.false_eq_true, if_false, natCentre_given]
  have e : autoRegion a l (regionKind kind) = .ok none := by
    unfold autoRegion
    rcases hk with hk | hk <;> rw [hk]
  rw [e]

theorem cnr_auto_given (a : NDArray Rat) (kind : String) (hk : regionKind kind = .cubic ∨ regionKind kind = .spherical)
    (it : Int) (s b : Largest) (hs : autoFind a 90 100 it = .ok s) (hb : autoFind a 0 90 it = .ok b) :
    cnr a { signal := [], background := [], radius := .int 0, regionType := kind, auto := true, iterations := it } =
      cnr a { signal := Spec.given (toInts s.centre), background := Spec.given (toInts b.centre),
              radius := .int (min s.radius b.radius : Nat), regionType := kind } := by
  unfold cnr cnrSelect
  have e : ∀ l, autoRegion a l (regionKind kind) = .ok none := by
    intro l
    unfold autoRegion
    rcases hk with hk | hk <;> rw [hk]
  simp only [if_true, hs, hb, bind, Except.bind, Bool.false_eq_true, if_false, natCentre_given, e]

/-- **C214 (partial).** The SNR of the sphere found automatically does not depend on the orientation of the image if
no other pixel lies as deep inside the region. Missing: several pixels at the same depth (`C214_refuted`) and cubes
(`C214_cubic_refuted`). -/
theorem C214_snr_partial (a a' : NDArray Rat) (f : List Int → List Int) (h : Spec.TurnedWith 1 a a' f)
    (hd : a.ndim = 2 ∨ a.ndim = 3) (hn : ∀ n ∈ a.shape, 3 < n) (lower upper : Rat) (it : Int)
    (hu : ∀ l, autoFind a lower upper it = .ok l → Spec.OnlyDeepest l) :
    snr a' { center := none, radius := .int 0, regionType := "spherical", auto := true, iterations := it, lower := lower, upper := upper } =
      snr a { center := none, radius := .int 0, regionType := "spherical", auto := true, iterations := it, lower := lower, upper := upper } := by
  obtain ⟨⟨g, hm⟩, h1, h2⟩ := turnedWith_moved h
  have hn' : ∀ n ∈ a'.shape, 3 < n := fun n hh => hn n (h2 n hh)
  have hd' : a'.ndim = 2 ∨ a'.ndim = 3 := by rw [h1]; exact hd
  rcases autoFind_moved hm lower upper it hd (lastDim_large hd hn) hd' (lastDim_large hd' hn') with
    ⟨e, e1, e2⟩ | ⟨l, l', e1, e2, hr, -, -, -, hf, -, hc⟩
  · unfold snr
    simp only [if_true, e1, e2, bind, Except.bind]
  · rw [snr_auto_given a "spherical" (.inr rfl) lower upper it l e1, snr_auto_given a' "spherical" (.inr rfl) lower upper it l' e2,
      hc (hu l e1), hr]
    exact C210_snr_partial a a' f "spherical" (.inr rfl) h hd hn l.radius _ hf

theorem fits_smaller {e r r' : Int} {sh : List Nat} {c : List Int} (h : Spec.RegionFits e r sh c) (hr : r' ≤ r) : Spec.RegionFits e r' sh c := by
  rw [within_iff] at h ⊢
  refine ⟨h.1, fun k n x h1 h2 => ?_⟩
  have := h.2 k n x h1 h2
  omega

/-- **C214 (partial).** Likewise for the CNR. -/
theorem C214_cnr_partial (a a' : NDArray Rat) (f : List Int → List Int) (h : Spec.TurnedWith 1 a a' f)
    (hd : a.ndim = 2 ∨ a.ndim = 3) (hn : ∀ n ∈ a.shape, 3 < n) (it : Int)
    (hs : ∀ l, autoFind a 90 100 it = .ok l → Spec.OnlyDeepest l) (hb : ∀ l, autoFind a 0 90 it = .ok l → Spec.OnlyDeepest l) :
    cnr a' { signal := [], background := [], radius := .int 0, regionType := "spherical", auto := true, iterations := it } =
      cnr a { signal := [], background := [], radius := .int 0, regionType := "spherical", auto := true, iterations := it } := by
  obtain ⟨⟨g, hm⟩, h1, h2⟩ := turnedWith_moved h
  have hn' : ∀ n ∈ a'.shape, 3 < n := fun n hh => hn n (h2 n hh)
  have hd' : a'.ndim = 2 ∨ a'.ndim = 3 := by rw [h1]; exact hd
  rcases autoFind_moved hm 90 100 it hd (lastDim_large hd hn) hd' (lastDim_large hd' hn') with
    ⟨e, e1, e2⟩ | ⟨s, s', e1, e2, sr, -, -, -, sf, -, sc⟩
  · unfold cnr cnrSelect
    simp only [if_true, e1, e2, bind, Except.bind]
  · rcases autoFind_moved hm 0 90 it hd (lastDim_large hd hn) hd' (lastDim_large hd' hn') with
      ⟨e, b1, b2⟩ | ⟨b, b', b1, b2, br, -, -, -, bf, -, bc⟩
    · unfold cnr cnrSelect
      simp only [if_true, e1, e2, b1, b2, bind, Except.bind]
    · rw [cnr_auto_given a "spherical" (.inr rfl) it s b e1 b1, cnr_auto_given a' "spherical" (.inr rfl) it s' b' e2 b2,
        sc (hs s e1), bc (hb b b1), sr, br]
      exact C210_cnr_partial a a' f "spherical" (.inr rfl) h hd hn _ _ _ (fits_smaller sf (by simp)) (fits_smaller bf (by simp))

theorem selected_moved {P Q} {a a' : NDArray Rat} (h : MovedImage P Q a a') (s s' : List Nat → Bool)
    (hs : ∀ i, InShape a.shape i → s' (movedIndex P i) = s i) :
    (⟨a', s'⟩ : Region Rat).values.Perm (⟨a, s⟩ : Region Rat).values := by
  show (((indices a'.shape).filter s').map a'.get).Perm (((indices a.shape).filter s).map a.get)
  refine (((moved_perm h.fwd h.bwd).symm.filter _).map _).trans ?_
  rw [List.filter_map, List.map_map]
  rw [List.filter_congr (p := s' ∘ movedIndex P) (q := s) (fun i hi => hs i ((mem_indices _ _).1 hi))]
  rw [List.map_congr_left (f := a'.get ∘ movedIndex P) (g := a.get)
    (fun i hi => movedIndex_get h i ((mem_indices _ _).1 (List.mem_filter.1 hi).1))]

/-- The SNR for the other region types. -/
theorem snr_auto_other (a : NDArray Rat) (kind : String) (hk : regionKind kind ≠ .cubic ∧ regionKind kind ≠ .spherical)
    (hcol : isColour a = false) (hlast : a.lastDim ≠ 3)
    (lower upper : Rat) (it : Int) (l : Largest) (h : autoFind a lower upper it = .ok l)
    (hf : Spec.RegionFits 1 l.radius a.shape (toInts l.centre)) :
    snr a { center := none, radius := .int 0, regionType := kind, auto := true, iterations := it, lower := lower, upper := upper } =
      if l.radius = 0 then .error (.typeError "Radius has to be an integer.")
      else (snrOf (⟨a, if regionKind kind = .original then (wholeImage a).sel else l.cleaned.get⟩ : Region Rat).values).map .gray := by
  have e : ∃ reg, autoRegion a l (regionKind kind) = .ok (some reg) ∧
      reg = ⟨a, if regionKind kind = .original then (wholeImage a).sel else l.cleaned.get⟩ := by
    unfold autoRegion
    cases hkk : regionKind kind with
    | cubic => exact absurd hkk hk.1
    | spherical => exact absurd hkk hk.2
    | full => exact ⟨⟨a, l.cleaned.get⟩, by simp [hcol], by simp⟩
    | invalid => exact ⟨⟨a, l.cleaned.get⟩, by simp [hcol], by simp⟩
    | original => exact ⟨_, rfl, by simp [wholeImage]⟩
  obtain ⟨reg, e, er⟩ := e
  have sel : ∀ c r, selectRegion a (regionKind kind) c r (some reg) = .ok reg := by
    intro c r
    unfold selectRegion
    cases hkk : regionKind kind with
    | cubic => exact absurd hkk hk.1
    | spherical => exact absurd hkk hk.2
    | full | invalid | original => rfl
  have hlen : (Spec.given (toInts l.centre)).length = a.ndim := by
    unfold Spec.given; rw [List.length_map]; exact ((within_iff _ _ _ _).1 hf).1
  unfold snr
  simp only [if_true, h, bind, Except.bind, natCentre_given, e]
  unfold snrChecks
  simp only [checkBorder_given (within_border hf), bind, Except.bind, centreInts_given]
  unfold checkRadius
  rw [if_neg hlast, hlen]
  by_cases hr : l.radius = 0
  · simp [hr]
  · have : ¬ ((l.radius : Nat) : Int) ≤ 0 := by omega
    simp only [this, if_false, hr, ne_eq, not_true_eq_false]
    unfold snrCompute
    simp only [hcol, Bool.false_eq_true, if_false, sel]
    rw [er]
    cases snrOf (⟨a, if regionKind kind = .original then (wholeImage a).sel else l.cleaned.get⟩ : Region Rat).values <;> rfl

/-- **C214.** For the other region types, that is for the whole image and the regions that follow the shape of the
object, the SNR does not depend on the orientation. -/
theorem C214_shape (a a' : NDArray Rat) (f : List Int → List Int) (h : Spec.TurnedWith 1 a a' f)
    (hd : a.ndim = 2 ∨ a.ndim = 3) (hn : ∀ n ∈ a.shape, 3 < n) (kind : String)
    (hk : regionKind kind ≠ .cubic ∧ regionKind kind ≠ .spherical) (lower upper : Rat) (it : Int) :
    snr a' { center := none, radius := .int 0, regionType := kind, auto := true, iterations := it, lower := lower, upper := upper } =
      snr a { center := none, radius := .int 0, regionType := kind, auto := true, iterations := it, lower := lower, upper := upper } := by
  obtain ⟨⟨g, hm⟩, h1, h2⟩ := turnedWith_moved h
  have hn' : ∀ n ∈ a'.shape, 3 < n := fun n hh => hn n (h2 n hh)
  have hd' : a'.ndim = 2 ∨ a'.ndim = 3 := by rw [h1]; exact hd
  have l1 := lastDim_large hd hn
  have l2 := lastDim_large hd' hn'
  rcases autoFind_moved hm lower upper it hd l1 hd' l2 with
    ⟨e, e1, e2⟩ | ⟨l, l', e1, e2, hr, hcl, c1, c2, hf, hf', -⟩
  · unfold snr
    simp only [if_true, e1, e2, bind, Except.bind]
  · rw [snr_auto_other a kind hk (not_colour l1) (by omega) lower upper it l e1 hf,
      snr_auto_other a' kind hk (not_colour l2) (by omega) lower upper it l' e2 hf', hr]
    congr 2
    apply snrOf_perm
    refine selected_moved hm _ _ (fun i hi => ?_)
    split
    · rfl
    · exact movedIndex_get hcl i (by rw [c1]; exact hi)

/-! ### Examples -/

/-- An object of 3 × 3 pixels. -/
def oneObject : NDArray Rat :=
  ⟨[5, 7], fun i => if 1 ≤ i.getD 0 0 ∧ i.getD 0 0 ≤ 3 ∧ 1 ≤ i.getD 1 0 ∧ i.getD 1 0 ≤ 3 then
    10 - 3 * ((i.getD 0 0 : Rat) - 2) - ((i.getD 1 0 : Rat) - 2) else 0⟩

example : (autoFind oneObject 0 100 1).toOption.map (fun l => (l.centre, l.radius)) = some ([2, 2], 1) ∧
    (autoFind (flipAxis oneObject 1) 0 100 1).toOption.map (fun l => (l.centre, l.radius)) = some ([2, 4], 1) := by
  decide +kernel

/-- A region of one pixel has one deepest pixel. -/
theorem single_deepest (l : Largest) (sh c : List Nat) (hc : InShape sh c)
    (h : (l.cleaned.shape, l.centre, (indices sh).map l.cleaned.get) = (sh, c, (indices sh).map (fun i => decide (i = c)))) :
    Spec.OnlyDeepest l := by
  simp only [Prod.mk.injEq] at h
  obtain ⟨e1, e2, e3⟩ := h
  have hv : ∀ q, InShape sh q → l.cleaned.get q = decide (q = c) :=
    fun q hq => List.map_inj_left.1 e3 q ((mem_indices _ _).2 hq)
  intro p hp hne
  rw [e1] at hp ⊢
  rw [e2] at hne ⊢
  refine ⟨p, hp, by rw [hv p hp]; simpa using hne, fun q hq hf => ?_⟩
  rw [hv q hq] at hf
  have hqc : q ≠ c := by simpa using hf
  have len : ∀ i, InShape sh i → i.length = sh.length := fun i hi => inShape_length _ _ hi
  rw [← distSq_eq_sqDist _ _ (by simp), ← distSq_eq_sqDist _ _ (by simp [len q hq, len c hc]), posDist_ints, posDist_ints, posDist_self]
  refine lt_of_le_of_ne (posDist_nonneg _ _) (fun h0 => hqc ?_)
  have := posDist_zero _ _ (by simp [len q hq, len c hc]) h0.symm
  have e := congrArg (List.map Int.toNat) this
  rwa [toNat_toInts, toNat_toInts] at e

/-- What `single_deepest` asks of a found region, decided by computation. -/
theorem found_deepest (r : Py Largest) (sh c : List Nat) (hc : InShape sh c)
    (h : r.toOption.map (fun l => (l.cleaned.shape, l.centre, (indices sh).map l.cleaned.get)) =
      some (sh, c, (indices sh).map (fun i => decide (i = c)))) (l : Largest) (hl : r = .ok l) : Spec.OnlyDeepest l := by
  rw [hl] at h
  exact single_deepest l sh c hc (by simpa [Except.toOption] using h)

/-- The mirror image has the same SNR. -/
example : snr (flipAxis oneObject 1) { center := none, radius := .int 0, regionType := "spherical", auto := true, iterations := 1, lower := 0, upper := 100 } =
    snr oneObject { center := none, radius := .int 0, regionType := "spherical", auto := true, iterations := 1, lower := 0, upper := 100 } :=
  C214_snr_partial oneObject _ _ (.flip oneObject id 1 .start (by decide)) (.inl rfl) (by decide) 0 100 1
    (found_deepest _ [5, 7] [2, 2] (by decide) (by decide +kernel))

/-- A bright and a dark object. -/
def brightDark : NDArray Rat :=
  ⟨[9, 11], fun i => if 3 ≤ i.getD 0 0 ∧ i.getD 0 0 ≤ 5 ∧ 1 ≤ i.getD 1 0 ∧ i.getD 1 0 ≤ 3 then 50
    else if 3 ≤ i.getD 0 0 ∧ i.getD 0 0 ≤ 5 ∧ 7 ≤ i.getD 1 0 ∧ i.getD 1 0 ≤ 9 then (if i = [4, 8] then 8 else 9) else 0⟩

/-- The transposed image has the same CNR. -/
example : cnr (swapAxes brightDark 0 1) { signal := [], background := [], radius := .int 0, regionType := "spherical", auto := true, iterations := 1 } =
    cnr brightDark { signal := [], background := [], radius := .int 0, regionType := "spherical", auto := true, iterations := 1 } :=
  C214_cnr_partial brightDark _ _ (.swap brightDark id 0 1 .start (by decide) (by decide)) (.inl rfl) (by decide) 1
    (found_deepest _ [9, 11] [4, 2] (by decide) (by decide +kernel))
    (found_deepest _ [9, 11] [4, 8] (by decide) (by decide +kernel))

/-- The region that follows the shape of the object. -/
example : snr (swapAxes brightDark 0 1) { center := none, radius := .int 0, regionType := "full", auto := true, iterations := 1, lower := 0, upper := 100 } =
    snr brightDark { center := none, radius := .int 0, regionType := "full", auto := true, iterations := 1, lower := 0, upper := 100 } :=
  C214_shape brightDark _ _ (.swap brightDark id 0 1 .start (by decide) (by decide)) (.inl rfl) (by decide) "full" (by decide) 0 100 1

/-- Two objects of the same size. -/
def twoObjects : NDArray Rat :=
  ⟨[5, 11], fun i => if 1 ≤ i.getD 0 0 ∧ i.getD 0 0 ≤ 3 ∧ 1 ≤ i.getD 1 0 ∧ i.getD 1 0 ≤ 3 then
      10 - 3 * ((i.getD 0 0 : Rat) - 2) - ((i.getD 1 0 : Rat) - 2)
    else if 1 ≤ i.getD 0 0 ∧ i.getD 0 0 ≤ 3 ∧ 7 ≤ i.getD 1 0 ∧ i.getD 1 0 ≤ 9 then
      20 - 3 * ((i.getD 0 0 : Rat) - 2) - ((i.getD 1 0 : Rat) - 8) else 0⟩

theorem snrOf_cross (m : Rat) : snrOf [m + 3, m + 1, m, m - 1, m - 3] = .ok (m / 2 : ℝ) := by
  have hm : meanQ [m + 3, m + 1, m, m - 1, m - 3] = m := by unfold meanQ; simp; ring
  have hv : varQ [m + 3, m + 1, m, m - 1, m - 3] = 4 := by unfold varQ; rw [hm]; simp; norm_num
  unfold snrOf stdQ
  rw [if_neg (by simp), hv, if_neg (by norm_num), hm]
  have : Real.sqrt ((4 : Rat) : ℝ) = 2 := by
    rw [show (((4 : Rat) : ℝ)) = 2 ^ 2 by norm_num]
    exact Real.sqrt_sq (by norm_num)
  rw [this]

/-- The SNR of a found region, read off from its pixels. -/
theorem snr_found (v : NDArray Rat) (kind : String) (hk : regionKind kind = .cubic ∨ regionKind kind = .spherical)
    (c : List Nat) (r : Nat) (vals : List Rat) (hcol : isColour v = false) (hlast : v.lastDim ≠ 3)
    (hf : (autoFind v 0 100 1).toOption.map (fun l => (l.centre, l.radius)) = some (c, r))
    (hsel : (selectRegion v (regionKind kind) (toInts c) r none).toOption.map Region.values = some vals)
    (hfit : Spec.RegionFits 1 r v.shape (toInts c)) (hr : 0 < r) :
    snr v { center := none, radius := .int 0, regionType := kind, auto := true, iterations := 1, lower := 0, upper := 100 } =
      (snrOf vals).map .gray := by
  cases ha : autoFind v 0 100 1 with
  | error e => rw [ha] at hf; cases hf
  | ok l =>
    rw [ha] at hf
    simp only [Except.toOption, Option.map_some, Option.some.injEq, Prod.mk.injEq] at hf
    rw [snr_auto_given v kind hk 0 100 1 l ha, hf.1, hf.2, snr_gray_eq _ _ rfl hcol]
    have hlen : (Spec.given (toInts c)).length = v.ndim := by
      unfold Spec.given; rw [List.length_map]; exact ((within_iff _ _ _ _).1 hfit).1
    have hchk : snrChecks v (some (Spec.given (toInts c))) (.int (r : Int)) = .ok (toInts c, (r : Int)) := by
      unfold snrChecks checkRadius
      simp only [checkBorder_given (within_border hfit), bind, Except.bind, centreInts_given]
      have : ¬ (r : Int) ≤ 0 := by omega
      rw [if_neg this, if_neg hlast, hlen]
      simp
    simp only [hchk]
    cases hs : selectRegion v (regionKind kind) (toInts c) r none with
    | error e => rw [hs] at hsel; cases hsel
    | ok reg =>
      rw [hs] at hsel
      simp only [Except.toOption, Option.map_some, Option.some.injEq] at hsel
      simp only [hsel]

/-- **C214, refuted**: of two objects of the same size the first one is found. In the mirror image this is the other
one, and the SNR changes from 5 to 10. -/
theorem C214_refuted : Spec.TurnedWith 1 twoObjects (flipAxis twoObjects 1) (fun c => c.modify 1 (fun x => 10 - x)) ∧
    snr twoObjects { center := none, radius := .int 0, regionType := "spherical", auto := true, iterations := 1, lower := 0, upper := 100 } = .ok (.gray 5) ∧
    snr (flipAxis twoObjects 1) { center := none, radius := .int 0, regionType := "spherical", auto := true, iterations := 1, lower := 0, upper := 100 } = .ok (.gray 10) := by
  refine ⟨.flip twoObjects id 1 .start (by decide), ?_, ?_⟩
  · rw [snr_found twoObjects "spherical" (.inr rfl) [2, 2] 1 [10 + 3, 10 + 1, 10, 10 - 1, 10 - 3] rfl (by decide) (by decide +kernel)
      (by decide +kernel) (.cons (by decide) (.cons (by decide) .nil)) (by decide), snrOf_cross]
    show Except.ok (SnrResult.gray _) = _
    norm_num
  · rw [snr_found (flipAxis twoObjects 1) "spherical" (.inr rfl) [2, 2] 1 [20 + 3, 20 - 1, 20, 20 + 1, 20 - 3] rfl (by decide)
      (by decide +kernel) (by decide +kernel) (.cons (by decide) (.cons (by decide) .nil)) (by decide),
      snrOf_perm (show ([20 + 3, 20 - 1, 20, 20 + 1, 20 - 3] : List Rat).Perm [20 + 3, 20 + 1, 20, 20 - 1, 20 - 3] by decide +kernel),
      snrOf_cross]
    show Except.ok (SnrResult.gray _) = _
    norm_num

/-- **C214, refuted** for cubes even if there is only one deepest pixel: a cube extends one pixel further to the left
than to the right of its centre. -/
theorem C214_cubic_refuted : Spec.TurnedWith 1 oneObject (flipAxis oneObject 1) (fun c => c.modify 1 (fun x => 6 - x)) ∧
    (∀ l, autoFind oneObject 0 100 1 = .ok l → Spec.OnlyDeepest l) ∧
    ∃ x y, snr oneObject { center := none, radius := .int 0, auto := true, iterations := 1, lower := 0, upper := 100 } = .ok (.gray x) ∧
      snr (flipAxis oneObject 1) { center := none, radius := .int 0, auto := true, iterations := 1, lower := 0, upper := 100 } = .ok (.gray y) ∧ y < x := by
  refine ⟨.flip oneObject id 1 .start (by decide), found_deepest _ [5, 7] [2, 2] (by decide) (by decide +kernel),
    12 / Real.sqrt ((5 / 2 : Rat) : ℝ), 11 / Real.sqrt ((5 / 2 : Rat) : ℝ), ?_, ?_, ?_⟩
  · rw [snr_found oneObject "cubic" (.inl rfl) [2, 2] 1 [14, 13, 11, 10] rfl (by decide) (by decide +kernel)
      (by decide +kernel) (.cons (by decide) (.cons (by decide) .nil)) (by decide)]
    unfold snrOf stdQ
    rw [if_neg (by simp), if_neg (by decide +kernel), show varQ [14, 13, 11, 10] = 5 / 2 by decide +kernel,
      show meanQ [14, 13, 11, 10] = 12 by decide +kernel]
    show Except.ok (SnrResult.gray _) = _
    norm_num
  · rw [snr_found (flipAxis oneObject 1) "cubic" (.inl rfl) [2, 4] 1 [12, 13, 9, 10] rfl (by decide) (by decide +kernel)
      (by decide +kernel) (.cons (by decide) (.cons (by decide) .nil)) (by decide)]
    unfold snrOf stdQ
    rw [if_neg (by simp), if_neg (by decide +kernel), show varQ [12, 13, 9, 10] = 5 / 2 by decide +kernel,
      show meanQ [12, 13, 9, 10] = 11 by decide +kernel]
    show Except.ok (SnrResult.gray _) = _
    norm_num
  · apply div_lt_div_of_pos_right (by norm_num)
    exact Real.sqrt_pos.2 (by norm_num)

end Viqa
