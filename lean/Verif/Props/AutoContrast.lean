import Verif.Props.Growth

/-!
C216: whether the signal and the background that CNR finds automatically are different regions.
-/

namespace Viqa

/-! ### Dilation until nothing changes -/

/-- Number of steps between neighbours from one pixel to another. -/
def stepsBetween : List Nat → List Nat → Nat
  | x :: i, y :: j => (x - y) + (y - x) + stepsBetween i j
  | _, _ => 0

theorem stepsBetween_toward (sh i j : List Nat) (hi : InShape sh i) (hj : InShape sh j) (hne : i ≠ j) :
    ∃ i', InShape sh i' ∧ i'.length = i.length ∧ posDist (toInts i) (toInts i') ≤ 1 ∧ stepsBetween i' j + 1 = stepsBetween i j := by
  induction sh generalizing i j with
  | nil =>
    cases i <;> cases j <;> simp [InShape] at hi hj hne
  | cons n sh ih =>
    cases i with
    | nil => simp [InShape] at hi
    | cons x i =>
      cases j with
      | nil => simp [InShape] at hj
      | cons y j =>
        obtain ⟨hx, hi⟩ := hi
        obtain ⟨hy, hj⟩ := hj
        rcases Nat.lt_trichotomy x y with h | h | h
        · refine ⟨(x + 1) :: i, ⟨by omega, hi⟩, rfl, ?_, ?_⟩
          · show posDist ((x : Int) :: toInts i) (((x + 1 : Nat) : Int) :: toInts i) ≤ 1
            rw [posDist_cons, posDist_self]
            push_cast
            ring_nf
            omega
          · simp only [stepsBetween]; omega
        · subst h
          obtain ⟨i', h1, h2, h3, h4⟩ := ih i j hi hj (fun e => hne (by rw [e]))
          refine ⟨x :: i', ⟨hx, h1⟩, by simp [h2], ?_, ?_⟩
          · show posDist ((x : Int) :: toInts i) ((x : Int) :: toInts i') ≤ 1
            rw [posDist_cons]
            simpa using h3
          · simp only [stepsBetween]; omega
        · refine ⟨(x - 1) :: i, ⟨by omega, hi⟩, rfl, ?_, ?_⟩
          · show posDist ((x : Int) :: toInts i) (((x - 1 : Nat) : Int) :: toInts i) ≤ 1
            rw [posDist_cons, posDist_self, Nat.cast_sub (by omega)]
            push_cast
            ring_nf
            omega
          · simp only [stepsBetween]; omega

theorem stepsBetween_zero (sh i j : List Nat) (hi : InShape sh i) (hj : InShape sh j) (h : stepsBetween i j = 0) : i = j := by
  by_contra hne
  obtain ⟨i', -, -, -, e⟩ := stepsBetween_toward sh i j hi hj hne
  omega

theorem stepsBetween_lt (sh i j : List Nat) (hi : InShape sh i) (hj : InShape sh j) : stepsBetween i j + 1 ≤ sh.prod := by
  induction sh generalizing i j with
  | nil => cases i <;> cases j <;> simp [InShape] at hi hj; simp [stepsBetween]
  | cons n sh ih =>
    cases i with
    | nil => simp [InShape] at hi
    | cons x i =>
      cases j with
      | nil => simp [InShape] at hj
      | cons y j =>
        have := ih i j hi.2 hj.2
        have hx := hi.1
        have hy := hj.1
        simp only [stepsBetween, List.prod_cons]
        obtain ⟨m, rfl⟩ : ∃ m, n = m + 1 := ⟨n - 1, by omega⟩
        have : (m + 1) * sh.prod = m * sh.prod + sh.prod := by ring
        have h2 : m ≤ m * sh.prod := Nat.le_mul_of_pos_right m (by omega)
        omega

theorem stepsBetween_self (i : List Nat) : stepsBetween i i = 0 := by
  induction i with
  | nil => rfl
  | cons x i ih => simp only [stepsBetween, ih]; omega

theorem dilate_reach (b : NDArray Bool) (n : Nat) (i j : List Nat) (hi : InShape b.shape i) (hj : InShape b.shape j)
    (hb : b.get j = true) (h : stepsBetween i j ≤ n) : (iterateN dilateStep n b).get i = true := by
  induction n generalizing i with
  | zero => rw [stepsBetween_zero _ i j hi hj (by omega)]; exact hb
  | succ n ih =>
    rw [iterateN_succ']
    have hsh : (iterateN dilateStep n b).shape = b.shape := iterateN_shape dilateStep (fun _ => rfl) n b
    have key : ∀ i', InShape b.shape i' → i'.length = i.length → posDist (toInts i) (toInts i') ≤ 1 → stepsBetween i' j ≤ n →
        (dilateStep (iterateN dilateStep n b)).get i = true := by
      intro i' h1 h2 h3 h4
      show (crossNeighbours (toInts i)).any (boolAt (iterateN dilateStep n b)) = true
      rw [List.any_eq_true]
      refine ⟨toInts i', (mem_cross_iff _ _).2 ⟨by simpa using h2, h3⟩, ?_⟩
      rw [boolAt_iff, toNat_toInts]
      refine ⟨(inside_iff _ _).2 (by rw [hsh]; exact h1), ih i' h1 h4⟩
    by_cases hne : i = j
    · subst hne
      refine key i hi rfl (by rw [posDist_self]; omega) ?_
      rw [stepsBetween_self]; omega
    · obtain ⟨i', h1, h2, h3, h4⟩ := stepsBetween_toward _ i j hi hj hne
      exact key i' h1 h2 h3 (by omega)

/-- With `iterations=0` the object fills the whole image before the erosion. -/
theorem clean_zero (b : NDArray Bool) (j : List Nat) (hj : InShape b.shape j) (hb : b.get j = true) :
    Spec.PartOf (erodeStep ⟨b.shape, fun _ => true⟩) (cleanBinary b 0) := by
  unfold cleanBinary morphSteps
  rw [if_neg (by omega), if_pos (by omega)]
  refine (step_part (b := ⟨b.shape, fun _ => true⟩) ⟨iterateN_shape dilateStep (fun _ => rfl) _ b, fun i hi _ => ?_⟩).1
  refine dilate_reach b _ i j hi hj hb ?_
  have : stepsBetween i j + 1 ≤ b.shape.prod := stepsBetween_lt _ i j hi hj
  show stepsBetween i j ≤ b.shape.prod
  omega

theorem clean_zero_le (b : NDArray Bool) : Spec.PartOf (cleanBinary b 0) (erodeStep ⟨b.shape, fun _ => true⟩) := by
  unfold cleanBinary morphSteps
  rw [if_neg (by omega), if_pos (by omega)]
  refine (step_part (b' := ⟨b.shape, fun _ => true⟩) ⟨?_, fun i _ _ => rfl⟩).1
  exact (iterateN_shape dilateStep (fun _ => rfl) _ b).symm

theorem centreRadius_congr {b b' : NDArray Bool} (h : Spec.PartOf b b') (h' : Spec.PartOf b' b) : centreRadius b = centreRadius b' := by
  have hv : ∀ i ∈ indices b.shape, b.get i = b'.get i := by
    intro i hi
    rw [mem_indices] at hi
    rw [Bool.eq_iff_iff]
    exact ⟨h.2 i hi, h'.2 i (by rw [h.1]; exact hi)⟩
  have he : edtSq b = edtSq b' := by
    funext p
    unfold edtSq
    rw [h.1, List.filter_congr (fun q hq => by rw [hv q hq])]
  unfold centreRadius
  rw [he, h.1]

theorem findLargest_zero (b b' : NDArray Bool) (hs : b'.shape = b.shape) (l l' : Largest) (h : findLargest b 0 = .ok l)
    (h' : findLargest b' 0 = .ok l') : l.centre = l'.centre ∧ l.radius = l'.radius := by
  have pix : ∀ (v : NDArray Bool) k, findLargest v 0 = .ok k → ∃ j, InShape v.shape j ∧ v.get j = true := by
    intro v k hk
    unfold findLargest at hk
    split at hk
    · cases hk
    · rename_i hb
      rw [not_not] at hb
      obtain ⟨j, hj, e⟩ := List.mem_map.1 hb.2
      exact ⟨j, (mem_indices _ _).1 hj, e⟩
  obtain ⟨j, hj, hv⟩ := pix b l h
  obtain ⟨j', hj', hv'⟩ := pix b' l' h'
  obtain ⟨c1, -, -⟩ := findLargest_parts b 0 l h
  obtain ⟨c2, -, -⟩ := findLargest_parts b' 0 l' h'
  rw [centreRadius_congr (clean_zero_le b) (clean_zero b j hj hv)] at c1
  rw [centreRadius_congr (clean_zero_le b') (clean_zero b' j' hj' hv'), hs] at c2
  rw [c1] at c2
  simpa using c2

theorem cnrOf_same (l : List Rat) (v : ℝ) (h : cnrOf l l = .ok v) : v = 0 := by
  unfold cnrOf at h
  split at h
  · cases h
  · split at h
    · cases h; rfl
    · simp at h
      exact h.symm

/-- **C216, refuted** for `iterations=0`: SciPy dilates until nothing changes, that is until the object fills the image. In every
image the same region is found for signal and background, and CNR is 0. -/
theorem C216_zero_refuted (a : NDArray Rat) (s b : Largest) (hs : autoFind a 90 100 0 = .ok s) (hb : autoFind a 0 90 0 = .ok b)
    (kind : String) (hk : regionKind kind = .cubic ∨ regionKind kind = .spherical) :
    s.centre = b.centre ∧ s.radius = b.radius ∧
    ∀ v, cnr a { signal := [], background := [], radius := .int 0, regionType := kind, auto := true, iterations := 0 } = .ok v → v = 0 := by
  have e : s.centre = b.centre ∧ s.radius = b.radius := by
    unfold autoFind at hs hb
    cases g1 : getBinary (if isColour a then (toGrayscale ⟨.f64, a⟩).arr else a) 90 100 with
    | error e => rw [g1] at hs; cases hs
    | ok x =>
      cases g2 : getBinary (if isColour a then (toGrayscale ⟨.f64, a⟩).arr else a) 0 90 with
      | error e => rw [g2] at hb; cases hb
      | ok y =>
        rw [g1] at hs
        rw [g2] at hb
        exact findLargest_zero x y (by rw [(getBinary_ok _ _ _ _ g1).1, (getBinary_ok _ _ _ _ g2).1]) s b hs hb
  refine ⟨e.1, e.2, fun v hv => ?_⟩
  rw [cnr_auto_given a kind hk 0 s b hs hb, e.1] at hv
  unfold cnr cnrSelect cnrRegions at hv
  simp only [Bool.false_eq_true, if_false, bind, Except.bind] at hv
  split at hv
  · cases hv
  · rename_i sg bg hreg
    split at hreg
    · cases hreg
    · split at hreg
      · cases hreg
      · split at hreg
        · cases hreg
        · split at hreg
          · cases hreg
          · split at hreg
            · cases hreg
            · cases hreg
              exact cnrOf_same _ v hv

/-- Every erosion removes a layer at the border of the image. -/
theorem erode_head (b : NDArray Bool) (n : Nat) (x : Nat) (i : List Nat) (hi : InShape b.shape (x :: i))
    (h : (iterateN erodeStep n b).get (x :: i) = true) : n ≤ x := by
  induction n generalizing x with
  | zero => omega
  | succ n ih =>
    rw [iterateN_succ'] at h
    have hsh : (iterateN erodeStep n b).shape = b.shape := iterateN_shape erodeStep (fun _ => rfl) n b
    cases x with
    | zero =>
      rw [erode_border _ _ 0 (by rw [hsh]; exact hi) (by simp) (.inl rfl)] at h
      cases h
    | succ x =>
      have h' : (crossNeighbours (toInts ((x + 1) :: i))).all (boolAt (iterateN erodeStep n b)) = true := h
      rw [List.all_eq_true] at h'
      have hp : posDist (toInts ((x + 1) :: i)) (toInts (x :: i)) ≤ 1 := by
        show posDist (((x + 1 : Nat) : Int) :: toInts i) ((x : Int) :: toInts i) ≤ 1
        rw [posDist_cons, posDist_self]
        push_cast
        ring_nf
        omega
      have hx := h' (toInts (x :: i)) ((mem_cross_iff _ _).2 ⟨by simp, hp⟩)
      rw [boolAt_iff, toNat_toInts] at hx
      have hin : InShape b.shape (x :: i) := by
        cases hs : b.shape with
        | nil => rw [hs] at hi; simp [InShape] at hi
        | cons m t =>
          rw [hs] at hi
          exact ⟨by have := hi.1; omega, hi.2⟩
      have := ih x hin hx.2
      omega

theorem findLargest_negative (b : NDArray Bool) (it : Int) (hit : it < 0) (l : Largest) (h : findLargest b it = .ok l) :
    l.radius = 0 := by
  refine C58_empty b it l h (fun i hi => ?_)
  obtain ⟨-, hnd, -⟩ := findLargest_parts b it l h
  have hcl : l.cleaned = cleanBinary b it := by
    unfold findLargest at h
    split at h
    · cases h
    · split at h
      · cases h
      · split at h
        · split at h
          · cases h
          · cases h; rfl
        · cases h
  rw [hcl]
  rw [Bool.eq_false_iff]
  intro hc
  unfold cleanBinary morphSteps at hc
  rw [if_pos (by omega), if_pos (by omega)] at hc
  have hsh : (iterateN dilateStep b.size b).shape = b.shape := iterateN_shape dilateStep (fun _ => rfl) _ b
  cases i with
  | nil =>
    have := inShape_length _ _ hi
    have h0 : 0 < b.shape.length := hnd
    simp at this
    omega
  | cons x i =>
    have h1 := erode_head _ b.size x i (by rw [hsh]; exact hi) hc
    cases hs : b.shape with
    | nil => rw [hs] at hi; simp [InShape] at hi
    | cons m t =>
      have hp := size_pos_of_inShape _ _ hi
      have e : b.size = m * t.prod := by show b.shape.prod = _; rw [hs, List.prod_cons]
      rw [hs, List.prod_cons] at hp
      rw [hs] at hi
      have h2 := hi.1
      have h3 : 0 < t.prod := Nat.pos_of_mul_pos_left hp
      have h4 : m ≤ m * t.prod := Nat.le_mul_of_pos_right m h3
      omega

/-- **C216, refuted** for negative `iterations`, which SciPy also takes as "until nothing changes": then the erosion removes
everything and CNR of no image is a number. -/
theorem C216_negative_refuted (a : NDArray Rat) (it : Int) (hit : it < 0) (kind : String) (v : ℝ) :
    cnr a { signal := [], background := [], radius := .int 0, regionType := kind, auto := true, iterations := it } ≠ .ok v := by
  intro h
  unfold cnr cnrSelect at h
  simp only [if_true, bind, Except.bind] at h
  cases hs : autoFind a 90 100 it with
  | error e => rw [hs] at h; cases h
  | ok s =>
    have hr : s.radius = 0 := by
      unfold autoFind at hs
      split at hs
      · cases hs
      · exact findLargest_negative _ it hit s hs
    rw [hs] at h
    simp only at h
    cases hb : autoFind a 0 90 it with
    | error e => rw [hb] at h; cases h
    | ok b =>
      rw [hb] at h
      simp only [hr] at h
      unfold cnrRegions checkRadius at h
      simp only [Nat.zero_min, Nat.cast_zero, le_refl, if_true, bind, Except.bind] at h
      split at h
      · cases h
      · rename_i heq
        split at heq
        · cases heq
        · split at heq
          · cases heq
          · split at heq
            · cases heq
            · split at heq <;> cases heq

/-! ### Regions to which the cleaning adds nothing -/

/-- **C216 (partial).** If the cleaning adds no pixels to the bright part and none to the dark part of a gray image, signal and
background are different regions: the centres differ, and every pixel that is nearer to the centre of the signal than its radius
is brighter than every such pixel of the background. Missing: parts with holes or gaps, which the cleaning closes
(`C216_refuted`, `C216_zero_refuted`). -/
theorem C216_partial (a : NDArray Rat) (hcol : isColour a = false) (it : Int) (s b : Largest)
    (hs : autoFind a 90 100 it = .ok s) (hb : autoFind a 0 90 it = .ok b)
    (ns : ∃ i, InShape a.shape i ∧ s.cleaned.get i = true) (nb : ∃ i, InShape a.shape i ∧ b.cleaned.get i = true)
    (cs : ∀ i, InShape a.shape i → s.cleaned.get i = true → percentile a.toList 90 < a.get i)
    (cb : ∀ i, InShape a.shape i → b.cleaned.get i = true → a.get i ≤ percentile a.toList 90) :
    s.centre ≠ b.centre ∧ 0 < min s.radius b.radius ∧
    ∀ i j, InShape a.shape i → InShape a.shape j → Spec.sqDist i (toInts s.centre) < (s.radius : Int) ^ 2 →
      Spec.sqDist j (toInts b.centre) < (b.radius : Int) ^ 2 → a.get j < a.get i := by
  unfold autoFind at hs hb
  rw [hcol] at hs hb
  simp only [Bool.false_eq_true, if_false] at hs hb
  cases g1 : getBinary a 90 100 with
  | error e => rw [g1] at hs; cases hs
  | ok x =>
    cases g2 : getBinary a 0 90 with
    | error e => rw [g2] at hb; cases hb
    | ok y =>
      rw [g1] at hs
      rw [g2] at hb
      have e1 := (getBinary_ok _ _ _ _ g1).1
      have e2 := (getBinary_ok _ _ _ _ g2).1
      obtain ⟨s1, s2, s3, -, s5, -⟩ := C58_valid x it s hs (by rw [e1]; exact ns)
      obtain ⟨b1, b2, b3, -, b5, -⟩ := C58_valid y it b hb (by rw [e2]; exact nb)
      rw [e1] at s1 s5
      rw [e2] at b1 b5
      refine ⟨fun h => ?_, by omega, fun i j hi hj h1 h2 => ?_⟩
      · have p1 := cs _ s1 s2
        have p2 := cb _ b1 b2
        rw [h] at p1
        linarith
      · have p1 := cs i hi (s5 i hi h1)
        have p2 := cb j hj (b5 j hj h2)
        linarith

/-- Four bright pixels around the middle of a dark image. -/
def fourLights : NDArray Rat :=
  ⟨[7, 7], fun i => if i = [1, 3] ∨ i = [5, 3] ∨ i = [3, 1] ∨ i = [3, 5] then 100
    else if i = [0, 0] then 0 else if i = [2, 3] then 1 else 2⟩

/-- **C216, refuted**: the cleaning joins four separate bright pixels. The same region, which contains none of them, is taken for
signal and background, and CNR is 0. -/
theorem C216_refuted : (∃ s b, autoFind fourLights 90 100 2 = .ok s ∧ autoFind fourLights 0 90 2 = .ok b ∧
      s.centre = [3, 3] ∧ b.centre = [3, 3] ∧ s.radius = 1 ∧ b.radius = 1) ∧
    cnr fourLights { signal := [], background := [], radius := .int 0, regionType := "spherical", auto := true, iterations := 2 } = .ok 0 := by
  have h1 : (autoFind fourLights 90 100 2).toOption.map (fun l => (l.centre, l.radius)) = some ([3, 3], 1) := by decide +kernel
  have h2 : (autoFind fourLights 0 90 2).toOption.map (fun l => (l.centre, l.radius)) = some ([3, 3], 1) := by decide +kernel
  cases e1 : autoFind fourLights 90 100 2 with
  | error e => rw [e1] at h1; cases h1
  | ok s =>
    cases e2 : autoFind fourLights 0 90 2 with
    | error e => rw [e2] at h2; cases h2
    | ok b =>
      rw [e1] at h1
      rw [e2] at h2
      simp only [Except.toOption, Option.map_some, Option.some.injEq, Prod.mk.injEq] at h1 h2
      refine ⟨⟨s, b, rfl, rfl, h1.1, h2.1, h1.2, h2.2⟩, ?_⟩
      rw [cnr_auto_given fourLights "spherical" (.inr rfl) 2 s b e1 e2, h1.1, h2.1, h1.2, h2.2]
      show cnrOf (⟨fourLights, fun idx => decide (distSq idx [3, 3] ≤ 1 ^ 2)⟩ : Region Rat).values
        (⟨fourLights, fun idx => decide (distSq idx [3, 3] ≤ 1 ^ 2)⟩ : Region Rat).values = _
      have hv : (⟨fourLights, fun idx => decide (distSq idx [3, 3] ≤ 1 ^ 2)⟩ : Region Rat).values = [1, 2, 2, 2, 2] := by decide +kernel
      rw [hv]
      unfold cnrOf
      rw [if_neg (by simp), if_neg (by decide +kernel), if_neg (by simp)]
      simp

/-- For a bright and a dark object (see C214) nothing is added; the bright object is the signal. -/
example (s b : Largest) (hs : autoFind brightDark 90 100 1 = .ok s) (hb : autoFind brightDark 0 90 1 = .ok b) : s.centre ≠ b.centre := by
  have hp : percentile brightDark.toList 90 = 9 := by decide +kernel
  have h1 : (autoFind brightDark 90 100 1).toOption.map (fun l => (indices [9, 11]).map l.cleaned.get) =
    some ((indices [9, 11]).map (fun i => decide (i = [4, 2]))) := by decide +kernel
  have h2 : (autoFind brightDark 0 90 1).toOption.map (fun l => (indices [9, 11]).map l.cleaned.get) =
    some ((indices [9, 11]).map (fun i => decide (i = [4, 8]))) := by decide +kernel
  rw [hs] at h1
  rw [hb] at h2
  simp only [Except.toOption, Option.map_some, Option.some.injEq] at h1 h2
  have v1 : ∀ i, InShape [9, 11] i → s.cleaned.get i = decide (i = [4, 2]) :=
    fun i hi => List.map_inj_left.1 h1 i ((mem_indices _ _).2 hi)
  have v2 : ∀ i, InShape [9, 11] i → b.cleaned.get i = decide (i = [4, 8]) :=
    fun i hi => List.map_inj_left.1 h2 i ((mem_indices _ _).2 hi)
  refine (C216_partial brightDark rfl 1 s b hs hb ⟨[4, 2], by decide, by rw [v1 _ (by decide)]; rfl⟩
    ⟨[4, 8], by decide, by rw [v2 _ (by decide)]; rfl⟩ (fun i hi hc => ?_) (fun i hi hc => ?_)).1
  · rw [v1 i hi] at hc
    rw [hp, of_decide_eq_true hc]
    decide +kernel
  · rw [v2 i hi] at hc
    rw [hp, of_decide_eq_true hc]
    decide +kernel

/-- With `iterations=0` both have the centre in the middle of the image. -/
example : (autoFind fourLights 90 100 0).toOption.map (fun l => (l.centre, l.radius)) = some ([3, 3], 3) ∧
    (autoFind fourLights 0 90 0).toOption.map (fun l => (l.centre, l.radius)) = some ([3, 3], 3) := by decide +kernel

end Viqa
