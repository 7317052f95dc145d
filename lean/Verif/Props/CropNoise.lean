import Verif.Props.Noise
import Verif.Props.Images

/-!
C151: cropping an image does not change the SNR and CNR of regions inside of the crop.
-/

namespace Viqa

open Spec

/-- The ranges given to `crop_image`, one for each axis. -/
def Spec.ranges (x y : Range) : Option Range → List Range
  | none => [x, y]
  | some z => [x, y, z]

/-- A region of the given kind with centre `c` and radius `r` lies inside of the ranges. The last
pixel of a cube is `c + r - 1`, that of a ball `c + r`. -/
def Spec.RegionInside (kind : RKind) (r : Int) (ranges : List Range) (c : List Int) : Prop :=
  List.Forall₂ (fun (g : Range) ci => g.1 + r ≤ ci ∧ (if kind = .spherical then ci + r < g.2 else ci + r ≤ g.2)) ranges c

/-- The coordinates of a point of the image in the crop. -/
def Spec.inCrop (ranges : List Range) (c : List Int) : List Int := List.zipWith (fun (g : Range) ci => ci - g.1) ranges c

/-! ### Pixels of a crop -/

def inRanges : List Range → List Nat → Bool
  | g :: gs, i :: idx => decide (g.1 ≤ i ∧ (i : Int) < g.2) && inRanges gs idx
  | _, _ => true

def fromCrop (ranges : List Range) (idx : List Nat) : List Nat :=
  List.zipWith (fun (g : Range) (i : Nat) => i + g.1.toNat) ranges idx

theorem range_inside (n : Nat) (g : Range) (h : InsideAxis n g) :
    List.range n = List.range g.1.toNat ++ (List.range (g.2 - g.1).toNat).map (fun i => i + g.1.toNat) ++
      (List.range (n - g.2.toNat)).map (fun i => g.2.toNat + i) := by
  obtain ⟨h1, h2, h3⟩ := h
  have e : n = g.1.toNat + (g.2 - g.1).toNat + (n - g.2.toNat) := by omega
  have e2 : g.2.toNat = g.1.toNat + (g.2 - g.1).toNat := by omega
  conv_lhs => rw [e, List.range_add, List.range_add]
  rw [← e2]
  congr 2
  apply List.map_congr_left
  intro i _
  omega

theorem indices_inRanges (sh : List Nat) (ranges : List Range) (h : List.Forall₂ InsideAxis sh ranges) :
    ∀ p : List Nat → Bool, (indices sh).filter (fun idx => inRanges ranges idx && p idx) =
      ((indices (ranges.map (fun g => (g.2 - g.1).toNat))).map (fromCrop ranges)).filter p := by
  induction h with
  | nil => intro p; simp [indices, inRanges, fromCrop]
  | @cons n g sh gs hg _ ih =>
    intro p
    have hstep : ∀ i : Nat, ((indices sh).map (i :: ·)).filter (fun idx => inRanges (g :: gs) idx && p idx) =
        if g.1 ≤ i ∧ (i : Int) < g.2 then
          (((indices (gs.map (fun g => (g.2 - g.1).toNat))).map (fromCrop gs)).map (i :: ·)).filter p else [] := by
      intro i
      rw [List.filter_map]
      split
      · rename_i hi
        rw [List.filter_map (f := (i :: ·)), ← ih (p ∘ (i :: ·))]
        congr 1
        apply List.filter_congr
        intro t _
        simp only [Function.comp, inRanges, hi, and_self, decide_true, Bool.true_and]
      · rename_i hi
        rw [List.map_eq_nil_iff, List.filter_eq_nil_iff]
        intro t _
        simp only [Function.comp, inRanges, hi, decide_false, Bool.false_and, Bool.false_eq_true, not_false_eq_true]
    show ((List.range n).flatMap (fun i => (indices sh).map (i :: ·))).filter _ =
      (((List.range (g.2 - g.1).toNat).flatMap (fun i => (indices (gs.map (fun g => (g.2 - g.1).toNat))).map (i :: ·))).map
        (fromCrop (g :: gs))).filter p
    rw [List.filter_flatMap, List.map_flatMap, List.filter_flatMap, range_inside n g hg, List.flatMap_append,
      List.flatMap_append]
    simp only [hstep]
    obtain ⟨h1, h2, h3⟩ := hg
    have e1 : (List.range g.1.toNat).flatMap (fun i : Nat => if g.1 ≤ i ∧ (i : Int) < g.2 then
          (((indices (gs.map (fun g => (g.2 - g.1).toNat))).map (fromCrop gs)).map (i :: ·)).filter p else []) = [] := by
      rw [List.flatMap_eq_nil_iff]
      intro i hi
      rw [List.mem_range] at hi
      rw [if_neg (by omega)]
    have e3 : ((List.range (n - g.2.toNat)).map (fun i => g.2.toNat + i)).flatMap (fun i : Nat => if g.1 ≤ i ∧ (i : Int) < g.2 then
          (((indices (gs.map (fun g => (g.2 - g.1).toNat))).map (fromCrop gs)).map (i :: ·)).filter p else []) = [] := by
      rw [List.flatMap_eq_nil_iff]
      intro i hi
      obtain ⟨j, -, rfl⟩ := List.mem_map.1 hi
      rw [if_neg (by push_cast; omega)]
    rw [e1, e3, List.nil_append, List.append_nil, List.flatMap_map]
    apply List.flatMap_congr
    intro i hi
    rw [List.mem_range] at hi
    rw [if_pos (by push_cast; omega), List.map_map, List.map_map]
    rfl

/-- `b` consists of the pixels of `a` in the ranges. -/
structure Cropped (a b : NDArray Rat) (ranges : List Range) : Prop where
  inside : List.Forall₂ InsideAxis a.shape ranges
  shape : b.shape = ranges.map (fun g => (g.2 - g.1).toNat)
  get : ∀ idx, InShape b.shape idx → b.get idx = a.get (fromCrop ranges idx)

theorem cropped_values {a b : NDArray Rat} {ranges : List Range} (h : Cropped a b ranges) (sa sb : List Nat → Bool)
    (h1 : ∀ idx, InShape a.shape idx → sa idx = true → inRanges ranges idx = true)
    (h2 : ∀ idx, InShape b.shape idx → sb idx = sa (fromCrop ranges idx)) :
    (⟨b, sb⟩ : Region Rat).values = (⟨a, sa⟩ : Region Rat).values := by
  unfold Region.values Region.selected
  simp only
  have e1 : (indices a.shape).filter sa = (indices a.shape).filter (fun idx => inRanges ranges idx && sa idx) := by
    apply List.filter_congr
    intro idx hi
    have := h1 idx ((mem_indices _ _).1 hi)
    cases hs : sa idx with
    | false => simp
    | true => simp [this hs]
  rw [e1, indices_inRanges _ _ h.inside, ← h.shape, List.filter_map, List.map_map]
  have e2 : (indices b.shape).filter sb = (indices b.shape).filter (sa ∘ fromCrop ranges) :=
    List.filter_congr (fun idx hi => h2 idx ((mem_indices _ _).1 hi))
  rw [e2]
  apply List.map_congr_left
  intro idx hi
  exact h.get idx ((mem_indices _ _).1 (List.mem_filter.1 hi).1)

theorem cut_eq {sh : List Nat} {ranges : List Range} (h : List.Forall₂ InsideAxis sh ranges) :
    List.zipWith (fun n (g : Range) => sliceRange n g.1 g.2) sh ranges =
      ranges.map (fun g => (g.1.toNat, (g.2 - g.1).toNat)) := by
  induction h with
  | nil => rfl
  | cons hg _ ih => rw [List.zipWith_cons_cons, ih, sliceRange_inside _ _ hg]; rfl

theorem zipWith_fromCrop (ranges : List Range) (idx : List Nat) :
    List.zipWith (fun i (c : Nat × Nat) => i + c.1) idx (ranges.map (fun g => (g.1.toNat, (g.2 - g.1).toNat))) =
      fromCrop ranges idx := by
  unfold fromCrop
  induction ranges generalizing idx with
  | nil => cases idx <;> rfl
  | cons g gs ih =>
    cases idx with
    | nil => rfl
    | cons i idx => rw [List.map_cons, List.zipWith_cons_cons, ih, List.zipWith_cons_cons]

theorem sliceArray_cropped {a : NDArray Rat} {ranges : List Range} (h : List.Forall₂ InsideAxis a.shape ranges) :
    Cropped a (sliceArray a ranges) ranges := by
  have hl : a.shape.length = ranges.length := h.length_eq
  have hshape : (sliceArray a ranges).shape = ranges.map (fun g => (g.2 - g.1).toNat) := by
    unfold sliceArray
    simp only [cut_eq h, List.map_map]
    rw [← hl, List.drop_length, List.append_nil]
    rfl
  refine ⟨h, hshape, ?_⟩
  intro idx hi
  have hlen := inShape_length _ _ hi
  rw [hshape, List.length_map] at hlen
  unfold sliceArray
  simp only [cut_eq h, zipWith_fromCrop, List.length_map]
  rw [← hlen, List.drop_length, List.append_nil]

theorem whole_cropped {a : NDArray Rat} {ranges : List Range}
    (h : List.Forall₂ (fun n g => InsideAxis n g ∧ g.2 - g.1 = (n : Int)) a.shape ranges) : Cropped a a ranges := by
  have h1 : ∀ sh : List Nat, List.Forall₂ (fun n g => InsideAxis n g ∧ g.2 - g.1 = (n : Int)) sh ranges →
      sh = ranges.map (fun g => (g.2 - g.1).toNat) ∧ ∀ idx : List Nat, idx.length = ranges.length → fromCrop ranges idx = idx := by
    clear h
    intro sh h
    unfold fromCrop
    induction h with
    | nil => exact ⟨rfl, fun idx hi => by rw [List.length_eq_zero_iff.1 hi]; rfl⟩
    | @cons n g sh gs hg _ ih =>
      obtain ⟨⟨g1, g2, g3⟩, g4⟩ := hg
      refine ⟨?_, ?_⟩
      · rw [List.map_cons, ← ih.1, g4]; simp
      · intro idx hi
        cases idx with
        | nil => rfl
        | cons i idx =>
          rw [List.zipWith_cons_cons, ih.2 idx (by simpa using hi)]
          congr 1
          omega
  refine ⟨h.imp (fun _ _ h => h.1), (h1 _ h).1, ?_⟩
  intro idx hi
  rw [(h1 _ h).2 idx (by rw [inShape_length _ _ hi, h.length_eq])]

theorem cropImage_cropped {a b : NDArray Rat} {x y : Range} {z : Option Range}
    (hin : List.Forall₂ InsideAxis a.shape (Spec.ranges x y z)) (h : (cropImage a x y z).val = .ok b) :
    Cropped a b (Spec.ranges x y z) := by
  have hs := sliceArray_cropped hin
  cases z with
  | none =>
    obtain ⟨n0, n1, e⟩ : ∃ n0 n1, a.shape = [n0, n1] := by
      have := hin.length_eq
      exact List.length_eq_two.1 this
    unfold cropImage at h
    simp only [e] at h
    split at h
    · cases h; exact hs
    · split at h
      · rename_i hc
        cases h
        apply whole_cropped
        rw [e] at hin ⊢
        simp only [Spec.ranges, List.forall₂_cons, List.Forall₂.nil, and_true] at hin ⊢
        exact ⟨⟨hin.1, hc.1⟩, ⟨hin.2, hc.2⟩⟩
      · cases h
  | some z =>
    obtain ⟨n0, n1, n2, e⟩ : ∃ n0 n1 n2, a.shape = [n0, n1, n2] := by
      have := hin.length_eq
      exact List.length_eq_three.1 this
    unfold cropImage at h
    simp only [e] at h
    split at h
    · cases h
    · split at h
      · cases h; exact hs
      · split at h
        · rename_i hc
          cases h
          apply whole_cropped
          rw [e] at hin ⊢
          simp only [Spec.ranges, List.forall₂_cons, List.Forall₂.nil, and_true] at hin ⊢
          exact ⟨⟨hin.1, hc.1⟩, ⟨hin.2.1, hc.2.1⟩, ⟨hin.2.2, hc.2.2⟩⟩
        · cases h

/-! ### Regions of a crop -/

theorem inSlice_inside_iff (n : Nat) (lo hi : Int) (h : InsideAxis n (lo, hi)) (i : Nat) :
    inSlice n lo hi i = true ↔ lo ≤ i ∧ (i : Int) < hi := by
  unfold inSlice
  rw [sliceRange_inside n (lo, hi) h]
  obtain ⟨h1, h2, h3⟩ := h
  simp only at h1 h2 h3 ⊢
  rw [decide_eq_true_iff]
  omega

theorem box_inRanges {r : Int} (hr : 0 ≤ r) {sh : List Nat} {ranges : List Range} (hin : List.Forall₂ InsideAxis sh ranges) :
    ∀ {c : List Int}, List.Forall₂ (fun (g : Range) ci => g.1 + r ≤ ci ∧ ci + r ≤ g.2) ranges c →
    ∀ idx, (InShape sh idx → boxMask sh c r idx = true → inRanges ranges idx = true) ∧
      (InShape (ranges.map (fun g => (g.2 - g.1).toNat)) idx →
        boxMask (ranges.map (fun g => (g.2 - g.1).toNat)) (Spec.inCrop ranges c) r idx = boxMask sh c r (fromCrop ranges idx)) := by
  induction hin with
  | nil =>
    intro c hc idx
    cases hc
    cases idx <;> exact ⟨fun _ _ => rfl, fun _ => rfl⟩
  | @cons n g sh gs hg _ ih =>
    intro c hc idx
    cases hc with
    | @cons _ ci _ cs h1 h2 =>
      obtain ⟨g1, g2, g3⟩ := hg
      obtain ⟨h1a, h1b⟩ := h1
      cases idx with
      | nil => exact ⟨fun _ _ => rfl, fun _ => rfl⟩
      | cons i idx =>
        have ha : InsideAxis n (ci - r, ci + r) := ⟨by show 0 ≤ ci - r; omega, by show ci - r ≤ ci + r; omega, by show ci + r ≤ n; omega⟩
        have hb : InsideAxis (g.2 - g.1).toNat (ci - g.1 - r, ci - g.1 + r) :=
          ⟨by show 0 ≤ ci - g.1 - r; omega, by show ci - g.1 - r ≤ ci - g.1 + r; omega, by show ci - g.1 + r ≤ _; omega⟩
        constructor
        · intro hs hm
          have hs' : InShape sh idx := hs.2
          simp only [boxMask, Bool.and_eq_true] at hm
          simp only [inRanges, Bool.and_eq_true, decide_eq_true_iff]
          have := (inSlice_inside_iff _ _ _ ha i).1 hm.1
          exact ⟨by omega, (ih h2 idx).1 hs' hm.2⟩
        · intro hs
          have hs' : InShape (gs.map (fun g => (g.2 - g.1).toNat)) idx := hs.2
          have e := (ih h2 idx).2 hs'
          show (inSlice _ (ci - g.1 - r) (ci - g.1 + r) i && boxMask _ (Spec.inCrop gs cs) r idx) =
            (inSlice n (ci - r) (ci + r) (i + g.1.toNat) && boxMask sh cs r (fromCrop gs idx))
          rw [e]
          congr 1
          rw [Bool.eq_iff_iff, inSlice_inside_iff _ _ _ ha, inSlice_inside_iff _ _ _ hb]
          push_cast
          omega

theorem forall₂_left_nonneg {sh : List Nat} {ranges : List Range} (h : List.Forall₂ InsideAxis sh ranges) :
    ∀ g ∈ ranges, 0 ≤ g.1 := by
  induction h with
  | nil => simp
  | cons hg _ ih =>
    intro g hm
    rcases List.mem_cons.1 hm with rfl | hm
    · exact hg.1
    · exact ih g hm

theorem ball_inRanges {r : Int} (hr : 0 ≤ r) {ranges : List Range} (hin : ∀ g ∈ ranges, 0 ≤ g.1) :
    ∀ {c : List Int}, List.Forall₂ (fun (g : Range) ci => g.1 + r ≤ ci ∧ ci + r < g.2) ranges c →
    ∀ idx : List Nat, (distSq idx c ≤ r ^ 2 → inRanges ranges idx = true) ∧
      distSq idx (Spec.inCrop ranges c) = distSq (fromCrop ranges idx) c := by
  induction ranges with
  | nil =>
    intro c hc idx
    cases hc
    cases idx <;> exact ⟨fun _ => rfl, rfl⟩
  | cons g gs ih =>
    intro c hc idx
    cases hc with
    | @cons _ ci _ cs h1 h2 =>
      have h0 := hin g (by simp)
      cases idx with
      | nil => exact ⟨fun _ => rfl, rfl⟩
      | cons i idx =>
        obtain ⟨e1, e2⟩ := ih (fun g hg => hin g (List.mem_cons_of_mem _ hg)) h2 idx
        constructor
        · intro hd
          have hd' : ((i : Int) - ci) ^ 2 + distSq idx cs ≤ r ^ 2 := hd
          have hn := distSq_nonneg idx cs
          have hsq := sq_nonneg ((i : Int) - ci)
          have habs := abs_le_of_sq_le_sq' (show ((i : Int) - ci) ^ 2 ≤ r ^ 2 by omega) hr
          simp only [inRanges, Bool.and_eq_true, decide_eq_true_iff]
          exact ⟨by omega, e1 (by omega)⟩
        · show ((i : Int) - (ci - g.1)) ^ 2 + distSq idx (Spec.inCrop gs cs) = (((i + g.1.toNat : Nat) : Int) - ci) ^ 2 + distSq (fromCrop gs idx) cs
          rw [e2, Nat.cast_add, Int.toNat_of_nonneg h0]
          ring

/-- The region of the crop selects the values of the region of the image. -/
theorem cropped_region {a b : NDArray Rat} {ranges : List Range} (h : Cropped a b ranges) (kind : RKind)
    (hk : kind = .cubic ∨ kind = .spherical) (hd : a.ndim = 2 ∨ a.ndim = 3) (hlast : a.ndim = 3 → 3 < b.lastDim) {r : Int} (hr : 0 ≤ r) {c : List Int}
    (hc : Spec.RegionInside kind r ranges c) :
    ∃ ra rb, selectRegion a kind c r none = .ok ra ∧ selectRegion b kind (Spec.inCrop ranges c) r none = .ok rb ∧
      rb.values = ra.values := by
  have hl : a.shape.length = ranges.length := h.inside.length_eq
  have hcl : c.length = ranges.length := hc.length_eq.symm
  have hcl' : (Spec.inCrop ranges c).length = ranges.length := by
    unfold Spec.inCrop; rw [List.length_zipWith, hcl, min_self]
  have hbn : b.ndim = a.ndim := by unfold NDArray.ndim; rw [h.shape, List.length_map, hl]
  have hlasta : a.ndim = 3 → 3 < a.lastDim := by
    intro h3
    have hb := hlast h3
    unfold NDArray.lastDim at hb ⊢
    rw [h.shape] at hb
    have hin := h.inside
    obtain ⟨n0, n1, n2, e⟩ : ∃ n0 n1 n2, a.shape = [n0, n1, n2] := List.length_eq_three.1 h3
    obtain ⟨g0, g1, g2, eg⟩ : ∃ g0 g1 g2, ranges = [g0, g1, g2] := List.length_eq_three.1 (by rw [← hl]; exact h3)
    rw [e] at hin ⊢
    rw [eg] at hin hb
    simp only [List.forall₂_cons] at hin
    obtain ⟨-, -, ⟨k1, k2, k3⟩, -⟩ := hin
    simp only [List.map_cons, List.map_nil, List.getLast?_cons_cons, List.getLast?_singleton, Option.getD_some] at hb ⊢
    omega
  have hplane : ∀ v : NDArray Rat, v.ndim = a.ndim → (a.ndim = 3 → 3 < v.lastDim) →
      ∀ cc : List Int, cc.length = ranges.length →
      toCubic v cc r = .ok ⟨v, boxMask v.shape cc r⟩ ∧ toSpherical v cc r = .ok ⟨v, fun idx => decide (distSq idx cc ≤ r ^ 2)⟩ := by
    intro v hv hv3 cc hcc
    rcases hd with hd | hd
    · have e1 : isColour v = false := by unfold isColour; rw [hv, hd]; rfl
      have e2 : isPlane v = true := by unfold isPlane; rw [hv, hd]; rfl
      have e3 : cc.length = 2 := by rw [hcc, ← hl]; exact hd
      unfold toCubic toSpherical
      simp [e1, e2, e3]
    · have h3 := hv3 hd
      have e1 : isColour v = false := by
        unfold isColour
        rw [Bool.and_eq_false_iff]; right
        rw [beq_eq_false_iff_ne]; omega
      have e2 : isPlane v = false := by unfold isPlane; rw [e1, hv, hd]; rfl
      have e3 : cc.length = 3 := by rw [hcc, ← hl]; exact hd
      have e4 : v.ndim = 3 := by rw [hv, hd]
      unfold toCubic toSpherical
      simp [e2, e3, e4, h3]
  obtain ⟨ca, sa⟩ := hplane a rfl hlasta c hcl
  obtain ⟨cb, sb⟩ := hplane b hbn hlast _ hcl'
  rcases hk with rfl | rfl
  · refine ⟨_, _, ca, cb, cropped_values h _ _ ?_ ?_⟩
    · intro idx hi hm
      exact (box_inRanges hr h.inside (c := c) (by simpa [Spec.RegionInside] using hc) idx).1 hi hm
    · intro idx hi
      rw [h.shape] at hi ⊢
      exact (box_inRanges hr h.inside (c := c) (by simpa [Spec.RegionInside] using hc) idx).2 hi
  · have h0 := forall₂_left_nonneg h.inside
    refine ⟨_, _, sa, sb, cropped_values h _ _ ?_ ?_⟩
    · intro idx hi hm
      exact (ball_inRanges hr h0 (c := c) (by simpa [Spec.RegionInside] using hc) idx).1 (of_decide_eq_true hm)
    · intro idx hi
      rw [(ball_inRanges hr h0 (c := c) (by simpa [Spec.RegionInside] using hc) idx).2]

/-- Coordinates as arguments. -/
def Spec.given (c : List Int) : List NumArg := c.map .int

theorem centreInts_given (c : List Int) : centreInts (Spec.given c) = c := by
  unfold centreInts Spec.given
  rw [List.filterMap_map]
  exact List.filterMap_some

theorem checkBorder_given {r : Int} {c : List Int} (h : ∀ ci ∈ c, 0 ≤ |ci| - r) :
    checkBorder (Spec.given c) (.int r) = .ok () := by
  unfold Spec.given
  induction c with
  | nil => rfl
  | cons ci cs ih =>
    have h1 : tooClose ci (.int r) = .ok false := by
      unfold tooClose
      have := h ci (by simp)
      simp only
      rw [decide_eq_false (by omega)]
    rw [List.map_cons, checkBorder, h1]
    exact ih (fun ci hc => h ci (List.mem_cons_of_mem _ hc))

theorem border_inside {kind : RKind} {r : Int} {ranges : List Range} {c : List Int}
    (h0 : ∀ g ∈ ranges, 0 ≤ g.1) (h : Spec.RegionInside kind r ranges c) :
    (∀ ci ∈ c, 0 ≤ |ci| - r) ∧ ∀ ci ∈ Spec.inCrop ranges c, 0 ≤ |ci| - r := by
  unfold Spec.RegionInside at h
  unfold Spec.inCrop
  induction h with
  | nil => simp
  | @cons g ci gs cs hg _ ih =>
    obtain ⟨i1, i2⟩ := ih (fun g hg => h0 g (List.mem_cons_of_mem _ hg))
    have hg0 := h0 g (by simp)
    constructor
    · intro c hc
      rcases List.mem_cons.1 hc with rfl | hc
      · have := le_abs_self c; omega
      · exact i1 c hc
    · intro c hc
      rw [List.zipWith_cons_cons] at hc
      rcases List.mem_cons.1 hc with rfl | hc
      · have := le_abs_self (ci - g.1); omega
      · exact i2 c hc

theorem crop_facts {a b : NDArray Rat} {x y : Range} {z : Option Range}
    (h : Cropped a b (Spec.ranges x y z)) : b.ndim = a.ndim ∧ (a.ndim = 2 ∨ a.ndim = 3) ∧ b.lastDim ≤ a.lastDim := by
  have hl : a.shape.length = (Spec.ranges x y z).length := h.inside.length_eq
  have hin := h.inside
  refine ⟨by unfold NDArray.ndim; rw [h.shape, List.length_map, hl], ?_, ?_⟩
  · unfold NDArray.ndim
    rw [hl]
    cases z
    · left; rfl
    · right; rfl
  · unfold NDArray.lastDim
    rw [h.shape]
    cases z with
    | none =>
      obtain ⟨n0, n1, e⟩ : ∃ n0 n1, a.shape = [n0, n1] := List.length_eq_two.1 hl
      rw [e] at hin ⊢
      simp only [Spec.ranges, List.forall₂_cons] at hin
      obtain ⟨-, ⟨k1, k2, k3⟩, -⟩ := hin
      simp only [Spec.ranges, List.map_cons, List.map_nil, List.getLast?_cons_cons, List.getLast?_singleton, Option.getD_some]
      omega
    | some z =>
      obtain ⟨n0, n1, n2, e⟩ : ∃ n0 n1 n2, a.shape = [n0, n1, n2] := List.length_eq_three.1 hl
      rw [e] at hin ⊢
      simp only [Spec.ranges, List.forall₂_cons] at hin
      obtain ⟨-, -, ⟨k1, k2, k3⟩, -⟩ := hin
      simp only [Spec.ranges, List.map_cons, List.map_nil, List.getLast?_cons_cons, List.getLast?_singleton, Option.getD_some]
      omega

/-- **C151 (partial).** The SNR of a cubic or spherical region is the same in the image and in every
crop of it that contains the region. Missing: crops with at most three pixels in the last direction,
see `C151_snr_refuted`. -/
theorem C151_snr_partial (a b : NDArray Rat) (x y : Range) (z : Option Range)
    (hin : List.Forall₂ InsideAxis a.shape (Spec.ranges x y z)) (h : (cropImage a x y z).val = .ok b)
    (hlast : 3 < b.lastDim) (kind : String) (hk : regionKind kind = .cubic ∨ regionKind kind = .spherical)
    (r : Int) (c : List Int) (hc : Spec.RegionInside (regionKind kind) r (Spec.ranges x y z) c) :
    snr b { center := some (Spec.given (Spec.inCrop (Spec.ranges x y z) c)), radius := .int r, regionType := kind } =
      snr a { center := some (Spec.given c), radius := .int r, regionType := kind } := by
  have hcr := cropImage_cropped hin h
  obtain ⟨hn, hd, hle⟩ := crop_facts hcr
  have h0 := forall₂_left_nonneg hin
  obtain ⟨b1, b2⟩ := border_inside h0 hc
  have col : ∀ v : NDArray Rat, 3 < v.lastDim → isColour v = false := by
    intro v hv
    unfold isColour
    rw [Bool.and_eq_false_iff]; right
    rw [beq_eq_false_iff_ne]; omega
  rw [snr_gray_eq _ _ rfl (col b hlast), snr_gray_eq _ _ rfl (col a (by omega))]
  unfold snrChecks
  simp only [checkBorder_given b1, checkBorder_given b2, centreInts_given, bind, Except.bind]
  unfold checkRadius
  by_cases hr : r ≤ 0
  · simp [hr]
  · have hlen : c.length = a.ndim := by
      rw [← hc.length_eq, ← hin.length_eq]; rfl
    have hlen' : (Spec.inCrop (Spec.ranges x y z) c).length = a.ndim := by
      unfold Spec.inCrop
      rw [List.length_zipWith, hlen, ← hin.length_eq]; exact min_self _
    have e1 : (Spec.given c).length = a.ndim := by unfold Spec.given; rw [List.length_map, hlen]
    have e2 : (Spec.given (Spec.inCrop (Spec.ranges x y z) c)).length = a.ndim := by unfold Spec.given; rw [List.length_map, hlen']
    obtain ⟨ra, rb, s1, s2, s3⟩ := cropped_region hcr _ hk hd (fun _ => hlast) (by omega) hc
    rw [if_neg (show ¬ b.lastDim = 3 by omega), if_neg (show ¬ a.lastDim = 3 by omega), e1, e2, hn]
    simp only [hr, if_false, ne_eq, not_true_eq_false, s1, s2, s3]

theorem sampleRows_crop : List.Forall₂ InsideAxis sampleRows.shape (Spec.ranges (1, 5) (2, 6) none) := by
  simp [sampleRows, Spec.ranges, InsideAxis]

/-- The region around row 2 and column 3 is found around row 1 and column 1 of the crop. -/
example : snr (sliceArray sampleRows [(1, 5), (2, 6)]) { center := some [.int 1, .int 1], radius := .int 1 } =
    snr sampleRows { center := some [.int 2, .int 3], radius := .int 1 } :=
  C151_snr_partial sampleRows _ (1, 5) (2, 6) none sampleRows_crop rfl (by decide) "cubic" (.inl rfl) 1 [2, 3]
    (by simp [Spec.RegionInside, Spec.ranges, regionKind])

/-- **C151, refuted**: after cropping to three columns the same region has no SNR. -/
theorem C151_snr_refuted : ∃ v b, snr sampleRows { center := some [.int 1, .int 1], radius := .int 1 } = .ok v ∧
    (cropImage sampleRows (0, 5) (0, 3) none).val = .ok b ∧
    ∃ m, snr b { center := some [.int 1, .int 1], radius := .int 1 } = .error (.valueError m) := by
  have hval := (C55_region sampleRows { center := some [.int 1, .int 1], radius := .int 1 } rfl rfl [1, 1] 1
    ⟨sampleRows, boxMask [6, 6] [1, 1] 1⟩ rfl rfl (by rw [sampleRows_background]; simp)).2.2 (by
    rw [sampleRows_background]
    rintro ⟨v, h⟩
    have h0 := h 0 (by simp)
    have h1 := h 1 (by simp)
    rw [← h0] at h1
    norm_num at h1)
  exact ⟨_, _, hval, rfl, _, rfl⟩

/-- **C151 (partial).** Likewise for the CNR of two regions, except for volumes with at most three
pixels in the last direction. -/
theorem C151_cnr_partial (a b : NDArray Rat) (x y : Range) (z : Option Range)
    (hin : List.Forall₂ InsideAxis a.shape (Spec.ranges x y z)) (h : (cropImage a x y z).val = .ok b)
    (hlast : a.ndim = 3 → 3 < b.lastDim) (kind : String)
    (hk : regionKind kind = .cubic ∨ regionKind kind = .spherical) (r : Int) (s g : List Int)
    (hs : Spec.RegionInside (regionKind kind) r (Spec.ranges x y z) s)
    (hg : Spec.RegionInside (regionKind kind) r (Spec.ranges x y z) g) :
    cnr b { signal := Spec.given (Spec.inCrop (Spec.ranges x y z) s),
            background := Spec.given (Spec.inCrop (Spec.ranges x y z) g), radius := .int r, regionType := kind } =
      cnr a { signal := Spec.given s, background := Spec.given g, radius := .int r, regionType := kind } := by
  have hcr := cropImage_cropped hin h
  obtain ⟨hn, hd, hle⟩ := crop_facts hcr
  have h0 := forall₂_left_nonneg hin
  obtain ⟨b1, b2⟩ := border_inside h0 hs
  obtain ⟨b3, b4⟩ := border_inside h0 hg
  unfold cnr cnrSelect cnrRegions
  simp only [Bool.false_eq_true, if_false, checkBorder_given b1, checkBorder_given b2, checkBorder_given b3,
    checkBorder_given b4, centreInts_given, bind, Except.bind]
  unfold checkRadius
  by_cases hr : r ≤ 0
  · simp [hr]
  · have hlen : ∀ c, Spec.RegionInside (regionKind kind) r (Spec.ranges x y z) c →
        (Spec.given c).length = a.ndim ∧ (Spec.given (Spec.inCrop (Spec.ranges x y z) c)).length = a.ndim := by
      intro c hc
      have e : c.length = a.ndim := by rw [← hc.length_eq, ← hin.length_eq]; rfl
      unfold Spec.given
      rw [List.length_map, List.length_map]
      refine ⟨e, ?_⟩
      unfold Spec.inCrop
      rw [List.length_zipWith, e, ← hin.length_eq]; exact min_self _
    obtain ⟨sa, sb, s1, s2, s3⟩ := cropped_region hcr _ hk hd hlast (by omega) hs
    obtain ⟨ga, gb, g1, g2, g3⟩ := cropped_region hcr _ hk hd hlast (by omega) hg
    simp only [hr, if_false, (hlen s hs).1, (hlen s hs).2, (hlen g hg).1, (hlen g hg).2, hn, ne_eq, not_true_eq_false,
      or_self, s1, s2, s3, g1, g2, g3]

example : cnr (sliceArray sampleRows [(1, 5), (2, 6)])
      { signal := [.int 2, .int 2], background := [.int 1, .int 1], radius := .int 1 } =
    cnr sampleRows { signal := [.int 3, .int 4], background := [.int 2, .int 3], radius := .int 1 } :=
  C151_cnr_partial sampleRows _ (1, 5) (2, 6) none sampleRows_crop rfl (fun h => by cases h) "cubic" (.inl rfl) 1 [3, 4] [2, 3]
    (by simp [Spec.RegionInside, Spec.ranges, regionKind]) (by simp [Spec.RegionInside, Spec.ranges, regionKind])

/-- A volume in which all values of the first plane of the last axis are 0, of the second 1, and so on. -/
def planes : NDArray Rat := ⟨[6, 6, 6], fun i => i.getD 2 0⟩

/-- **C151, refuted**: the regions of a volume, cropped to three slices, have no CNR. -/
theorem C151_cnr_refuted :
    cnr planes { signal := [.int 4, .int 4, .int 2], background := [.int 1, .int 1, .int 2], radius := .int 1 } = .ok 0 ∧
    ∃ b, (cropImage planes (0, 5) (0, 5) (some (1, 4))).val = .ok b ∧
      ∃ m, cnr b { signal := [.int 4, .int 4, .int 1], background := [.int 1, .int 1, .int 1], radius := .int 1 } =
        .error (.valueError m) := by
  refine ⟨?_, _, rfl, _, rfl⟩
  have hsel : cnrSelect planes { signal := [.int 4, .int 4, .int 2], background := [.int 1, .int 1, .int 2], radius := .int 1 } =
    .ok (⟨planes, boxMask [6, 6, 6] [4, 4, 2] 1⟩, ⟨planes, boxMask [6, 6, 6] [1, 1, 2] 1⟩) := rfl
  have h1 : (⟨planes, boxMask [6, 6, 6] [4, 4, 2] 1⟩ : Region Rat).values = [1, 2, 1, 2, 1, 2, 1, 2] := by decide +kernel
  have h2 : (⟨planes, boxMask [6, 6, 6] [1, 1, 2] 1⟩ : Region Rat).values = [1, 2, 1, 2, 1, 2, 1, 2] := by decide +kernel
  exact C54_zero _ _ _ _ hsel (by rw [h2]; simp) (by rw [h1]; simp) (.inr (by rw [h1, h2]))

end Viqa
