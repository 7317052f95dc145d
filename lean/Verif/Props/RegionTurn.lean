import Verif.Props.Orientation
import Verif.Props.CropNoise

/-!
C210: SNR and CNR of a region if the image is flipped, transposed or rotated together with the
centre of the region.
-/

namespace Viqa

/-- `a'` comes from `a` by flipping axes and exchanging axes; `f` moves the centres along. In a flip of an
axis with `n` pixels the coordinate `x` becomes `n - e - x`: for `e = 1` the pixel `x` itself is moved, for
`e = 0` the edge between the pixels `x - 1` and `x`. -/
inductive Spec.TurnedWith (e : Int) (a : NDArray Rat) : NDArray Rat → (List Int → List Int) → Prop
  | start : TurnedWith e a a id
  | flip (a' : NDArray Rat) (f : List Int → List Int) (k : Nat) : TurnedWith e a a' f → k < a'.ndim →
      TurnedWith e a (flipAxis a' k) (fun c => (f c).modify k (fun x => ((a'.shape.getD k 0 : Nat) : Int) - e - x))
  | swap (a' : NDArray Rat) (f : List Int → List Int) (i j : Nat) : TurnedWith e a a' f → i < a'.ndim → j < a'.ndim →
      TurnedWith e a (swapAxes a' i j) (fun c => swapAt (f c) i j)

/-- The region with centre `c` and radius `r` lies within the image; it ends with the pixel `c + r` for
`e = 1` and with the pixel `c + r - 1` for `e = 0`. -/
def Spec.RegionFits (e r : Int) (sh : List Nat) (c : List Int) : Prop :=
  List.Forall₂ (fun (n : Nat) ci => r ≤ ci ∧ ci + r + e ≤ n) sh c

/-- What stays in place: the middle pixel of spheres, the middle edge of cubes. -/
def Spec.middle : RKind → Int
  | .cubic => 0
  | _ => 1

/-! ### Offsets from the centre -/

/-- Position relative to the centre. -/
def fromCentre (idx : List Nat) (c : List Int) : List Int := List.zipWith (fun (i : Nat) x => (i : Int) - x) idx c

/-- Membership as a function of the position relative to the centre. -/
def inRegion (kind : RKind) (r : Int) (d : List Int) : Bool :=
  match kind with
  | .cubic => (d.map (fun x => decide (-r ≤ x ∧ x < r))).all id
  | _ => decide ((d.map (· ^ 2)).sum ≤ r ^ 2)

theorem map_modify_same {α β : Type} (h : α → β) (g : α → α) (hg : ∀ x, h (g x) = h x) (l : List α) (k : Nat) :
    (l.modify k g).map h = l.map h := by
  apply List.ext_getElem?
  intro j
  rw [List.getElem?_map, List.getElem?_map, List.getElem?_modify]
  split
  · cases l[j]? <;> simp [hg]
  · cases l[j]? <;> simp

theorem inRegion_flip (kind : RKind) (r : Int) (d : List Int) (k : Nat) :
    inRegion kind r (d.modify k (fun x => -x - 1 + Spec.middle kind)) = inRegion kind r d := by
  unfold inRegion
  cases kind with
  | cubic =>
    simp only [Spec.middle]
    rw [map_modify_same]
    intro x
    rw [decide_eq_decide]
    omega
  | spherical | full | original | invalid =>
    have e : (d.modify k (fun x => -x - 1 + 1)).map (· ^ 2) = d.map (· ^ 2) := map_modify_same _ _ (fun x => by ring) d k
    show decide (((d.modify k (fun x => -x - 1 + 1)).map (· ^ 2)).sum ≤ r ^ 2) = _
    rw [e]

theorem inRegion_perm (kind : RKind) (r : Int) {d d' : List Int} (h : d.Perm d') :
    inRegion kind r d = inRegion kind r d' := by
  unfold inRegion
  cases kind with
  | cubic => exact (h.map _).all_eq
  | spherical | full | original | invalid => simp only; rw [(h.map _).sum_eq]

theorem distSq_eq (idx : List Nat) (c : List Int) : distSq idx c = ((fromCentre idx c).map (· ^ 2)).sum := by
  induction idx generalizing c with
  | nil => cases c <;> simp [distSq, fromCentre]
  | cons i idx ih =>
    cases c with
    | nil => simp [distSq, fromCentre]
    | cons x c =>
      have := ih c
      unfold fromCentre at this ⊢
      simp [distSq, this]

theorem boxMask_eq (sh : List Nat) (c : List Int) (r : Int) (idx : List Nat) (hr : 0 < r)
    (hc : List.Forall₂ (fun (n : Nat) ci => r ≤ ci ∧ ci + r + 0 ≤ n) sh c) (hi : InShape sh idx) :
    boxMask sh c r idx = inRegion .cubic r (fromCentre idx c) := by
  induction hc generalizing idx with
  | nil => cases idx <;> simp [boxMask, inRegion, fromCentre]
  | @cons n x sh c hx _ ih =>
    cases idx with
    | nil => exact absurd hi (by simp [InShape])
    | cons i idx =>
      have := ih idx hi.2
      unfold inRegion fromCentre at this ⊢
      simp only [boxMask, List.zipWith_cons_cons, List.map_cons, List.all_cons, id_eq]
      rw [this]
      congr 1
      rw [Bool.eq_iff_iff, inSlice_iff n _ _ i (by omega) (by omega) hi.1, decide_eq_true_iff]
      omega

theorem fromCentre_flip (sh : List Nat) (k : Nat) (idx : List Nat) (c : List Int) (e : Int) (hi : InShape sh idx) :
    fromCentre (flipIndex sh k idx) (c.modify k (fun x => ((sh.getD k 0 : Nat) : Int) - e - x)) =
      (fromCentre idx c).modify k (fun x => -x - 1 + e) := by
  rw [inShape_iff] at hi
  apply List.ext_getElem?
  intro j
  unfold fromCentre
  rw [List.getElem?_zipWith, List.getElem?_modify, List.getElem?_modify, List.getElem?_zipWith, flipIndex_getElem?]
  by_cases hk : k = j
  · subst hk
    simp only [if_true]
    cases h1 : idx[k]? with
    | none => simp
    | some i =>
      cases h2 : c[k]? with
      | none => simp
      | some x =>
        have hlt : k < sh.length := by rw [← hi.1]; exact (List.getElem?_eq_some_iff.1 h1).1
        have := hi.2 k i sh[k] h1 (List.getElem?_eq_getElem hlt)
        simp [List.getElem?_eq_getElem hlt]
        omega
  · simp only [hk, if_false]
    cases idx[j]? <;> cases c[j]? <;> simp

theorem fromCentre_swap (idx : List Nat) (c : List Int) (i j : Nat) (h : c.length = idx.length)
    (hi : i < idx.length) (hj : j < idx.length) :
    fromCentre (swapAt idx i j) (swapAt c i j) = swapAt (fromCentre idx c) i j := by
  have hl : (fromCentre idx c).length = idx.length := by unfold fromCentre; rw [List.length_zipWith, h, min_self]
  apply List.ext_getElem?
  intro k
  rw [swapAt_getElem? _ _ _ _ (by omega) (by omega)]
  unfold fromCentre
  rw [List.getElem?_zipWith, List.getElem?_zipWith, swapAt_getElem? _ _ _ _ hi hj, swapAt_getElem? _ _ _ _ (by omega) (by omega)]

/-! ### Values of the region -/

/-- The values of the pixels in the region. -/
def regionValues (kind : RKind) (r : Int) (a : NDArray Rat) (c : List Int) : List Rat :=
  ((indices a.shape).filter (fun i => inRegion kind r (fromCentre i c))).map a.get

theorem regionValues_moved (kind : RKind) (r : Int) (a a' : NDArray Rat) (c c' : List Int) (T : List Nat → List Nat)
    (hall : ((indices a.shape).map T).Perm (indices a'.shape)) (hget : ∀ i, InShape a.shape i → a'.get (T i) = a.get i)
    (hin : ∀ i, InShape a.shape i → inRegion kind r (fromCentre (T i) c') = inRegion kind r (fromCentre i c)) :
    (regionValues kind r a' c').Perm (regionValues kind r a c) := by
  unfold regionValues
  refine ((hall.symm.filter _).map _).trans ?_
  rw [List.filter_map, List.map_map]
  rw [List.filter_congr (q := fun i => inRegion kind r (fromCentre i c))
    (fun i hi => by simpa using hin i ((mem_indices _ _).1 hi))]
  rw [List.map_congr_left (f := a'.get ∘ T) (g := a.get)
    (fun i hi => hget i ((mem_indices _ _).1 (List.mem_filter.1 hi).1))]

theorem within_flip {e r : Int} {sh : List Nat} {c : List Int} (h : Spec.RegionFits e r sh c) (k : Nat) :
    Spec.RegionFits e r sh (c.modify k (fun x => ((sh.getD k 0 : Nat) : Int) - e - x)) := by
  unfold Spec.RegionFits at h ⊢
  induction h generalizing k with
  | nil => cases k <;> simp
  | @cons n x sh c hx _ ih =>
    cases k with
    | zero =>
      simp only [List.modify_zero_cons, List.getD_cons_zero]
      refine .cons (by omega) ?_
      assumption
    | succ k =>
      simp only [List.modify_succ_cons, List.getD_cons_succ]
      exact .cons hx (ih k)

theorem within_iff (e r : Int) (sh : List Nat) (c : List Int) : Spec.RegionFits e r sh c ↔
    c.length = sh.length ∧ ∀ (k n : Nat) (x : Int), sh[k]? = some n → c[k]? = some x → r ≤ x ∧ x + r + e ≤ n := by
  unfold Spec.RegionFits
  rw [List.forall₂_iff_get]
  constructor
  · rintro ⟨hl, h⟩
    refine ⟨hl.symm, fun k n x h1 h2 => ?_⟩
    obtain ⟨k1, rfl⟩ := List.getElem?_eq_some_iff.1 h1
    obtain ⟨k2, rfl⟩ := List.getElem?_eq_some_iff.1 h2
    exact h k k1 k2
  · rintro ⟨hl, h⟩
    exact ⟨hl.symm, fun k k1 k2 => h k _ _ (List.getElem?_eq_getElem k1) (List.getElem?_eq_getElem k2)⟩

theorem within_swap {e r : Int} {sh : List Nat} {c : List Int} (h : Spec.RegionFits e r sh c) (i j : Nat)
    (hi : i < sh.length) (hj : j < sh.length) : Spec.RegionFits e r (swapAt sh i j) (swapAt c i j) := by
  rw [within_iff] at h ⊢
  refine ⟨by rw [length_swapAt, length_swapAt, h.1], fun k n x h1 h2 => ?_⟩
  rw [swapAt_getElem? _ _ _ _ (by omega) (by omega)] at h1 h2
  exact h.2 _ n x h1 h2

/-- Shape, place and values of the region after any number of turns. -/
theorem turnedWith_region {kind : RKind} {r : Int} {a a' : NDArray Rat} {f : List Int → List Int}
    (h : Spec.TurnedWith (Spec.middle kind) a a' f) (hn : ∀ n ∈ a.shape, 3 < n) (c : List Int)
    (hc : Spec.RegionFits (Spec.middle kind) r a.shape c) :
    a'.ndim = a.ndim ∧ (∀ n ∈ a'.shape, 3 < n) ∧ Spec.RegionFits (Spec.middle kind) r a'.shape (f c) ∧
      (regionValues kind r a' (f c)).Perm (regionValues kind r a c) := by
  induction h with
  | start => exact ⟨rfl, hn, hc, List.Perm.refl _⟩
  | flip a1 f k _ hk ih =>
    obtain ⟨h1, h2, h3, h4⟩ := ih
    refine ⟨h1, h2, within_flip h3 k, List.Perm.trans ?_ h4⟩
    refine regionValues_moved kind r a1 _ _ _ (flipIndex a1.shape k) (flip_turn a1.shape k).all ?_ ?_
    · intro i hi
      show a1.get (flipIndex a1.shape k (flipIndex a1.shape k i)) = a1.get i
      rw [flipIndex_invol _ _ _ hi]
    · intro i hi
      rw [fromCentre_flip a1.shape k i (f c) (Spec.middle kind) hi, inRegion_flip]
  | swap a1 f i j _ hi hj ih =>
    obtain ⟨h1, h2, h3, h4⟩ := ih
    have hi' : i < a1.shape.length := hi
    have hj' : j < a1.shape.length := hj
    refine ⟨?_, ?_, within_swap h3 i j hi hj, List.Perm.trans ?_ h4⟩
    · rw [← h1]
      show (swapAt a1.shape i j).length = _
      rw [length_swapAt]; rfl
    · intro n hn'
      exact h2 n ((swapAt_perm a1.shape i j hi hj).mem_iff.1 hn')
    · refine regionValues_moved kind r a1 _ _ _ (swapAt · i j) (swap_turn a1.shape i j hi hj).all ?_ ?_
      · intro p hp
        have hl := ((inShape_iff _ _).1 hp).1
        show a1.get (swapAt (swapAt p i j) i j) = a1.get p
        rw [swapAt_invol _ _ _ (by omega) (by omega)]
      · intro p hp
        have hl := ((inShape_iff _ _).1 hp).1
        have hcl := ((within_iff _ _ _ _).1 h3).1
        rw [fromCentre_swap p (f c) i j (by omega) (by omega) (by omega)]
        refine inRegion_perm kind r (swapAt_perm _ i j ?_ ?_) <;>
        · unfold fromCentre
          rw [List.length_zipWith]
          omega

/-! ### From the region to the scores -/

theorem meanQ_perm {l l' : List Rat} (h : l.Perm l') : meanQ l = meanQ l' := by
  unfold meanQ
  rw [h.sum_eq, h.length_eq]

theorem varQ_perm {l l' : List Rat} (h : l.Perm l') : varQ l = varQ l' := by
  unfold varQ
  rw [meanQ_perm h, (h.map _).sum_eq, h.length_eq]

theorem perm_nil_iff {l l' : List Rat} (h : l.Perm l') : l = [] ↔ l' = [] := by
  rw [← List.length_eq_zero_iff, h.length_eq, List.length_eq_zero_iff]

theorem snrOf_perm {l l' : List Rat} (h : l.Perm l') : snrOf l = snrOf l' := by
  unfold snrOf stdQ
  simp only [meanQ_perm h, varQ_perm h, perm_nil_iff h]

theorem cnrOf_perm {s s' b b' : List Rat} (hs : s.Perm s') (hb : b.Perm b') : cnrOf s b = cnrOf s' b' := by
  unfold cnrOf stdQ
  simp only [meanQ_perm hs, meanQ_perm hb, varQ_perm hb, perm_nil_iff hs, perm_nil_iff hb]

theorem lastDim_large {a : NDArray Rat} (hd : a.ndim = 2 ∨ a.ndim = 3) (hn : ∀ n ∈ a.shape, 3 < n) : 3 < a.lastDim := by
  unfold NDArray.lastDim
  cases h : a.shape.getLast? with
  | none =>
    rw [List.getLast?_eq_none_iff] at h
    unfold NDArray.ndim at hd
    rw [h] at hd
    simp at hd
  | some n => exact hn n (List.mem_of_getLast? h)

/-- The region selected in the code. -/
theorem selectRegion_within {kind : RKind} {r : Int} (hr : 0 < r) (hk : kind = .cubic ∨ kind = .spherical)
    {a : NDArray Rat} (hd : a.ndim = 2 ∨ a.ndim = 3) (hn : ∀ n ∈ a.shape, 3 < n) {c : List Int}
    (hc : Spec.RegionFits (Spec.middle kind) r a.shape c) :
    ∃ reg, selectRegion a kind c r none = .ok reg ∧ reg.values = regionValues kind r a c := by
  have hlast := lastDim_large hd hn
  have hcl : c.length = a.ndim := ((within_iff _ _ _ _).1 hc).1
  have hcol : isColour a = false := by
    unfold isColour
    rw [Bool.and_eq_false_iff]; right
    rw [beq_eq_false_iff_ne]; omega
  have hsel : toCubic a c r = .ok ⟨a, boxMask a.shape c r⟩ ∧
      toSpherical a c r = .ok ⟨a, fun idx => decide (distSq idx c ≤ r ^ 2)⟩ := by
    rcases hd with hd | hd
    · have e2 : isPlane a = true := by unfold isPlane; rw [hd]; rfl
      unfold toCubic toSpherical
      simp [hcol, e2, hcl, hd]
    · have e2 : isPlane a = false := by unfold isPlane; rw [hcol, hd]; rfl
      unfold toCubic toSpherical
      simp [e2, hcl, hd, hlast]
  rcases hk with rfl | rfl
  · refine ⟨_, hsel.1, ?_⟩
    unfold Region.values Region.selected regionValues
    simp only
    rw [List.filter_congr]
    intro i hi
    exact boxMask_eq a.shape c r i hr hc ((mem_indices _ _).1 hi)
  · refine ⟨_, hsel.2, ?_⟩
    unfold Region.values Region.selected regionValues
    simp only
    rw [List.filter_congr]
    intro i _
    rw [distSq_eq]
    rfl

theorem within_border {e r : Int} {sh : List Nat} {c : List Int} (h : Spec.RegionFits e r sh c) : ∀ ci ∈ c, 0 ≤ |ci| - r := by
  intro x hx
  obtain ⟨k, hk⟩ := List.mem_iff_getElem?.1 hx
  rw [within_iff] at h
  have hlt : k < sh.length := by rw [← h.1]; exact (List.getElem?_eq_some_iff.1 hk).1
  have := (h.2 k _ x (List.getElem?_eq_getElem hlt) hk).1
  have := le_abs_self x
  omega

/-- **C210 (partial).** The SNR of a region stays the same if the image is flipped, transposed or rotated and
the centre is moved along: the middle pixel of a sphere, the middle edge of a cube. Missing: cubes moved with
their centre pixel (`C210_cubic_refuted`), regions that extend beyond the image (`C210_border_refuted`) and
images with at most three pixels in one direction (`C210_narrow_refuted`). -/
theorem C210_snr_partial (a a' : NDArray Rat) (f : List Int → List Int) (kind : String)
    (hk : regionKind kind = .cubic ∨ regionKind kind = .spherical)
    (h : Spec.TurnedWith (Spec.middle (regionKind kind)) a a' f) (hd : a.ndim = 2 ∨ a.ndim = 3)
    (hn : ∀ n ∈ a.shape, 3 < n) (r : Int) (c : List Int) (hc : Spec.RegionFits (Spec.middle (regionKind kind)) r a.shape c) :
    snr a' { center := some (Spec.given (f c)), radius := .int r, regionType := kind } =
      snr a { center := some (Spec.given c), radius := .int r, regionType := kind } := by
  obtain ⟨h1, h2, h3, h4⟩ := turnedWith_region h hn c hc
  have hd' : a'.ndim = 2 ∨ a'.ndim = 3 := by rw [h1]; exact hd
  have l1 := lastDim_large hd hn
  have l2 := lastDim_large hd' h2
  have col : ∀ v : NDArray Rat, 3 < v.lastDim → isColour v = false := by
    intro v hv
    unfold isColour
    rw [Bool.and_eq_false_iff]; right
    rw [beq_eq_false_iff_ne]; omega
  rw [snr_gray_eq _ _ rfl (col a' l2), snr_gray_eq _ _ rfl (col a l1)]
  unfold snrChecks
  simp only [checkBorder_given (within_border hc), checkBorder_given (within_border h3), centreInts_given, bind, Except.bind]
  unfold checkRadius
  by_cases hr : r ≤ 0
  · simp [hr]
  · have e1 : (Spec.given c).length = a.ndim := by
      unfold Spec.given; rw [List.length_map]; exact ((within_iff _ _ _ _).1 hc).1
    have e2 : (Spec.given (f c)).length = a'.ndim := by
      unfold Spec.given; rw [List.length_map]; exact ((within_iff _ _ _ _).1 h3).1
    obtain ⟨ra, s1, v1⟩ := selectRegion_within (by omega) hk hd hn hc
    obtain ⟨rb, s2, v2⟩ := selectRegion_within (by omega) hk hd' h2 h3
    rw [if_neg (show ¬ a'.lastDim = 3 by omega), if_neg (show ¬ a.lastDim = 3 by omega), e1, e2]
    simp only [hr, if_false, ne_eq, not_true_eq_false, s1, s2, v1, v2, snrOf_perm h4]

/-- **C210 (partial).** Likewise for the CNR. -/
theorem C210_cnr_partial (a a' : NDArray Rat) (f : List Int → List Int) (kind : String)
    (hk : regionKind kind = .cubic ∨ regionKind kind = .spherical)
    (h : Spec.TurnedWith (Spec.middle (regionKind kind)) a a' f) (hd : a.ndim = 2 ∨ a.ndim = 3)
    (hn : ∀ n ∈ a.shape, 3 < n) (r : Int) (s b : List Int) (hs : Spec.RegionFits (Spec.middle (regionKind kind)) r a.shape s)
    (hb : Spec.RegionFits (Spec.middle (regionKind kind)) r a.shape b) :
    cnr a' { signal := Spec.given (f s), background := Spec.given (f b), radius := .int r, regionType := kind } =
      cnr a { signal := Spec.given s, background := Spec.given b, radius := .int r, regionType := kind } := by
  obtain ⟨h1, h2, s3, s4⟩ := turnedWith_region h hn s hs
  obtain ⟨-, -, b3, b4⟩ := turnedWith_region h hn b hb
  have hd' : a'.ndim = 2 ∨ a'.ndim = 3 := by rw [h1]; exact hd
  unfold cnr cnrSelect cnrRegions
  simp only [Bool.false_eq_true, if_false, checkBorder_given (within_border hs), checkBorder_given (within_border s3),
    checkBorder_given (within_border hb), checkBorder_given (within_border b3), centreInts_given, bind, Except.bind]
  unfold checkRadius
  by_cases hr : r ≤ 0
  · simp [hr]
  · have len : ∀ (v : NDArray Rat) (c : List Int), Spec.RegionFits (Spec.middle (regionKind kind)) r v.shape c →
        (Spec.given c).length = v.ndim := by
      intro v c hc
      unfold Spec.given; rw [List.length_map]; exact ((within_iff _ _ _ _).1 hc).1
    obtain ⟨sa, x1, v1⟩ := selectRegion_within (by omega) hk hd hn hs
    obtain ⟨sb, x2, v2⟩ := selectRegion_within (by omega) hk hd' h2 s3
    obtain ⟨ba, x3, v3⟩ := selectRegion_within (by omega) hk hd hn hb
    obtain ⟨bb, x4, v4⟩ := selectRegion_within (by omega) hk hd' h2 b3
    simp only [hr, if_false, len a s hs, len a b hb, len a' _ s3, len a' _ b3, ne_eq, not_true_eq_false, or_self,
      x1, x2, x3, x4, v1, v2, v3, v4, cnrOf_perm s4 b4]

/-- **C210 (partial).** Rotation by 90 degrees in the plane of the first two axes of an image with `n` columns:
the row of the new centre is counted from the last column. -/
theorem C210_rotated_partial (a a' : NDArray Rat) (m n : Nat) (hsh : a.shape = [m, n]) (hm : 3 < m) (hn : 3 < n)
    (hrot : rot90 a 1 0 1 = .ok a') (r x y : Int) (hx : r ≤ x ∧ x + r < m) (hy : r ≤ y ∧ y + r < n) :
    snr a' { center := some [.int (n - 1 - y), .int x], radius := .int r, regionType := "spherical" } =
      snr a { center := some [.int x, .int y], radius := .int r, regionType := "spherical" } := by
  have hnd : a.ndim = 2 := by unfold NDArray.ndim; rw [hsh]; rfl
  have e : a' = swapAxes (flipAxis a 1) 0 1 := by
    unfold rot90 at hrot
    rw [if_neg (by rw [hnd]; decide), if_neg (by rw [hnd]; decide)] at hrot
    exact (Except.ok.inj hrot).symm
  have t := Spec.TurnedWith.swap (e := 1) _ _ 0 1 (Spec.TurnedWith.flip a id 1 .start (by omega))
    (show 0 < (flipAxis a 1).ndim by show 0 < a.ndim; omega) (show 1 < (flipAxis a 1).ndim by show 1 < a.ndim; omega)
  have := C210_snr_partial a _ _ "spherical" (.inr rfl) t (.inl hnd)
    (by rw [hsh]; intro k hk; simp at hk; omega) r [x, y] (by
      rw [hsh]
      exact .cons (by simp [regionKind, Spec.middle]; omega) (.cons (by simp [regionKind, Spec.middle]; omega) .nil))
  rw [e]
  rw [hsh] at this
  exact this

/-- Every column has one value. -/
def columnRamp : NDArray Rat := ⟨[6, 6], fun i => i.getD 1 0⟩

/-- The centre of a sphere in column 3 is found in column 2 after flipping the columns. -/
example : snr (flipAxis columnRamp 1) { center := some [.int 2, .int 2], radius := .int 2, regionType := "spherical" } =
    snr columnRamp { center := some [.int 2, .int 3], radius := .int 2, regionType := "spherical" } :=
  C210_snr_partial columnRamp _ _ "spherical" (.inr rfl) (.flip columnRamp id 1 .start (by decide)) (.inl rfl) (by decide) 2 [2, 3]
    (.cons (by decide) (.cons (by decide) .nil))

/-- That of a cube in column 4 also. -/
example : snr (flipAxis columnRamp 1) { center := some [.int 2, .int 2], radius := .int 2, regionType := "cubic" } =
    snr columnRamp { center := some [.int 2, .int 4], radius := .int 2, regionType := "cubic" } :=
  C210_snr_partial columnRamp _ _ "cubic" (.inl rfl) (.flip columnRamp id 1 .start (by decide)) (.inl rfl) (by decide) 2 [2, 4]
    (.cons (by decide) (.cons (by decide) .nil))

theorem snrOf_pairs (x : Rat) : snrOf [x, x + 1, x, x + 1] = .ok (2 * x + 1 : ℝ) := by
  have hm : meanQ [x, x + 1, x, x + 1] = x + 1 / 2 := by unfold meanQ; simp; ring
  have hv : varQ [x, x + 1, x, x + 1] = 1 / 4 := by unfold varQ; rw [hm]; simp; ring
  unfold snrOf stdQ
  rw [if_neg (by simp), hv, if_neg (by norm_num), hm]
  have : Real.sqrt ((1 / 4 : Rat) : ℝ) = 1 / 2 := by
    rw [show (((1 / 4 : Rat) : ℝ)) = (1 / 2) ^ 2 by norm_num]
    exact Real.sqrt_sq (by norm_num)
  rw [this]
  congr 1
  push_cast
  ring

/-- **C210, refuted**: a cube moved with its centre pixel covers other pixels; here the SNR changes from 7 to 9. -/
theorem C210_cubic_refuted : Spec.TurnedWith 1 columnRamp (flipAxis columnRamp 1) (fun c => c.modify 1 (fun x => 5 - x)) ∧
    snr columnRamp { center := some (Spec.given [2, 4]), radius := .int 1 } = .ok (.gray 7) ∧
    snr (flipAxis columnRamp 1) { center := some (Spec.given [2, 1]), radius := .int 1 } = .ok (.gray 9) := by
  refine ⟨.flip columnRamp id 1 .start (by decide), ?_, ?_⟩
  · have hv : (⟨columnRamp, boxMask [6, 6] [2, 4] 1⟩ : Region Rat).values = [3, 3 + 1, 3, 3 + 1] := by decide +kernel
    rw [snr_gray_eq _ _ rfl rfl]
    show (snrOf (⟨columnRamp, boxMask [6, 6] [2, 4] 1⟩ : Region Rat).values).map SnrResult.gray = _
    rw [hv, snrOf_pairs]
    show Except.ok (SnrResult.gray _) = _
    norm_num
  · have hv : (⟨flipAxis columnRamp 1, boxMask [6, 6] [2, 1] 1⟩ : Region Rat).values = [4 + 1, 4, 4 + 1, 4] := by decide +kernel
    rw [snr_gray_eq _ _ rfl rfl]
    show (snrOf (⟨flipAxis columnRamp 1, boxMask [6, 6] [2, 1] 1⟩ : Region Rat).values).map SnrResult.gray = _
    rw [hv, snrOf_perm (show ([4 + 1, 4, 4 + 1, 4] : List Rat).Perm [4, 4 + 1, 4, 4 + 1] by decide +kernel), snrOf_pairs]
    show Except.ok (SnrResult.gray _) = _
    norm_num

/-- **C210, refuted**: a sphere that extends beyond the last column is accepted, its mirror image is not. -/
theorem C210_border_refuted : Spec.TurnedWith 1 columnRamp (flipAxis columnRamp 1) (fun c => c.modify 1 (fun x => 5 - x)) ∧
    (∃ v, snr columnRamp { center := some (Spec.given [2, 5]), radius := .int 1, regionType := "spherical" } = .ok v) ∧
    ∃ m, snr (flipAxis columnRamp 1) { center := some (Spec.given [2, 0]), radius := .int 1, regionType := "spherical" } =
      .error (.valueError m) := by
  refine ⟨.flip columnRamp id 1 .start (by decide), ?_, _, rfl⟩
  have hv : (⟨columnRamp, fun idx => decide (distSq idx [2, 5] ≤ 1 ^ 2)⟩ : Region Rat).values = [5, 4, 5, 5] := by decide +kernel
  rw [snr_gray_eq _ _ rfl rfl]
  show ∃ v, (snrOf (⟨columnRamp, fun idx => decide (distSq idx [2, 5] ≤ 1 ^ 2)⟩ : Region Rat).values).map SnrResult.gray = .ok v
  rw [hv]
  unfold snrOf
  rw [if_neg (by simp)]
  split
  · exact ⟨_, rfl⟩
  · exact ⟨_, rfl⟩

/-- **C210, refuted**: a region of an image with three rows has an SNR, but none after transposing the image. -/
theorem C210_narrow_refuted (a : NDArray Rat) (ha : a = ⟨[3, 6], fun i => i.getD 1 0⟩) :
    Spec.TurnedWith 1 a (swapAxes a 0 1) (fun c => swapAt c 0 1) ∧
    (∃ v, snr a { center := some (Spec.given [1, 4]), radius := .int 1, regionType := "spherical" } = .ok v) ∧
    ∃ m, snr (swapAxes a 0 1) { center := some (Spec.given [4, 1]), radius := .int 1, regionType := "spherical" } =
      .error (.valueError m) := by
  subst ha
  refine ⟨.swap _ id 0 1 .start (by decide) (by decide), ?_, _, rfl⟩
  rw [snr_gray_eq _ _ rfl rfl]
  show ∃ v, (snrOf (⟨⟨[3, 6], fun i => i.getD 1 0⟩, fun idx => decide (distSq idx [1, 4] ≤ 1 ^ 2)⟩ : Region Rat).values).map
    SnrResult.gray = .ok v
  have hv : (⟨⟨[3, 6], fun i => i.getD 1 0⟩, fun idx => decide (distSq idx [1, 4] ≤ 1 ^ 2)⟩ : Region Rat).values =
    [4, 3, 4, 5, 4] := by decide +kernel
  rw [hv]
  unfold snrOf
  rw [if_neg (by simp)]
  split
  · exact ⟨_, rfl⟩
  · exact ⟨_, rfl⟩

end Viqa
