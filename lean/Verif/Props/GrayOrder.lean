import Verif.Props.AutoContrast

/-!
C218: the regions found automatically depend on the order of the gray values only.
-/

namespace Viqa

namespace Spec

/-- Two images have the same order of gray values: what is brighter in one is brighter in the other. -/
def SameOrder (a a' : NDArray Rat) : Prop :=
  a'.shape = a.shape ∧ ∀ i j, InShape a.shape i → InShape a.shape j → (a.get i < a.get j ↔ a'.get i < a'.get j)

end Spec

/-! ### Percentiles and ranks -/

theorem sorted_rank (s : List Rat) (hs : s.Pairwise (· ≤ ·)) (k : Nat) (hk : k < s.length) (x : Rat) :
    s.getD k 0 < x ↔ k < s.countP (fun y => decide (y < x)) := by
  induction s generalizing k with
  | nil => simp at hk
  | cons y t ih =>
    obtain ⟨h1, h2⟩ := List.pairwise_cons.1 hs
    by_cases hy : y < x
    · rw [List.countP_cons_of_pos (by simpa using hy)]
      cases k with
      | zero => simp [hy]
      | succ k =>
        rw [List.getD_cons_succ, ih h2 k (by simpa using hk)]
        omega
    · rw [List.countP_cons_of_neg (by simpa using hy)]
      have hz : t.countP (fun y => decide (y < x)) = 0 := by
        rw [List.countP_eq_zero]
        intro z hz
        have := h1 z hz
        simp only [decide_eq_true_eq]
        linarith
      rw [hz]
      cases k with
      | zero => simpa using hy
      | succ k =>
        rw [List.getD_cons_succ, ih h2 k (by simpa using hk), hz]
        omega

/-- A pixel is above a percentile if enough pixels are darker; how many depends on the number of pixels only. -/
theorem percentile_rank (l : List Rat) (q : Rat) (h0 : 0 ≤ q) (h1 : q ≤ 100) (x : Rat) (hx : x ∈ l) :
    percentile l q < x ↔ (q / 100 * ((l.length : Rat) - 1)).floor.toNat < l.countP (fun y => decide (y < x)) := by
  have hlen : 0 < l.length := List.length_pos_of_mem hx
  have hn : (1 : Rat) ≤ l.length := by exact_mod_cast hlen
  set s := l.insertionSort (· ≤ ·) with hs
  have hsl : s.length = l.length := List.length_insertionSort _ _
  have hsort : s.Pairwise (· ≤ ·) := List.pairwise_insertionSort _ _
  have hperm : s.Perm l := List.perm_insertionSort _ _
  set pos : Rat := q / 100 * ((l.length : Rat) - 1) with hpos
  have p0 : 0 ≤ pos := mul_nonneg (by positivity) (by linarith)
  have p1 : pos ≤ (l.length : Rat) - 1 := by
    have : q / 100 ≤ 1 := by linarith
    calc pos ≤ 1 * ((l.length : Rat) - 1) := mul_le_mul_of_nonneg_right this (by linarith)
      _ = _ := one_mul _
  set k := pos.floor.toNat with hk
  have kf : (k : Int) = pos.floor := Int.toNat_of_nonneg (Rat.le_floor_iff.2 (by exact_mod_cast p0))
  have k1 : (k : Rat) ≤ pos := by
    have : ((pos.floor : Int) : Rat) ≤ pos := Rat.floor_le pos
    rw [← kf] at this
    exact_mod_cast this
  have k2 : pos < (k : Rat) + 1 := by
    have := Rat.lt_floor_add_one pos
    rw [← kf] at this
    push_cast at this
    exact this
  have hkl : k < s.length := by
    have : (k : Rat) < l.length := by linarith
    rw [hsl]
    exact_mod_cast this
  rw [← hperm.countP_eq, ← sorted_rank s hsort k hkl x]
  show s.getD k 0 + (s.getD (min (k + 1) (l.length - 1)) 0 - s.getD k 0) * (pos - (k : Rat)) < x ↔ _
  have hmono : s.getD k 0 ≤ s.getD (min (k + 1) (l.length - 1)) 0 := by
    rcases Nat.eq_or_lt_of_le (show k ≤ min (k + 1) (l.length - 1) by omega) with e | hlt
    · rw [← e]
    · rw [List.getD_eq_getElem?_getD, List.getD_eq_getElem?_getD, List.getElem?_eq_getElem hkl,
        List.getElem?_eq_getElem (by omega)]
      exact List.pairwise_iff_getElem.1 hsort _ _ _ _ hlt
  constructor
  · intro h
    have : 0 ≤ (s.getD (min (k + 1) (l.length - 1)) 0 - s.getD k 0) * (pos - (k : Rat)) :=
      mul_nonneg (by linarith) (by linarith)
    linarith
  · intro h
    obtain ⟨j, hj, e⟩ := List.getElem_of_mem (hperm.mem_iff.2 hx)
    have hgj : s.getD j 0 = x := by rw [List.getD_eq_getElem?_getD, List.getElem?_eq_getElem hj]; exact e
    have hkj : k < j := by
      by_contra hc
      have : s.getD j 0 ≤ s.getD k 0 := by
        rcases Nat.eq_or_lt_of_le (Nat.le_of_not_lt hc) with e | hlt
        · rw [e]
        · rw [List.getD_eq_getElem?_getD, List.getD_eq_getElem?_getD, List.getElem?_eq_getElem hj, List.getElem?_eq_getElem hkl]
          exact List.pairwise_iff_getElem.1 hsort _ _ _ _ hlt
      linarith
    have hmin : min (k + 1) (l.length - 1) = k + 1 := by omega
    have hle : s.getD (k + 1) 0 ≤ x := by
      rw [← hgj]
      rcases Nat.eq_or_lt_of_le (show k + 1 ≤ j by omega) with e | hlt
      · rw [e]
      · rw [List.getD_eq_getElem?_getD, List.getD_eq_getElem?_getD, List.getElem?_eq_getElem hj,
          List.getElem?_eq_getElem (by omega)]
        exact List.pairwise_iff_getElem.1 hsort _ _ _ _ hlt
    rw [hmin] at hmono ⊢
    have f1 : pos - (k : Rat) < 1 := by linarith
    have f0 : 0 ≤ pos - (k : Rat) := by linarith
    nlinarith

theorem sameOrder_count {a a' : NDArray Rat} (h : Spec.SameOrder a a') (i : List Nat) (hi : InShape a.shape i) :
    a.toList.countP (fun y => decide (y < a.get i)) = a'.toList.countP (fun y => decide (y < a'.get i)) := by
  unfold NDArray.toList
  rw [List.countP_map, List.countP_map, h.1]
  apply List.countP_congr
  intro j hj
  simpa using h.2 j i ((mem_indices _ _).1 hj) hi

theorem sameOrder_percentile {a a' : NDArray Rat} (h : Spec.SameOrder a a') (q : Rat) (h0 : 0 ≤ q) (h1 : q ≤ 100) (i : List Nat)
    (hi : InShape a.shape i) : percentile a.toList q < a.get i ↔ percentile a'.toList q < a'.get i := by
  have hl : a'.toList.length = a.toList.length := by
    unfold NDArray.toList
    rw [List.length_map, List.length_map, h.1]
  have m1 : a.get i ∈ a.toList := List.mem_map.2 ⟨i, (mem_indices _ _).2 hi, rfl⟩
  have m2 : a'.get i ∈ a'.toList := List.mem_map.2 ⟨i, (mem_indices _ _).2 (by rw [h.1]; exact hi), rfl⟩
  rw [percentile_rank _ q h0 h1 _ m1, percentile_rank _ q h0 h1 _ m2, hl, sameOrder_count h i hi]

/-- **C218.** Two images with the same order of gray values have the same binary image for every interval of percentiles, or
both raise. -/
theorem C218_binary (a a' : NDArray Rat) (h : Spec.SameOrder a a') (lo hi : Rat) :
    (∃ e, getBinary a lo hi = .error e ∧ getBinary a' lo hi = .error e) ∨
    ∃ b b', getBinary a lo hi = .ok b ∧ getBinary a' lo hi = .ok b' ∧ b.shape = a.shape ∧ b'.shape = a.shape ∧
      ∀ i, InShape a.shape i → b'.get i = b.get i := by
  unfold getBinary
  by_cases hr : ¬ (0 ≤ lo ∧ lo ≤ 100 ∧ 0 ≤ hi ∧ hi ≤ 100)
  · rw [if_pos hr, if_pos hr]
    exact .inl ⟨_, rfl, rfl⟩
  · rw [if_neg hr, if_neg hr]
    have hsz : a'.size = a.size := by unfold NDArray.size; rw [h.1]
    rw [hsz]
    by_cases hz : a.size = 0
    · rw [if_pos hz, if_pos hz]
      exact .inl ⟨_, rfl, rfl⟩
    · rw [if_neg hz, if_neg hz]
      rw [not_not] at hr
      refine .inr ⟨_, _, rfl, rfl, rfl, h.1, fun i hi' => ?_⟩
      have e1 := sameOrder_percentile h lo hr.1 hr.2.1 i hi'
      have e2 := sameOrder_percentile h hi hr.2.2.1 hr.2.2.2 i hi'
      show decide (_ ∧ _) = decide (_ ∧ _)
      rw [decide_eq_decide, ← e1, ← not_lt, ← not_lt, e2]

theorem findLargest_congr (b b' : NDArray Bool) (hs : b'.shape = b.shape) (hv : ∀ i, InShape b.shape i → b'.get i = b.get i)
    (it : Int) : (∃ e, findLargest b it = .error e ∧ findLargest b' it = .error e) ∨
    ∃ l l', findLargest b it = .ok l ∧ findLargest b' it = .ok l' ∧ l'.centre = l.centre ∧ l'.radius = l.radius ∧
      ∀ i, InShape b.shape i → l'.cleaned.get i = l.cleaned.get i := by
  have p : Spec.PartOf b b' := ⟨hs, fun i hi h => by rw [hv i hi]; exact h⟩
  have p' : Spec.PartOf b' b := ⟨hs.symm, fun i hi h => by rw [← hv i (by rw [← hs]; exact hi)]; exact h⟩
  have hl : b'.toList = b.toList := by
    unfold NDArray.toList
    rw [hs]
    exact List.map_congr_left (fun i hi => hv i ((mem_indices _ _).1 hi))
  have hcol : isColour b' = isColour b := by unfold isColour NDArray.ndim NDArray.lastDim; rw [hs]
  have hnd : b'.ndim = b.ndim := by unfold NDArray.ndim; rw [hs]
  have hld : b'.lastDim = b.lastDim := by unfold NDArray.lastDim; rw [hs]
  have hcr : centreRadius (cleanBinary b' it) = centreRadius (cleanBinary b it) := centreRadius_congr (clean_part p' it) (clean_part p it)
  unfold findLargest
  rw [hl, hcol, hnd, hld, hcr]
  by_cases c1 : ¬ (false ∈ b.toList ∧ true ∈ b.toList)
  · rw [if_pos c1, if_pos c1]; exact .inl ⟨_, rfl, rfl⟩
  · rw [if_neg c1, if_neg c1]
    by_cases c2 : isColour b = true
    · rw [if_pos c2, if_pos c2]; exact .inl ⟨_, rfl, rfl⟩
    · rw [if_neg c2, if_neg c2]
      by_cases c3 : b.ndim = 2 ∨ (b.ndim = 3 ∧ 3 < b.lastDim)
      · rw [if_pos c3, if_pos c3]
        cases hc : centreRadius (cleanBinary b it) with
        | none => exact .inl ⟨_, rfl, rfl⟩
        | some cr =>
          refine .inr ⟨_, _, rfl, rfl, rfl, rfl, fun i hi => ?_⟩
          have q := (clean_part p it).2 i (by rw [cleanBinary_shape]; exact hi)
          have q' := (clean_part p' it).2 i (by rw [cleanBinary_shape, hs]; exact hi)
          show (cleanBinary b' it).get i = (cleanBinary b it).get i
          rw [Bool.eq_iff_iff]
          exact ⟨q', q⟩
      · rw [if_neg c3, if_neg c3]; exact .inl ⟨_, rfl, rfl⟩

/-- **C218.** In two gray images with the same order of gray values the same centre, the same radius and the same region are
found, or both searches raise. -/
theorem C218_found (a a' : NDArray Rat) (h : Spec.SameOrder a a') (hcol : isColour a = false) (lo hi : Rat) (it : Int) :
    (∃ e, autoFind a lo hi it = .error e ∧ autoFind a' lo hi it = .error e) ∨
    ∃ l l', autoFind a lo hi it = .ok l ∧ autoFind a' lo hi it = .ok l' ∧ l'.centre = l.centre ∧ l'.radius = l.radius ∧
      ∀ i, InShape a.shape i → l'.cleaned.get i = l.cleaned.get i := by
  have hcol' : isColour a' = false := by rw [← hcol]; unfold isColour NDArray.ndim NDArray.lastDim; rw [h.1]
  unfold autoFind
  rw [hcol, hcol']
  simp only [Bool.false_eq_true, if_false]
  rcases C218_binary a a' h lo hi with ⟨e, h1, h2⟩ | ⟨b, b', h1, h2, s1, s2, hv⟩
  · rw [h1, h2]
    exact .inl ⟨e, rfl, rfl⟩
  · rw [h1, h2]
    rw [← s1] at hv ⊢
    exact findLargest_congr b b' (by rw [s1, s2]) hv it

/-- **C218** for CNR: after any change of the gray values that keeps their order, CNR is measured in the regions found in the
original image. -/
theorem C218_cnr (a a' : NDArray Rat) (h : Spec.SameOrder a a') (hcol : isColour a = false) (kind : String)
    (hk : regionKind kind = .cubic ∨ regionKind kind = .spherical) (it : Int) (s b : Largest) (hs : autoFind a 90 100 it = .ok s)
    (hb : autoFind a 0 90 it = .ok b) :
    cnr a' { signal := [], background := [], radius := .int 0, regionType := kind, auto := true, iterations := it } =
      cnr a' { signal := Spec.given (toInts s.centre), background := Spec.given (toInts b.centre),
               radius := .int (min s.radius b.radius : Nat), regionType := kind } := by
  rcases C218_found a a' h hcol 90 100 it with ⟨e, h1, -⟩ | ⟨l, l', h1, h2, c, r, -⟩
  · rw [hs] at h1; cases h1
  · rcases C218_found a a' h hcol 0 90 it with ⟨e, k1, -⟩ | ⟨m, m', k1, k2, c', r', -⟩
    · rw [hb] at k1; cases k1
    · rw [hs] at h1
      rw [hb] at k1
      cases h1
      cases k1
      rw [cnr_auto_given a' kind hk it l' m' h2 k2, c, c', r, r']

/-- **C218** for SNR, for every interval of thresholds. -/
theorem C218_snr (a a' : NDArray Rat) (h : Spec.SameOrder a a') (hcol : isColour a = false) (kind : String)
    (hk : regionKind kind = .cubic ∨ regionKind kind = .spherical) (lower upper : Rat) (it : Int) (l : Largest)
    (hl : autoFind a lower upper it = .ok l) :
    snr a' { center := none, radius := .int 0, regionType := kind, auto := true, iterations := it, lower := lower, upper := upper } =
      snr a' { center := some (Spec.given (toInts l.centre)), radius := .int l.radius, regionType := kind } := by
  rcases C218_found a a' h hcol lower upper it with ⟨e, h1, -⟩ | ⟨m, l', h1, h2, c, r, -⟩
  · rw [hl] at h1; cases h1
  · rw [hl] at h1
    cases h1
    rw [snr_auto_given a' kind hk lower upper it l' h2, c, r]

/-- **C218**: strictly increasing functions of the gray values (gamma correction, contrast curves) keep the order. -/
theorem C218_curve (a : NDArray Rat) (f : Rat → Rat) (hf : ∀ i j, InShape a.shape i → InShape a.shape j → a.get i < a.get j →
    f (a.get i) < f (a.get j)) (hcol : isColour a = false) (lo hi : Rat) (it : Int) (l : Largest) (hl : autoFind a lo hi it = .ok l) :
    ∃ l', autoFind (a.map f) lo hi it = .ok l' ∧ l'.centre = l.centre ∧ l'.radius = l.radius := by
  have h : Spec.SameOrder a (a.map f) := by
    refine ⟨rfl, fun i j hi' hj' => ⟨hf i j hi' hj', fun hlt => ?_⟩⟩
    by_contra hc
    rcases lt_or_eq_of_le (not_lt.1 hc) with h1 | h1
    · exact lt_asymm hlt (hf j i hj' hi' h1)
    · have : (a.map f).get i < (a.map f).get j := hlt
      unfold NDArray.map at this
      simp only [h1, lt_self_iff_false] at this
  rcases C218_found a _ h hcol lo hi it with ⟨e, h1, -⟩ | ⟨m, l', h1, h2, c, r, -⟩
  · rw [hl] at h1; cases h1
  · rw [hl] at h1
    cases h1
    exact ⟨l', h2, c, r⟩

/-- The square of the gray values of an image without negative ones. -/
example (l : Largest) (hl : autoFind brightDark 90 100 1 = .ok l) :
    ∃ l', autoFind (brightDark.map (fun v => v ^ 2)) 90 100 1 = .ok l' ∧ l'.centre = l.centre ∧ l'.radius = l.radius := by
  refine C218_curve brightDark (fun v => v ^ 2) (fun i j _ _ h => ?_) rfl 90 100 1 l hl
  have h0 : ∀ i, 0 ≤ brightDark.get i := by
    intro i
    unfold brightDark
    simp only
    split_ifs <;> norm_num
  exact pow_lt_pow_left₀ h (h0 i) (by omega)

/-- The search succeeds. -/
example : (autoFind brightDark 90 100 1).toOption.map (fun l => (l.centre, l.radius)) = some ([4, 2], 1) := by decide +kernel

/-- Saturation does not keep the order: nothing is above the 90th percentile any more. -/
example : (autoFind (brightDark.map (min 9)) 90 100 1).toOption.map (fun l => (l.centre, l.radius)) = none := by decide +kernel

end Viqa
