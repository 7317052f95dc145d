import Verif.Props.AutoTurn

/-!
C215: the radius of the largest region if the object grows, the percentiles are widened or more iterations are used.
-/

namespace Viqa

/-- All pixels of the object `b` belong to the object `b'`. -/
def Spec.PartOf (b b' : NDArray Bool) : Prop :=
  b'.shape = b.shape ∧ ∀ i, InShape b.shape i → b.get i = true → b'.get i = true

/-- The object keeps a distance of `m` pixels from the borders of the image. -/
def Spec.Margin (m : Nat) (b : NDArray Bool) : Prop :=
  ∀ i, InShape b.shape i → b.get i = true → ∀ k, k < i.length → m ≤ i.getD k 0 ∧ i.getD k 0 + m < b.shape.getD k 0

theorem boolAt_part {b b' : NDArray Bool} (h : Spec.PartOf b b') (p : List Int) (hp : boolAt b p = true) : boolAt b' p = true := by
  unfold boolAt at hp ⊢
  rw [h.1]
  simp only [Bool.and_eq_true, decide_eq_true_eq] at hp ⊢
  exact ⟨hp.1, hp.2.1, h.2 _ hp.2.1 hp.2.2⟩

theorem step_part {b b' : NDArray Bool} (h : Spec.PartOf b b') :
    Spec.PartOf (erodeStep b) (erodeStep b') ∧ Spec.PartOf (dilateStep b) (dilateStep b') := by
  refine ⟨⟨h.1, fun i _ hv => ?_⟩, ⟨h.1, fun i _ hv => ?_⟩⟩
  · unfold erodeStep at hv ⊢
    simp only [List.all_eq_true] at hv ⊢
    exact fun q hq => boolAt_part h q (hv q hq)
  · unfold dilateStep at hv ⊢
    simp only [List.any_eq_true] at hv ⊢
    obtain ⟨q, hq, hv⟩ := hv
    exact ⟨q, hq, boolAt_part h q hv⟩

theorem iterate_part (F : NDArray Bool → NDArray Bool) (hF : ∀ b b', Spec.PartOf b b' → Spec.PartOf (F b) (F b')) (n : Nat)
    (b b' : NDArray Bool) (h : Spec.PartOf b b') : Spec.PartOf (iterateN F n b) (iterateN F n b') := by
  induction n generalizing b b' with
  | zero => exact h
  | succ n ih => exact ih _ _ (hF _ _ h)

theorem clean_part {b b' : NDArray Bool} (h : Spec.PartOf b b') (it : Int) : Spec.PartOf (cleanBinary b it) (cleanBinary b' it) := by
  unfold cleanBinary
  have hs : b'.size = b.size := by unfold NDArray.size; rw [h.1]
  rw [hs]
  exact iterate_part _ (fun _ _ h => (step_part h).1) _ _ _ (iterate_part _ (fun _ _ h => (step_part h).2) _ _ _ h)

theorem edtSq_part {b b' : NDArray Bool} (h : Spec.PartOf b b') (hu : ∃ q, InShape b'.shape q ∧ b'.get q = false) (p : List Nat) :
    edtSq b p ≤ edtSq b' p := by
  obtain ⟨q, hq, hf, e⟩ := edtSq_attained b' p hu
  rw [e]
  have hq' : InShape b.shape q := by rw [← h.1]; exact hq
  apply edtSq_le b p q hq'
  by_contra hc
  have := h.2 q hq' (by simpa using hc)
  rw [hf] at this
  cases this

theorem centreRadius_part {b b' : NDArray Bool} (h : Spec.PartOf b b') (hu : ∃ q, InShape b'.shape q ∧ b'.get q = false)
    (c c' : List Nat) (r r' : Nat) (hc : centreRadius b = some (c, r)) (hc' : centreRadius b' = some (c', r')) : r ≤ r' := by
  unfold centreRadius at hc hc'
  obtain ⟨d, h1, h2⟩ := Option.map_eq_some_iff.1 hc
  obtain ⟨d', h1', h2'⟩ := Option.map_eq_some_iff.1 hc'
  cases h2
  cases h2'
  obtain ⟨m, -⟩ := argmaxBy_spec _ _ _ h1
  obtain ⟨-, x'⟩ := argmaxBy_spec _ _ _ h1'
  have := x' c (by rw [h.1]; exact m)
  have := edtSq_part h hu c
  apply Nat.sqrt_le_sqrt
  omega

theorem clean_unset (b : NDArray Bool) (it : Int) (hd : 0 < b.ndim) (hs : ∃ i, InShape b.shape i) :
    ∃ q, InShape b.shape q ∧ (cleanBinary b it).get q = false := by
  obtain ⟨i, hi⟩ := hs
  obtain ⟨d, hds, e⟩ := cleanBinary_eroded b it (size_pos_of_inShape _ _ hi)
  have hlen := inShape_length _ _ hi
  have hd' : 0 < b.shape.length := hd
  have h0 := inShape_set _ i 0 0 hi (by
    have := inShape_lt _ _ 0 hi (by omega)
    omega)
  refine ⟨_, h0, ?_⟩
  rw [e]
  exact erode_border d _ 0 (by rw [hds]; exact h0) (by simp; omega) (.inl (by
    rw [List.getD_eq_getElem?_getD, List.getElem?_set_self (by omega)]; rfl))

theorem findLargest_parts (b : NDArray Bool) (it : Int) (l : Largest) (h : findLargest b it = .ok l) :
    centreRadius (cleanBinary b it) = some (l.centre, l.radius) ∧ 0 < b.ndim ∧ ∃ i, InShape b.shape i := by
  unfold findLargest at h
  split at h
  · cases h
  · split at h
    · cases h
    · split at h
      · rename_i hnd
        split at h
        · cases h
        · rename_i c r hcr
          cases h
          refine ⟨hcr, by omega, c, ?_⟩
          unfold centreRadius at hcr
          obtain ⟨d, h1, h2⟩ := Option.map_eq_some_iff.1 hcr
          cases h2
          have := (argmaxBy_spec _ _ _ h1).1
          rw [cleanBinary_shape] at this
          exact (inShape_iff_mem _ _).1 this
      · cases h

/-- **C215.** The radius of the largest region does not shrink if pixels are added to the object. -/
theorem C215_object (b b' : NDArray Bool) (h : Spec.PartOf b b') (it : Int) (l l' : Largest)
    (hl : findLargest b it = .ok l) (hl' : findLargest b' it = .ok l') : l.radius ≤ l'.radius := by
  obtain ⟨c1, -, -⟩ := findLargest_parts b it l hl
  obtain ⟨c2, d2, s2⟩ := findLargest_parts b' it l' hl'
  have hc := clean_part h it
  refine centreRadius_part hc ?_ _ _ _ _ c1 c2
  rw [cleanBinary_shape]
  exact clean_unset b' it d2 s2

/-! ### Percentiles -/

theorem percentile_mono (l : List Rat) (q q' : Rat) (h0 : 0 ≤ q) (hq : q ≤ q') (h1 : q' ≤ 100) (hl : l ≠ []) :
    percentile l q ≤ percentile l q' := by
  have hlen : 0 < l.length := List.length_pos_of_ne_nil hl
  have hn : (1 : Rat) ≤ l.length := by exact_mod_cast hlen
  set s := l.insertionSort (· ≤ ·) with hs
  have hsl : s.length = l.length := List.length_insertionSort _ _
  have hsort : s.Pairwise (· ≤ ·) := List.pairwise_insertionSort _ _
  have mono : ∀ i j, i ≤ j → j < s.length → s.getD i 0 ≤ s.getD j 0 := by
    intro i j hij hj
    rcases Nat.eq_or_lt_of_le hij with rfl | hlt
    · exact le_refl _
    · rw [List.getD_eq_getElem?_getD, List.getD_eq_getElem?_getD, List.getElem?_eq_getElem (by omega : i < s.length), List.getElem?_eq_getElem hj]
      simp only [Option.getD_some]
      exact List.pairwise_iff_getElem.1 hsort i j (by omega) hj hlt
  set x : Rat := q / 100 * ((l.length : Rat) - 1) with hx
  set y : Rat := q' / 100 * ((l.length : Rat) - 1) with hy
  have hx0 : 0 ≤ x := by rw [hx]; apply mul_nonneg <;> linarith
  have hxy : x ≤ y := by rw [hx, hy]; apply mul_le_mul_of_nonneg_right <;> linarith
  have hyn : y ≤ (l.length : Rat) - 1 := by
    rw [hy]
    have : q' / 100 ≤ 1 := by linarith
    nlinarith
  have fl : ∀ z : Rat, 0 ≤ z → z ≤ (l.length : Rat) - 1 →
      ((z.floor.toNat : Rat) ≤ z ∧ z < (z.floor.toNat : Rat) + 1 ∧ z.floor.toNat < l.length) := by
    intro z hz0 hz1
    have f0 : 0 ≤ z.floor := Rat.le_floor_iff.2 (by simpa using hz0)
    have e : ((z.floor.toNat : Nat) : Rat) = (z.floor : Rat) := by
      have : ((z.floor.toNat : Nat) : Int) = z.floor := Int.toNat_of_nonneg f0
      exact_mod_cast congrArg (Int.cast : Int → Rat) this
    have a1 : (z.floor : Rat) ≤ z := Rat.floor_le z
    have a2 : z < (z.floor : Rat) + 1 := by have := Rat.lt_floor_add_one z; push_cast at this; exact this
    refine ⟨by rw [e]; exact a1, by rw [e]; exact a2, ?_⟩
    have : ((z.floor.toNat : Nat) : Rat) ≤ (l.length : Rat) - 1 := by rw [e]; linarith
    have : ((z.floor.toNat : Nat) : Rat) < (l.length : Rat) := by linarith
    exact_mod_cast this
  obtain ⟨x1, x2, x3⟩ := fl x hx0 (by linarith)
  obtain ⟨y1, y2, y3⟩ := fl y (by linarith) hyn
  show s.getD x.floor.toNat 0 + (s.getD (min (x.floor.toNat + 1) (l.length - 1)) 0 - s.getD x.floor.toNat 0) * (x - (x.floor.toNat : Rat)) ≤
    s.getD y.floor.toNat 0 + (s.getD (min (y.floor.toNat + 1) (l.length - 1)) 0 - s.getD y.floor.toNat 0) * (y - (y.floor.toNat : Rat))
  generalize x.floor.toNat = k at *
  generalize y.floor.toNat = k' at *
  have kk : k ≤ k' := by
    have : (k : Rat) < (k' : Rat) + 1 := by linarith
    have : k < k' + 1 := by exact_mod_cast this
    omega
  have step : ∀ j, j < l.length → s.getD j 0 ≤ s.getD (min (j + 1) (l.length - 1)) 0 := fun j hj =>
    mono j _ (by omega) (by omega)
  rcases Nat.eq_or_lt_of_le kk with rfl | hlt
  · have := step k x3
    have : (s.getD (min (k + 1) (l.length - 1)) 0 - s.getD k 0) * (x - k) ≤ (s.getD (min (k + 1) (l.length - 1)) 0 - s.getD k 0) * (y - k) :=
      mul_le_mul_of_nonneg_left (by linarith) (by linarith)
    linarith
  · have a1 := step k x3
    have a2 := step k' y3
    have a3 : s.getD (min (k + 1) (l.length - 1)) 0 ≤ s.getD k' 0 := mono _ _ (by omega) (by omega)
    have b1 : (s.getD (min (k + 1) (l.length - 1)) 0 - s.getD k 0) * (x - k) ≤ (s.getD (min (k + 1) (l.length - 1)) 0 - s.getD k 0) * 1 :=
      mul_le_mul_of_nonneg_left (by linarith) (by linarith)
    have b2 : 0 ≤ (s.getD (min (k' + 1) (l.length - 1)) 0 - s.getD k' 0) * (y - k') := mul_nonneg (by linarith) (by linarith)
    linarith

theorem getBinary_part (a : NDArray Rat) (lo hi lo' hi' : Rat) (b b' : NDArray Bool) (h : getBinary a lo hi = .ok b)
    (h' : getBinary a lo' hi' = .ok b') (hlo : lo' ≤ lo) (hhi : hi ≤ hi') : Spec.PartOf b b' := by
  unfold getBinary at h h'
  split at h
  · cases h
  · split at h'
    · cases h'
    · rename_i c1 c2
      by_cases hz : a.size = 0
      · rw [if_pos hz] at h; cases h
      · rw [if_neg hz] at h h'
        cases h
        cases h'
        rw [not_not] at c1 c2
        have hne : a.toList ≠ [] := by
          intro he
          have := congrArg List.length he
          unfold NDArray.toList at this
          rw [List.length_map, length_indices] at this
          exact hz this
        have m1 := percentile_mono a.toList lo' lo c2.1 hlo (by linarith [c1.2.1]) hne
        have m2 := percentile_mono a.toList hi hi' c1.2.2.1 hhi c2.2.2.2 hne
        refine ⟨rfl, fun i _ hv => ?_⟩
        simp only [NDArray.map, decide_eq_true_eq] at hv ⊢
        exact ⟨lt_of_le_of_lt m1 hv.1, le_trans hv.2 m2⟩

/-- **C215.** The radius found automatically does not shrink if the interval of percentiles is widened. -/
theorem C215_percentiles (a : NDArray Rat) (lo hi lo' hi' : Rat) (hlo : lo' ≤ lo) (hhi : hi ≤ hi') (it : Int) (l l' : Largest)
    (h : autoFind a lo hi it = .ok l) (h' : autoFind a lo' hi' it = .ok l') : l.radius ≤ l'.radius := by
  unfold autoFind at h h'
  cases hb : getBinary (if isColour a then (toGrayscale ⟨.f64, a⟩).arr else a) lo hi with
  | error e => rw [hb] at h; cases h
  | ok b =>
    cases hb' : getBinary (if isColour a then (toGrayscale ⟨.f64, a⟩).arr else a) lo' hi' with
    | error e => rw [hb'] at h'; cases h'
    | ok b' =>
      rw [hb] at h
      rw [hb'] at h'
      exact C215_object b b' (getBinary_part _ lo hi lo' hi' b b' hb hb' hlo hhi) it l l' h h'

/-! ### Iterations -/

theorem posDist_comm (p q : List Int) : posDist p q = posDist q p := by
  induction p generalizing q with
  | nil => cases q <;> simp [posDist]
  | cons x p ih =>
    cases q with
    | nil => simp [posDist]
    | cons y q => rw [posDist_cons, posDist_cons, ih]; ring

theorem cross_comm {p q : List Int} (h : q ∈ crossNeighbours p) : p ∈ crossNeighbours q := by
  rw [mem_cross_iff] at h ⊢
  rw [posDist_comm]
  exact ⟨h.1.symm, h.2⟩

theorem cross_near {p q : List Int} (h : q ∈ crossNeighbours p) (k : Nat) (x y : Int) (hx : p[k]? = some x) (hy : q[k]? = some y) :
    x - 1 ≤ y ∧ y ≤ x + 1 := by
  rw [mem_cross] at h
  rcases h with rfl | ⟨j, -, rfl | rfl⟩
  · rw [hx] at hy; cases hy; omega
  · rw [List.getElem?_modify, hx] at hy
    split at hy <;> simp at hy <;> omega
  · rw [List.getElem?_modify, hx] at hy
    split at hy <;> simp at hy <;> omega

theorem margin_iff (m : Nat) (b : NDArray Bool) : Spec.Margin m b ↔ ∀ i, InShape b.shape i → b.get i = true →
    ∀ (k n i' : Nat), b.shape[k]? = some n → i[k]? = some i' → m ≤ i' ∧ i' + m < n := by
  unfold Spec.Margin
  refine forall_congr' (fun i => forall_congr' (fun hi => forall_congr' (fun _ => ?_)))
  have hl := inShape_length _ _ hi
  constructor
  · intro h k n i' h1 h2
    have := h k (List.getElem?_eq_some_iff.1 h2).1
    simpa only [List.getD_eq_getElem?_getD, h1, h2, Option.getD_some] using this
  · intro h k hk
    have h1 : b.shape[k]? = some b.shape[k] := List.getElem?_eq_getElem (by omega)
    have h2 : i[k]? = some i[k] := List.getElem?_eq_getElem hk
    have := h k _ _ h1 h2
    simpa only [List.getD_eq_getElem?_getD, h1, h2, Option.getD_some] using this

theorem toInts_getElem? (i : List Nat) (k : Nat) (x : Int) (h : (toInts i)[k]? = some x) : ∃ j : Nat, i[k]? = some j ∧ x = j := by
  rw [List.getElem?_map] at h
  obtain ⟨j, hj, rfl⟩ := Option.map_eq_some_iff.1 h
  exact ⟨j, hj, rfl⟩

theorem margin_dilate (m : Nat) (b : NDArray Bool) (h : Spec.Margin (m + 1) b) : Spec.Margin m (dilateStep b) := by
  rw [margin_iff] at h ⊢
  intro i hi hv k n i' hn hi'
  unfold dilateStep at hv
  simp only [List.any_eq_true] at hv
  obtain ⟨q, hq, hb⟩ := hv
  rw [boolAt_iff] at hb
  have hin := inside_nat hb.1
  have hqe := toInts_toNat (inside_nonneg hb.1)
  have hql := inShape_length _ _ hin
  have hk : k < b.shape.length := (List.getElem?_eq_some_iff.1 hn).1
  have hj : (q.map Int.toNat)[k]? = some (q.map Int.toNat)[k] := List.getElem?_eq_getElem (by omega)
  have := h _ hin hb.2 k n _ hn hj
  have hy : q[k]? = some (((q.map Int.toNat)[k] : Nat) : Int) := by
    conv_lhs => rw [← hqe]
    rw [List.getElem?_map, hj]; rfl
  have near := cross_near hq k (i' : Int) _ (by rw [List.getElem?_map, hi']; rfl) hy
  omega

theorem margin_iterate (n m : Nat) (b : NDArray Bool) (h : Spec.Margin (n + m) b) : Spec.Margin m (iterateN dilateStep n b) := by
  induction n generalizing b with
  | zero => simpa [iterateN] using h
  | succ n ih =>
    rw [iterateN]
    exact ih _ (margin_dilate _ _ (by rw [show n + m + 1 = n + 1 + m by omega]; exact h))

/-- An object that does not touch the border lies within its closing. -/
theorem part_closing (d : NDArray Bool) (h : Spec.Margin 1 d) : Spec.PartOf d (erodeStep (dilateStep d)) := by
  rw [margin_iff] at h
  refine ⟨rfl, fun i hi hv => ?_⟩
  have hself : boolAt d (toInts i) = true := by
    rw [boolAt_iff, toNat_toInts]
    exact ⟨(inside_iff _ _).2 hi, hv⟩
  unfold erodeStep
  simp only [List.all_eq_true]
  intro q hq
  have hl : q.length = d.shape.length := by
    have h1 := ((mem_cross_iff _ _).1 hq).1
    have h2 := inShape_length _ _ hi
    simp at h1
    omega
  have hin : Spec.RegionFits 1 0 d.shape q := by
    rw [within_iff]
    refine ⟨hl, fun k n y hn hy => ?_⟩
    have hk : k < i.length := by
      rw [inShape_length _ _ hi]; exact (List.getElem?_eq_some_iff.1 hn).1
    have hi' : i[k]? = some i[k] := List.getElem?_eq_getElem hk
    have := h i hi hv k n _ hn hi'
    have near := cross_near hq k (i[k] : Int) y (by rw [List.getElem?_map, hi']; rfl) hy
    omega
  rw [boolAt_iff]
  refine ⟨hin, ?_⟩
  unfold dilateStep
  simp only [List.any_eq_true]
  have e := toInts_toNat (inside_nonneg hin)
  unfold toInts at e
  rw [e]
  exact ⟨_, cross_comm hq, hself⟩

theorem part_trans {a b c : NDArray Bool} (h1 : Spec.PartOf a b) (h2 : Spec.PartOf b c) : Spec.PartOf a c :=
  ⟨by rw [h2.1, h1.1], fun i hi hv => h2.2 i (by rw [h1.1]; exact hi) (h1.2 i hi hv)⟩

theorem clean_iterations (b : NDArray Bool) (n : Nat) (hn : 1 ≤ n) (h : Spec.Margin (n + 1) b) :
    Spec.PartOf (cleanBinary b n) (cleanBinary b (n + 1 : Nat)) := by
  unfold cleanBinary morphSteps
  rw [if_neg (by omega), if_neg (by omega), if_neg (by omega), if_neg (by omega),
    show (((n : Nat) : Int) + 1).toNat = n + 1 by omega, show ((n : Nat) : Int).toNat = n by omega,
    show (((n + 1 : Nat) : Int) + 1).toNat = (n + 1) + 1 by omega, show ((n + 1 : Nat) : Int).toNat = n + 1 by omega,
    iterateN_succ' dilateStep n b]
  show Spec.PartOf _ (iterateN erodeStep (n + 1) (erodeStep (dilateStep (iterateN dilateStep n b))))
  exact iterate_part _ (fun _ _ h => (step_part h).1) _ _ _ (part_closing _ (margin_iterate n 1 b h))

theorem clean_more (b : NDArray Bool) (n m : Nat) (hn : 1 ≤ n) (hm : n ≤ m) (h : Spec.Margin m b) :
    Spec.PartOf (cleanBinary b n) (cleanBinary b m) := by
  induction m, hm using Nat.le_induction with
  | base => exact ⟨rfl, fun _ _ h => h⟩
  | succ k hk ih =>
    refine part_trans (ih (fun i hi hv j hj => ?_)) (clean_iterations b k (by omega) h)
    have := h i hi hv j hj
    omega

/-- **C215 (partial).** More iterations, which close larger holes, do not shrink the radius if the object is at least as
many pixels away from the borders of the image. Missing: objects closer to the border (`C215_iterations_refuted`). -/
theorem C215_iterations_partial (b : NDArray Bool) (n m : Nat) (hn : 1 ≤ n) (hm : n ≤ m) (hmar : Spec.Margin m b) (l l' : Largest)
    (hl : findLargest b n = .ok l) (hl' : findLargest b m = .ok l') : l.radius ≤ l'.radius := by
  obtain ⟨c1, -, -⟩ := findLargest_parts b n l hl
  obtain ⟨c2, d2, s2⟩ := findLargest_parts b m l' hl'
  refine centreRadius_part (clean_more b n m hn hm hmar) ?_ _ _ _ _ c1 c2
  rw [cleanBinary_shape]
  exact clean_unset b m d2 s2

/-! ### Examples -/

/-- A square of 3 × 3 pixels with a hole in the middle. -/
def holedSquare : NDArray Bool :=
  ⟨[9, 9], fun i => decide (3 ≤ i.getD 0 0 ∧ i.getD 0 0 ≤ 5 ∧ 3 ≤ i.getD 1 0 ∧ i.getD 1 0 ≤ 5 ∧ i ≠ [4, 4])⟩

/-- Without the hole. -/
def fullSquare : NDArray Bool :=
  ⟨[9, 9], fun i => decide (3 ≤ i.getD 0 0 ∧ i.getD 0 0 ≤ 5 ∧ 3 ≤ i.getD 1 0 ∧ i.getD 1 0 ≤ 5)⟩

example (l l' : Largest) (h : findLargest holedSquare 1 = .ok l) (h' : findLargest fullSquare 1 = .ok l') : l.radius ≤ l'.radius :=
  C215_object holedSquare fullSquare ⟨rfl, fun i _ hv => by
    simp only [holedSquare, fullSquare, decide_eq_true_eq] at hv ⊢
    exact ⟨hv.1, hv.2.1, hv.2.2.1, hv.2.2.2.1⟩⟩ 1 l l' h h'

/-- One iteration closes the hole. -/
example : (findLargest holedSquare 1).toOption.map Largest.radius = some 1 := by decide +kernel

example (l l' : Largest) (h : findLargest holedSquare ((1 : Nat) : Int) = .ok l) (h' : findLargest holedSquare ((3 : Nat) : Int) = .ok l') :
    l.radius ≤ l'.radius :=
  C215_iterations_partial holedSquare 1 3 (by omega) (by omega) (by
    have all : ∀ i ∈ indices [9, 9], holedSquare.get i = true → ∀ k < i.length, 3 ≤ i.getD k 0 ∧ i.getD k 0 + 3 < [9, 9].getD k 0 := by
      decide +kernel
    exact fun i hi hv k hk => all i ((mem_indices _ _).2 hi) hv k hk) l l' h h'

/-- A ramp. -/
def rampImage : NDArray Rat := ⟨[7, 7], fun i => i.getD 0 0⟩

/-- The radius found in the ramp for two intervals of percentiles. -/
example : (autoFind rampImage 20 60 1).toOption.map Largest.radius = some 1 ∧
    (autoFind rampImage 10 90 1).toOption.map Largest.radius = some 2 := by decide +kernel

/-- **C215, refuted**: for an object next to the border nothing is left after more iterations; the radius shrinks from 1 to 0,
with which SNR raises a TypeError. -/
theorem C215_iterations_refuted : ∃ (b : NDArray Bool) (l l' : Largest),
    findLargest b 1 = .ok l ∧ findLargest b 2 = .ok l' ∧ l.radius = 1 ∧ l'.radius = 0 := by
  let b : NDArray Bool := ⟨[5, 7], fun i => decide (1 ≤ i.getD 0 0 ∧ i.getD 0 0 ≤ 3 ∧ 1 ≤ i.getD 1 0 ∧ i.getD 1 0 ≤ 3)⟩
  have h1 : (findLargest b 1).toOption.map Largest.radius = some 1 := by decide +kernel
  have h2 : (findLargest b 2).toOption.map Largest.radius = some 0 := by decide +kernel
  cases e1 : findLargest b 1 with
  | error e => rw [e1] at h1; cases h1
  | ok l =>
    cases e2 : findLargest b 2 with
    | error e => rw [e2] at h2; cases h2
    | ok l' =>
      rw [e1] at h1
      rw [e2] at h2
      exact ⟨b, l, l', e1, e2, by simpa [Except.toOption] using h1, by simpa [Except.toOption] using h2⟩

end Viqa
