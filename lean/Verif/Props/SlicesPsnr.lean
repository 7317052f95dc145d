import Verif.Props.DistanceSlices

/-!
C168: the PSNR of a volume and the PSNR of its slices.
-/

namespace Viqa

/-- The mean of the logarithms is at most the logarithm of the mean. -/
theorem log_mean (xs : List ℝ) (hne : xs ≠ []) (hpos : ∀ x ∈ xs, 0 < x) :
    (xs.map Real.log).sum ≤ xs.length * Real.log (xs.sum / xs.length) := by
  have hlen : (0 : ℝ) < xs.length := by exact_mod_cast List.length_pos_of_ne_nil hne
  have hm : 0 < xs.sum / xs.length := div_pos (List.sum_pos xs hpos hne) hlen
  set m := xs.sum / xs.length with hmd
  have key : ∀ ys : List ℝ, (∀ x ∈ ys, 0 < x) → (ys.map Real.log).sum ≤ ys.length * Real.log m + (ys.sum - ys.length * m) / m := by
    intro ys
    induction ys with
    | nil => intro _; simp
    | cons y ys ih =>
      intro hy
      have h1 := ih (fun x hx => hy x (by simp [hx]))
      have hy0 := hy y (by simp)
      have h2 : Real.log y ≤ Real.log m + (y - m) / m := by
        have := Real.log_le_sub_one_of_pos (div_pos hy0 hm)
        rw [Real.log_div hy0.ne' hm.ne'] at this
        rw [sub_div, div_self hm.ne']
        linarith
      simp only [List.map_cons, List.sum_cons, List.length_cons]
      push_cast
      have e : (y + ys.sum - (ys.length + 1) * m) / m = (ys.sum - ys.length * m) / m + (y - m) / m := by ring
      rw [e]
      linarith
  have h := key xs hpos
  have e : xs.sum - xs.length * m = 0 := by rw [hmd, mul_div_cancel₀ _ hlen.ne', sub_self]
  rwa [e, zero_div, add_zero] at h

/-- PSNR of pairs of slices in terms of their RMSE. -/
theorem psnrs_of_rmses (d : ℝ) (hd : d ≠ 0) (as bs : List (NDArray ℝ)) (hc : ∀ q ∈ List.zip as bs, Comparable q.1 q.2)
    (rs : List ℝ) (hrs : List.zipWith rmse as bs = rs.map .ok) (ps : List ℝ)
    (hps : List.zipWith (psnr d) as bs = ps.map (fun p => .ok (.finite p))) :
    ps = rs.map (fun r => 20 * Real.logb 10 (|d| / r)) ∧ ∀ r ∈ rs, 0 < r := by
  induction as generalizing bs rs ps with
  | nil =>
    simp only [List.zipWith_nil_left, List.nil_eq, List.map_eq_nil_iff] at hrs hps
    simp [hrs, hps]
  | cons a as ih =>
    cases bs with
    | nil =>
      simp only [List.zipWith_nil_right, List.nil_eq, List.map_eq_nil_iff] at hrs hps
      simp [hrs, hps]
    | cons b bs =>
      cases rs with
      | nil => simp at hrs
      | cons r rs =>
        cases ps with
        | nil => simp at hps
        | cons p ps =>
          simp only [List.zipWith_cons_cons, List.map_cons, List.cons.injEq] at hrs hps
          obtain ⟨i1, i2⟩ := ih bs (fun q hq => hc q (by simp [hq])) rs hrs.2 ps hps.2
          have hab : Comparable a b := hc (a, b) (by simp)
          have hne : ¬ a.Same b := by
            intro hs
            rw [(C29_infinite_iff d a b).2 hs] at hps
            simp at hps
          obtain ⟨r', h1, h2, h3⟩ := C29_formula d a b hab hne hd
          rw [h1] at hrs
          rw [h3] at hps
          have e1 : r' = r := by simpa using hrs.1
          have e2 : 20 * Real.logb 10 (|d| / r') = p := by simpa using hps.1
          subst e1
          refine ⟨by rw [List.map_cons, i1, e2], ?_⟩
          intro s hs
          rcases List.mem_cons.1 hs with rfl | hs
          · exact h2
          · exact i2 s hs

theorem slices_comparable (a b : NDArray ℝ) (h : Comparable a b) (axis : Nat) (hax : axis < a.ndim) :
    ∀ q ∈ List.zip (slicesAlong a axis) (slicesAlong b axis), Comparable q.1 q.2 := by
  have hsize : a.shape.prod ≠ 0 := h.2
  rw [size_slices a.shape axis hax] at hsize
  intro q hq
  unfold slicesAlong at hq
  rw [← h.1, List.zip_map', List.mem_map] at hq
  obtain ⟨j, -, rfl⟩ := hq
  refine ⟨?_, (mul_ne_zero_iff.1 hsize).2⟩
  show a.shape.eraseIdx axis = b.shape.eraseIdx axis
  rw [h.1]

/-- **C168.** If all slices of two volumes differ, whatever the axis: the PSNR of the volumes is at least the smallest PSNR of
the slices and at most their mean. -/
theorem C168_mean (d : ℝ) (hd : d ≠ 0) (a b : NDArray ℝ) (h : Comparable a b) (axis : Nat) (hax : axis < a.ndim) (ps : List ℝ)
    (hps : List.zipWith (psnr d) (slicesAlong a axis) (slicesAlong b axis) = ps.map (fun p => .ok (.finite p))) :
    ∃ v, psnr d a b = .ok (.finite v) ∧ (∃ p ∈ ps, p ≤ v) ∧ v ≤ ps.sum / ps.length := by
  obtain ⟨r, rs, hr, hrs, -, hne, hsq⟩ := C152_slices a b h axis hax
  obtain ⟨r', rs', hr', hrs', -, s, hs, hrs_le⟩ := C152_between a b h axis hax
  rw [hr] at hr'; cases hr'
  rw [hrs] at hrs'
  have e : rs = rs' := List.map_injective_iff.2 (fun _ _ h => Except.ok.inj h) hrs'
  subst e
  obtain ⟨hp, hpos⟩ := psnrs_of_rmses d hd _ _ (slices_comparable a b h axis hax) rs hrs ps hps
  have hlen : (0 : ℝ) < rs.length := by exact_mod_cast List.length_pos_of_ne_nil hne
  have hsqpos : ∀ x ∈ rs.map (fun s => s ^ 2), 0 < x := by
    intro x hx
    obtain ⟨s, hs, rfl⟩ := List.mem_map.1 hx
    exact pow_pos (hpos s hs) 2
  have hr2 : 0 < r ^ 2 := by
    rw [hsq]
    exact div_pos (List.sum_pos _ hsqpos (by simpa using hne)) hlen
  have hr0 : 0 < r := by
    obtain ⟨v, hv, hv0⟩ := C28_nonneg a b h
    rw [hr] at hv; cases hv
    exact lt_of_le_of_ne hv0 (fun he => by rw [← he] at hr2; simp at hr2)
  have hns : ¬ a.Same b := by
    intro hsame
    have := (C28_zero_iff a b h).2 hsame
    rw [hr] at this
    exact hr0.ne' (Except.ok.inj this)
  obtain ⟨q, h1, h2, h3⟩ := C29_formula d a b h hns hd
  rw [hr] at h1; cases h1
  have hd0 : 0 < |d| := abs_pos.2 hd
  have hform : ∀ s : ℝ, 0 < s → 20 * Real.logb 10 (|d| / s) = 20 * Real.logb 10 |d| - 10 / Real.log 10 * Real.log (s ^ 2) := by
    intro s hs
    rw [Real.logb_div hd0.ne' hs.ne', Real.log_pow]
    unfold Real.logb
    push_cast
    ring
  have hl10 : 0 < Real.log 10 := Real.log_pos (by norm_num)
  refine ⟨_, h3, ⟨20 * Real.logb 10 (|d| / s), by rw [hp]; exact List.mem_map_of_mem hs, ?_⟩, ?_⟩
  · refine mul_le_mul_of_nonneg_left ?_ (by norm_num)
    exact Real.logb_le_logb_of_le (by norm_num) (div_pos hd0 (hpos s hs)) (div_le_div_of_nonneg_left hd0.le hr0 hrs_le)
  · have hlp : ps.length = rs.length := by rw [hp, List.length_map]
    rw [hlp, le_div_iff₀ hlen, hform r hr0]
    have hsum : ps.sum = rs.length * (20 * Real.logb 10 |d|) - 10 / Real.log 10 * ((rs.map (fun s => s ^ 2)).map Real.log).sum := by
      rw [hp]
      clear hp hps hrs hrs' hsq hsqpos hs hne hlen hlp
      induction rs with
      | nil => simp
      | cons s rs ih =>
        simp only [List.map_cons, List.sum_cons, List.length_cons]
        rw [ih (fun r hr => hpos r (by simp [hr])), hform s (hpos s (by simp))]
        push_cast
        ring
    have hj := log_mean (rs.map (fun s => s ^ 2)) (by simpa using hne) hsqpos
    rw [List.length_map, ← hsq] at hj
    rw [hsum]
    have := mul_le_mul_of_nonneg_left hj (by positivity : 0 ≤ 10 / Real.log 10)
    linarith

/-- **C168.** The same lower bound if some slices agree: one of the slices that differ has at most the PSNR of the volumes. -/
theorem C168_smallest (d : ℝ) (hd : d ≠ 0) (a b : NDArray ℝ) (h : Comparable a b) (axis : Nat) (hax : axis < a.ndim) (v : ℝ)
    (hv : psnr d a b = .ok (.finite v)) :
    ∃ p, .ok (.finite p) ∈ List.zipWith (psnr d) (slicesAlong a axis) (slicesAlong b axis) ∧ p ≤ v := by
  obtain ⟨r, rs, hr, hrs, -, s, hs, hle⟩ := C152_between a b h axis hax
  have hns : ¬ a.Same b := by
    intro hsame
    rw [(C29_infinite_iff d a b).2 hsame] at hv
    simp at hv
  obtain ⟨r', h1, h2, h3⟩ := C29_formula d a b h hns hd
  rw [hr] at h1; cases h1
  rw [h3] at hv
  have hv' : 20 * Real.logb 10 (|d| / r) = v := by simpa using hv
  have hd0 : 0 < |d| := abs_pos.2 hd
  have hmem : (Except.ok s : Py ℝ) ∈ List.zipWith rmse (slicesAlong a axis) (slicesAlong b axis) := by
    rw [hrs]; exact List.mem_map_of_mem hs
  rw [← List.map_uncurry_zip_eq_zipWith, List.mem_map] at hmem
  obtain ⟨q, hq, hqs⟩ := hmem
  have hcq := slices_comparable a b h axis hax q hq
  have hs0 : 0 < s := lt_of_lt_of_le h2 hle
  have hnq : ¬ q.1.Same q.2 := by
    intro hsame
    have := (C28_zero_iff q.1 q.2 hcq).2 hsame
    rw [show rmse q.1 q.2 = .ok s from hqs] at this
    exact hs0.ne' (Except.ok.inj this)
  obtain ⟨s', k1, k2, k3⟩ := C29_formula d q.1 q.2 hcq hnq hd
  rw [show rmse q.1 q.2 = .ok s from hqs] at k1; cases k1
  refine ⟨20 * Real.logb 10 (|d| / s), ?_, ?_⟩
  · rw [← List.map_uncurry_zip_eq_zipWith, List.mem_map]
    exact ⟨q, hq, k3⟩
  · rw [← hv']
    refine mul_le_mul_of_nonneg_left ?_ (by norm_num)
    exact Real.logb_le_logb_of_le (by norm_num) (div_pos hd0 hs0) (div_le_div_of_nonneg_left hd0.le h2 hle)

/-- **C168.** The PSNR of two volumes is infinite exactly if the PSNR of all their slices is. -/
theorem C168_infinite (d : ℝ) (a b : NDArray ℝ) (h : a.shape = b.shape) (axis : Nat) (hax : axis < a.ndim) :
    psnr d a b = .ok .infinite ↔ ∀ s ∈ List.zipWith (psnr d) (slicesAlong a axis) (slicesAlong b axis), s = .ok .infinite := by
  rw [C29_infinite_iff]
  have hz : List.zipWith (psnr d) (slicesAlong a axis) (slicesAlong b axis) =
      (List.range (a.shape.getD axis 0)).map (fun j => psnr d (planeAt a axis j) (planeAt b axis j)) := by
    unfold slicesAlong
    rw [← h, List.zipWith_map, List.zipWith_self]
  rw [hz]
  simp only [List.mem_map, List.mem_range, forall_exists_index, and_imp, forall_apply_eq_imp_iff₂, C29_infinite_iff]
  have hin : ∀ (sh : List Nat) (axis : Nat), axis < sh.length → ∀ i, InShape sh i ↔
      ∃ j < sh.getD axis 0, ∃ k, InShape (sh.eraseIdx axis) k ∧ i = insertAxis axis j k := by
    intro sh
    induction sh with
    | nil => intro axis hx; simp at hx
    | cons n sh ih =>
      intro axis hx i
      cases axis with
      | zero =>
        constructor
        · intro hi
          cases i with
          | nil => simp [InShape] at hi
          | cons j k => exact ⟨j, hi.1, k, hi.2, rfl⟩
        · rintro ⟨j, hj, k, hk, rfl⟩
          exact ⟨hj, hk⟩
      | succ axis =>
        constructor
        · intro hi
          cases i with
          | nil => simp [InShape] at hi
          | cons m i =>
            obtain ⟨j, hj, k, hk, rfl⟩ := (ih axis (by simpa using hx) i).1 hi.2
            exact ⟨j, hj, m :: k, ⟨hi.1, hk⟩, rfl⟩
        · rintro ⟨j, hj, k, hk, rfl⟩
          cases k with
          | nil => simp [InShape] at hk
          | cons m k => exact ⟨hk.1, (ih axis (by simpa using hx) _).2 ⟨j, hj, k, hk.2, rfl⟩⟩
  constructor
  · intro hs j hj
    refine ⟨by show a.shape.eraseIdx axis = b.shape.eraseIdx axis; rw [h], fun k hk => ?_⟩
    exact hs.2 _ ((hin a.shape axis hax _).2 ⟨j, hj, k, hk, rfl⟩)
  · intro hs
    refine ⟨h, fun i hi => ?_⟩
    obtain ⟨j, hj, k, hk, rfl⟩ := (hin a.shape axis hax i).1 hi
    exact (hs j hj).2 k hk

/-- Two slices of one pixel, the first pair differs by 1, the second one by 2. -/
example : ∃ v p q, psnr 255 ⟨[2, 1, 1], fun _ => 0⟩ ⟨[2, 1, 1], fun i => i.getD 0 0 + 1⟩ = .ok (.finite v) ∧
    psnr 255 (planeAt ⟨[2, 1, 1], fun _ => 0⟩ 0 0) (planeAt ⟨[2, 1, 1], fun i => i.getD 0 0 + 1⟩ 0 0) = .ok (.finite p) ∧
    psnr 255 (planeAt ⟨[2, 1, 1], fun _ => 0⟩ 0 1) (planeAt ⟨[2, 1, 1], fun i => i.getD 0 0 + 1⟩ 0 1) = .ok (.finite q) ∧
    v ≤ (p + q) / 2 := by
  have hne : ∀ j, ¬ (planeAt (⟨[2, 1, 1], fun _ => 0⟩ : NDArray ℝ) 0 j).Same (planeAt ⟨[2, 1, 1], fun i => i.getD 0 0 + 1⟩ 0 j) := by
    intro j hs
    have h1 : (0 : ℝ) = j + 1 := hs.2 [0, 0] (by simp [planeAt, InShape])
    have h2 : (0 : ℝ) ≤ j := Nat.cast_nonneg j
    linarith
  obtain ⟨r, -, -, hp⟩ := C29_formula 255 _ _ (⟨rfl, by decide⟩ : Comparable (planeAt (⟨[2, 1, 1], fun _ => 0⟩ : NDArray ℝ) 0 0)
    (planeAt ⟨[2, 1, 1], fun i => i.getD 0 0 + 1⟩ 0 0)) (hne 0) (by norm_num)
  obtain ⟨t, -, -, hq⟩ := C29_formula 255 _ _ (⟨rfl, by decide⟩ : Comparable (planeAt (⟨[2, 1, 1], fun _ => 0⟩ : NDArray ℝ) 0 1)
    (planeAt ⟨[2, 1, 1], fun i => i.getD 0 0 + 1⟩ 0 1)) (hne 1) (by norm_num)
  obtain ⟨v, hv, -, hle⟩ := C168_mean 255 (by norm_num) ⟨[2, 1, 1], fun _ => 0⟩ ⟨[2, 1, 1], fun i => i.getD 0 0 + 1⟩ ⟨rfl, by decide⟩ 0
    (by decide) [_, _] (by
      show [psnr _ _ _, psnr _ _ _] = _
      rw [hp, hq]; rfl)
  refine ⟨v, _, _, hv, hp, hq, ?_⟩
  simpa using hle

/-- Only the second of two slices differs. -/
example : ∃ v p, psnr 255 ⟨[2, 1, 1], fun _ => 0⟩ ⟨[2, 1, 1], fun i => i.getD 0 0⟩ = .ok (.finite v) ∧ p ≤ v ∧
    .ok (.finite p) ∈ List.zipWith (psnr 255) (slicesAlong ⟨[2, 1, 1], fun _ => 0⟩ 0) (slicesAlong ⟨[2, 1, 1], fun i => i.getD 0 0⟩ 0) := by
  have hc : Comparable (⟨[2, 1, 1], fun _ => 0⟩ : NDArray ℝ) ⟨[2, 1, 1], fun i => i.getD 0 0⟩ := ⟨rfl, by decide⟩
  obtain ⟨r, -, -, hv⟩ := C29_formula 255 _ _ hc (fun hs => by
    have h1 : (0 : ℝ) = (1 : Nat) := hs.2 [1, 0, 0] (by simp [InShape])
    norm_num at h1) (by norm_num)
  obtain ⟨p, hp, hle⟩ := C168_smallest 255 (by norm_num) _ _ hc 0 (by decide) _ hv
  exact ⟨_, p, hv, hle, hp⟩

example : psnr 255 ⟨[2, 3, 4], fun i => i.sum⟩ ⟨[2, 3, 4], fun i => i.sum⟩ = .ok .infinite ↔
    ∀ s ∈ List.zipWith (psnr 255) (slicesAlong ⟨[2, 3, 4], fun i => i.sum⟩ 1) (slicesAlong ⟨[2, 3, 4], fun i => i.sum⟩ 1), s = .ok .infinite :=
  C168_infinite 255 _ _ rfl 1 (by decide)

end Viqa
