import Verif.Props.GrayOrder

/-!
C219: how many pixels lie between two percentiles.
-/

namespace Viqa

namespace Spec

/-- Number of pixels that fulfil a condition. -/
def countPixels {α : Type} (a : NDArray α) (p : α → Bool) : Nat := (indices a.shape).countP (fun i => p (a.get i))

end Spec

/-- Position of a percentile among the sorted pixels. -/
theorem percentile_bounds (l : List Rat) (q : Rat) (h0 : 0 ≤ q) (h1 : q ≤ 100) (hl : l ≠ []) :
    (q / 100 * ((l.length : Rat) - 1)).floor.toNat < l.length ∧
    (l.insertionSort (· ≤ ·)).getD (q / 100 * ((l.length : Rat) - 1)).floor.toNat 0 ≤ percentile l q := by
  have hlen : 0 < l.length := List.length_pos_of_ne_nil hl
  have hn : (1 : Rat) ≤ l.length := by exact_mod_cast hlen
  set s := l.insertionSort (· ≤ ·) with hs
  have hsl : s.length = l.length := List.length_insertionSort _ _
  have hsort : s.Pairwise (· ≤ ·) := List.pairwise_insertionSort _ _
  set pos : Rat := q / 100 * ((l.length : Rat) - 1) with hpos
  have p0 : 0 ≤ pos := mul_nonneg (by positivity) (by linarith)
  have p1 : pos ≤ (l.length : Rat) - 1 := by
    have : q / 100 ≤ 1 := by linarith
    calc pos ≤ 1 * ((l.length : Rat) - 1) := mul_le_mul_of_nonneg_right this (by linarith)
      _ = _ := one_mul _
  set k := pos.floor.toNat with hk
  have kf : (k : Int) = pos.floor := Int.toNat_of_nonneg (Rat.le_floor_iff.2 (by exact_mod_cast p0))
  have k1 : (k : Rat) ≤ pos := by
    have : ((pos.floor : Int) : Rat) ≤ pos := Rat.floor_le pos
    rw [← kf] at this
    exact_mod_cast this
  have hkl : k < l.length := by
    have : (k : Rat) < l.length := by linarith
    exact_mod_cast this
  refine ⟨hkl, ?_⟩
  show s.getD k 0 ≤ s.getD k 0 + (s.getD (min (k + 1) (l.length - 1)) 0 - s.getD k 0) * (pos - (k : Rat))
  have hmono : s.getD k 0 ≤ s.getD (min (k + 1) (l.length - 1)) 0 := by
    rcases Nat.eq_or_lt_of_le (show k ≤ min (k + 1) (l.length - 1) by omega) with e | hlt
    · rw [← e]
    · rw [List.getD_eq_getElem?_getD, List.getD_eq_getElem?_getD, List.getElem?_eq_getElem (by omega),
        List.getElem?_eq_getElem (by omega)]
      exact List.pairwise_iff_getElem.1 hsort _ _ _ _ hlt
  have : 0 ≤ (s.getD (min (k + 1) (l.length - 1)) 0 - s.getD k 0) * (pos - (k : Rat)) :=
    mul_nonneg (by linarith) (by linarith)
  linarith

theorem sorted_above (s : List Rat) (hs : s.Pairwise (· ≤ ·)) (k : Nat) (hk : k < s.length) (t : Rat) (ht : s.getD k 0 ≤ t) :
    s.countP (fun y => decide (t < y)) + (k + 1) ≤ s.length := by
  have e := List.countP_append (l₁ := s.take (k + 1)) (l₂ := s.drop (k + 1)) (p := fun y => decide (t < y))
  rw [List.take_append_drop] at e
  have z : (s.take (k + 1)).countP (fun y => decide (t < y)) = 0 := by
    rw [List.countP_eq_zero]
    intro y hy
    obtain ⟨j, hj, rfl⟩ := List.getElem_of_mem hy
    rw [List.length_take] at hj
    rw [List.getElem_take]
    have : s[j] ≤ s[k] := by
      rcases Nat.eq_or_lt_of_le (show j ≤ k by omega) with e | hlt
      · subst e; exact le_refl _
      · exact List.pairwise_iff_getElem.1 hs _ _ _ _ hlt
    rw [List.getD_eq_getElem?_getD, List.getElem?_eq_getElem hk] at ht
    simp only [Option.getD_some] at ht
    simp only [decide_eq_true_eq]
    linarith
  have := List.countP_le_length (l := s.drop (k + 1)) (p := fun y => decide (t < y))
  rw [List.length_drop] at this
  omega

/-- **C219.** At most `100 - q` percent of the pixels, rounded up, are above the percentile `q`. -/
theorem C219_at_most (a : NDArray Rat) (q : Rat) (h0 : 0 ≤ q) (h1 : q ≤ 100) (hz : a.size ≠ 0) :
    (Spec.countPixels a (fun v => decide (percentile a.toList q < v)) : Int) ≤ ⌈(1 - q / 100) * ((a.size : Rat) - 1)⌉ := by
  have hlen : a.toList.length = a.size := by unfold NDArray.toList NDArray.size; rw [List.length_map, length_indices]
  have hne : a.toList ≠ [] := by intro h; rw [h] at hlen; exact hz hlen.symm
  obtain ⟨b1, b2⟩ := percentile_bounds a.toList q h0 h1 hne
  set k := (q / 100 * ((a.toList.length : Rat) - 1)).floor.toNat with hk
  have hc := sorted_above _ (List.pairwise_insertionSort (· ≤ ·) a.toList) k (by rw [List.length_insertionSort]; exact b1) _ b2
  rw [(List.perm_insertionSort (· ≤ ·) a.toList).countP_eq, List.length_insertionSort, hlen] at hc
  have e : Spec.countPixels a (fun v => decide (percentile a.toList q < v)) = a.toList.countP (fun y => decide (percentile a.toList q < y)) := by
    conv_rhs => rw [show a.toList = (indices a.shape).map a.get from rfl, List.countP_map]
    rfl
  rw [e]
  have hs1 : (1 : Rat) ≤ a.size := by exact_mod_cast Nat.pos_of_ne_zero hz
  have kf : (k : Int) = (q / 100 * ((a.size : Rat) - 1)).floor := by
    rw [hk, hlen]
    exact Int.toNat_of_nonneg (Rat.le_floor_iff.2 (by
      have : (0 : Rat) ≤ q / 100 * ((a.size : Rat) - 1) := mul_nonneg (by positivity) (by linarith)
      exact_mod_cast this))
  have k2 : q / 100 * ((a.size : Rat) - 1) < (k : Rat) + 1 := by
    have := Rat.lt_floor_add_one (q / 100 * ((a.size : Rat) - 1))
    rw [← kf] at this
    push_cast at this
    exact this
  have hr : ((a.toList.countP (fun y => decide (percentile a.toList q < y)) : Nat) : Rat) + (k + 1) ≤ a.size := by exact_mod_cast hc
  have hlt : ((a.toList.countP (fun y => decide (percentile a.toList q < y)) : Int) : Rat) - 1 < (1 - q / 100) * ((a.size : Rat) - 1) := by
    push_cast
    nlinarith
  have := Int.le_ceil ((1 - q / 100) * ((a.size : Rat) - 1))
  have hfin : ((a.toList.countP (fun y => decide (percentile a.toList q < y)) : Int) : Rat) - 1 < ((⌈(1 - q / 100) * ((a.size : Rat) - 1)⌉ : Int) : Rat) := by
    linarith
  have : (a.toList.countP (fun y => decide (percentile a.toList q < y)) : Int) - 1 < ⌈(1 - q / 100) * ((a.size : Rat) - 1)⌉ := by exact_mod_cast hfin
  omega

/-- **C219 (partial).** If all gray values are different, exactly the share named by the percentile is above it. Missing: images
with equal gray values (`C219_saturated_refuted`). -/
theorem C219_exact_partial (a : NDArray Rat) (q : Rat) (h0 : 0 ≤ q) (h1 : q ≤ 100) (hz : a.size ≠ 0) (hd : a.toList.Nodup) :
    Spec.countPixels a (fun v => decide (percentile a.toList q < v)) = a.size - 1 - (q / 100 * ((a.size : Rat) - 1)).floor.toNat := by
  have hlen : a.toList.length = a.size := by unfold NDArray.toList NDArray.size; rw [List.length_map, length_indices]
  have hne : a.toList ≠ [] := by intro h; rw [h] at hlen; exact hz hlen.symm
  obtain ⟨b1, b2⟩ := percentile_bounds a.toList q h0 h1 hne
  have hrank := percentile_rank a.toList q h0 h1
  rw [hlen] at b1 b2 hrank
  set k := (q / 100 * ((a.size : Rat) - 1)).floor.toNat with hk
  set s := a.toList.insertionSort (· ≤ ·) with hs
  have hperm : s.Perm a.toList := List.perm_insertionSort _ _
  have hsort : s.Pairwise (· ≤ ·) := List.pairwise_insertionSort _ _
  have hsl : s.length = a.size := by rw [hperm.length_eq, hlen]
  have hnd : s.Nodup := hperm.nodup_iff.2 hd
  have e : Spec.countPixels a (fun v => decide (percentile a.toList q < v)) = s.countP (fun y => decide (percentile a.toList q < y)) := by
    rw [hperm.countP_eq]
    conv_rhs => rw [show a.toList = (indices a.shape).map a.get from rfl, List.countP_map]
    rfl
  rw [e]
  have up := sorted_above s hsort k (by omega) _ b2
  have e2 := List.countP_append (l₁ := s.take (k + 1)) (l₂ := s.drop (k + 1)) (p := fun y => decide (percentile a.toList q < y))
  rw [List.take_append_drop] at e2
  have hall : (s.drop (k + 1)).countP (fun y => decide (percentile a.toList q < y)) = (s.drop (k + 1)).length := by
    rw [List.countP_eq_length]
    intro y hy
    obtain ⟨j, hj, rfl⟩ := List.getElem_of_mem hy
    rw [List.length_drop] at hj
    rw [List.getElem_drop]
    simp only [decide_eq_true_eq]
    rw [hrank _ (hperm.mem_iff.1 (List.getElem_mem _)), ← hperm.countP_eq, ← sorted_rank s hsort k (by omega)]
    rw [List.getD_eq_getElem?_getD, List.getElem?_eq_getElem (by omega : k < s.length)]
    simp only [Option.getD_some]
    refine lt_of_le_of_ne (List.pairwise_iff_getElem.1 hsort _ _ _ _ (by omega)) (fun h => ?_)
    have := (List.Nodup.getElem_inj_iff hnd).1 h
    omega
  rw [List.length_drop] at hall
  omega

/-- No pixel is above the 90th percentile if more than a tenth of the pixels has the greatest gray value. -/
theorem saturated_none (a : NDArray Rat) (M : Rat) (hM : ∀ i, InShape a.shape i → a.get i ≤ M)
    (hc : a.size + 9 ≤ 10 * Spec.countPixels a (fun v => decide (v = M))) (i : List Nat) (hi : InShape a.shape i) :
    ¬ percentile a.toList 90 < a.get i := by
  have hlen : a.toList.length = a.size := by unfold NDArray.toList NDArray.size; rw [List.length_map, length_indices]
  rw [percentile_rank a.toList 90 (by norm_num) (by norm_num) _ (List.mem_map.2 ⟨i, (mem_indices _ _).2 hi, rfl⟩), hlen, not_lt]
  have h1 : a.toList.countP (fun y => decide (y < a.get i)) ≤ a.toList.countP (fun y => decide (¬ y = M)) := by
    apply List.countP_mono_left
    intro y _ hlt
    simp only [decide_eq_true_eq] at hlt ⊢
    have := hM i hi
    intro h
    linarith
  have h2 : a.toList.countP (fun y => decide (¬ y = M)) + Spec.countPixels a (fun v => decide (v = M)) = a.size := by
    have e : Spec.countPixels a (fun v => decide (v = M)) = a.toList.countP (fun y => decide (y = M)) := by
      rw [show a.toList = (indices a.shape).map a.get from rfl, List.countP_map]
      rfl
    have := List.length_eq_countP_add_countP (l := a.toList) (fun y => decide (y = M))
    rw [e, ← hlen, this, Nat.add_comm]
    congr 1
    apply List.countP_congr
    intro y _
    simp
  have h3 : ((a.size : Rat) - Spec.countPixels a (fun v => decide (v = M))) ≤ 90 / 100 * ((a.size : Rat) - 1) := by
    have : ((a.size : Rat) + 9) ≤ 10 * (Spec.countPixels a (fun v => decide (v = M)) : Nat) := by exact_mod_cast hc
    linarith
  have h4 : ((a.size - Spec.countPixels a (fun v => decide (v = M)) : Nat) : Int) ≤ (90 / 100 * ((a.size : Rat) - 1)).floor := by
    rw [Rat.le_floor_iff]
    have hle : Spec.countPixels a (fun v => decide (v = M)) ≤ a.size := by omega
    push_cast [Nat.cast_sub hle]
    linarith
  omega

/-- **C219, refuted**: if more than a tenth of the pixels of a gray image has the greatest gray value (saturated or large bright
objects), nothing is taken for the signal, and SNR and CNR raise. -/
theorem C219_saturated_refuted (a : NDArray Rat) (M : Rat) (hM : ∀ i, InShape a.shape i → a.get i ≤ M) (hcol : isColour a = false)
    (hc : a.size + 9 ≤ 10 * Spec.countPixels a (fun v => decide (v = M))) (it : Int) (kind : String) (upper : Rat) (hu0 : 0 ≤ upper) (hu1 : upper ≤ 100) :
    autoFind a 90 upper it = .error (.valueError "Image must be binary.") ∧
    snr a { center := none, radius := .int 0, regionType := kind, auto := true, iterations := it, lower := 90, upper := upper } =
      .error (.valueError "Image must be binary.") ∧
    cnr a { signal := [], background := [], radius := .int 0, regionType := kind, auto := true, iterations := it } =
      .error (.valueError "Image must be binary.") := by
  have hsz : a.size ≠ 0 := by
    intro h
    have hle : Spec.countPixels a (fun v => decide (v = M)) ≤ (indices a.shape).length := List.countP_le_length
    rw [length_indices] at hle
    have : a.shape.prod = 0 := h
    omega
  have h1 : ∀ u, 0 ≤ u → u ≤ 100 → autoFind a 90 u it = .error (.valueError "Image must be binary.") := by
    intro u hu0 hu1
    unfold autoFind
    rw [hcol]
    simp only [Bool.false_eq_true, if_false]
    have hb : getBinary a 90 u = .ok (a.map (fun p => decide (percentile a.toList 90 < p ∧ p ≤ percentile a.toList u))) := by
      unfold getBinary
      rw [if_neg (not_not.2 ⟨by norm_num, by norm_num, hu0, hu1⟩), if_neg hsz]
    rw [hb]
    show findLargest _ it = _
    unfold findLargest
    rw [if_pos]
    rintro ⟨-, ht⟩
    obtain ⟨i, hi, e⟩ := List.mem_map.1 ht
    have := saturated_none a M hM hc i ((mem_indices _ _).1 hi)
    exact this (of_decide_eq_true e).1
  refine ⟨h1 upper hu0 hu1, ?_, ?_⟩
  · unfold snr
    simp only [if_true, h1 upper hu0 hu1, bind, Except.bind]
  · unfold cnr cnrSelect
    simp only [if_true, h1 100 (by norm_num) (by norm_num), bind, Except.bind]

/-- A bright square that fills 16 of 100 pixels. -/
def brightSquare : NDArray Rat := ⟨[10, 10], fun i => if 3 ≤ i.getD 0 0 ∧ i.getD 0 0 ≤ 6 ∧ 3 ≤ i.getD 1 0 ∧ i.getD 1 0 ≤ 6 then 200 else (i.getD 0 0 : Rat)⟩

example : cnr brightSquare { signal := [], background := [], radius := .int 0, auto := true } = .error (.valueError "Image must be binary.") :=
  (C219_saturated_refuted brightSquare 200 (fun i hi => by
    obtain ⟨x, y, rfl⟩ : ∃ x y, i = [x, y] := by
      have := inShape_length _ _ hi
      match i, this with
      | [x, y], _ => exact ⟨x, y, rfl⟩
    have hx : x < 10 := hi.1
    have : (x : Rat) < 10 := by exact_mod_cast hx
    simp only [brightSquare, List.getD_cons_zero]
    split
    · exact le_refl _
    · linarith) rfl (by decide +kernel) 5 "cubic" 99 (by norm_num) (by norm_num)).2.2

/-- The gray values 0 to 99: ten of them are above the 90th percentile. -/
def hundredGrays : NDArray Rat := ⟨[10, 10], fun i => (10 * i.getD 0 0 + i.getD 1 0 : Nat)⟩

example : Spec.countPixels hundredGrays (fun v => decide (percentile hundredGrays.toList 90 < v)) = 10 := by
  rw [C219_exact_partial hundredGrays 90 (by norm_num) (by norm_num) (by decide) (by decide +kernel)]
  decide +kernel

example : (Spec.countPixels brightSquare (fun v => decide (percentile brightSquare.toList 50 < v)) : Int) ≤ 50 :=
  (C219_at_most brightSquare 50 (by norm_num) (by norm_num) (by decide)).trans (by
    rw [show brightSquare.size = 100 from rfl]
    norm_num)

end Viqa
