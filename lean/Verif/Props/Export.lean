import Verif.Model.Display
import Verif.Props.Display
import Mathlib.Data.List.Perm.Subperm
import Mathlib.Data.List.Nodup
import Mathlib.Tactic.FieldSimp
import Mathlib.Tactic.Linarith

/-!
Properties of `export_image` and `export_metadata`: C68 and C97.
-/

namespace Viqa

open Spec

variable {α : Type}

/-! ### C68: the slice -/

theorem exportPlane_x (img : NDArray α) (n0 n1 n2 : Nat) (hs : img.shape = [n0, n1, n2]) (h3 : n2 ≠ 3) (x : Int) :
    exportPlane img (some x) none none = viewX img x := by
  unfold exportPlane
  rw [if_neg (by simp [NDArray.ndim, NDArray.lastDim, hs, h3]), if_pos (by simp [NDArray.ndim, hs]),
    if_neg (by simp), if_neg (by simp [distinctGiven, List.eraseDups_cons])]
  rfl

theorem exportPlane_y (img : NDArray α) (n0 n1 n2 : Nat) (hs : img.shape = [n0, n1, n2]) (h3 : n2 ≠ 3) (x : Int) :
    exportPlane img none (some x) none = viewY img x := by
  unfold exportPlane
  rw [if_neg (by simp [NDArray.ndim, NDArray.lastDim, hs, h3]), if_pos (by simp [NDArray.ndim, hs]),
    if_neg (by simp), if_neg (by simp [distinctGiven, List.eraseDups_cons])]
  rfl

theorem exportPlane_z (img : NDArray α) (n0 n1 n2 : Nat) (hs : img.shape = [n0, n1, n2]) (h3 : n2 ≠ 3) (x : Int) :
    exportPlane img none none (some x) = viewZ img x := by
  unfold exportPlane
  rw [if_neg (by simp [NDArray.ndim, NDArray.lastDim, hs, h3]), if_pos (by simp [NDArray.ndim, hs]),
    if_neg (by simp), if_neg (by simp [distinctGiven, List.eraseDups_cons])]
  rfl

theorem exportPair_volume (disk : Txt → Py (Image Rat)) (a b : Image Rat) (n0 n1 n2 : Nat)
    (ha : a.arr.shape = [n0, n1, n2]) (hb : b.arr.shape = [n0, n1, n2]) (hd : a.dtype = b.dtype) (h3 : n2 ≠ 3)
    (x y z : Option Int) : exportPair disk a b x y z =
      (exportPlane a.arr x y z).bind (fun p => (exportPlane b.arr x y z).bind (fun q => .ok (p, q))) := by
  unfold exportPair
  rw [checkImgs_arrays disk a b false hd (by rw [ha, hb]) (Or.inr (by simp [NDArray.ndim, ha])),
    if_neg (by simp [NDArray.lastDim, ha, h3]), if_neg (by simp)]
  rfl

/-- **C68, partial**: the slices shown. With exactly one index in range, both images show that slice, and voxels
appear at the same coordinates as in the views of C98. Missing: volumes of three slices along the last axis,
see `C68_three_slices_refuted`. -/
theorem C68_slice_partial (disk : Txt → Py (Image Rat)) (a b : Image Rat) (n0 n1 n2 : Nat)
    (ha : a.arr.shape = [n0, n1, n2]) (hb : b.arr.shape = [n0, n1, n2]) (hd : a.dtype = b.dtype) (h3 : n2 ≠ 3) :
    (∀ x i, Means n0 x i → ∃ p q, exportPair disk a b (some x) none none = .ok (p, q) ∧
      p.shape = [n2, n1] ∧ q.shape = [n2, n1] ∧
      ∀ u v, u < n1 → v < n2 → p.get [v, u] = a.arr.get [i, u, v] ∧ q.get [v, u] = b.arr.get [i, u, v]) ∧
    (∀ y i, Means n1 y i → ∃ p q, exportPair disk a b none (some y) none = .ok (p, q) ∧
      p.shape = [n2, n0] ∧ q.shape = [n2, n0] ∧
      ∀ u v, u < n0 → v < n2 → p.get [v, u] = a.arr.get [u, i, v] ∧ q.get [v, u] = b.arr.get [u, i, v]) ∧
    (∀ z i, Means n2 z i → ∃ p q, exportPair disk a b none none (some z) = .ok (p, q) ∧
      p.shape = [n1, n0] ∧ q.shape = [n1, n0] ∧
      ∀ u v, u < n0 → v < n1 → p.get [v, u] = a.arr.get [u, v, i] ∧ q.get [v, u] = b.arr.get [u, v, i]) := by
  refine ⟨?_, ?_, ?_⟩
  · intro x i hi
    obtain ⟨p, hp, hp1, hp2⟩ := viewX_ok a.arr n0 n1 n2 ha x i hi
    obtain ⟨q, hq, hq1, hq2⟩ := viewX_ok b.arr n0 n1 n2 hb x i hi
    refine ⟨p, q, ?_, hp1, hq1, fun u v hu hv => ⟨hp2 u v hu hv, hq2 u v hu hv⟩⟩
    rw [exportPair_volume disk a b n0 n1 n2 ha hb hd h3, exportPlane_x a.arr n0 n1 n2 ha h3,
      exportPlane_x b.arr n0 n1 n2 hb h3, hp, hq]
    rfl
  · intro x i hi
    obtain ⟨p, hp, hp1, hp2⟩ := viewY_ok a.arr n0 n1 n2 ha x i hi
    obtain ⟨q, hq, hq1, hq2⟩ := viewY_ok b.arr n0 n1 n2 hb x i hi
    refine ⟨p, q, ?_, hp1, hq1, fun u v hu hv => ⟨hp2 u v hu hv, hq2 u v hu hv⟩⟩
    rw [exportPair_volume disk a b n0 n1 n2 ha hb hd h3, exportPlane_y a.arr n0 n1 n2 ha h3,
      exportPlane_y b.arr n0 n1 n2 hb h3, hp, hq]
    rfl
  · intro x i hi
    obtain ⟨p, hp, hp1, hp2⟩ := viewZ_ok a.arr n0 n1 n2 ha x i hi
    obtain ⟨q, hq, hq1, hq2⟩ := viewZ_ok b.arr n0 n1 n2 hb x i hi
    refine ⟨p, q, ?_, hp1, hq1, fun u v hu hv => ⟨hp2 u v hu hv, hq2 u v hu hv⟩⟩
    rw [exportPair_volume disk a b n0 n1 n2 ha hb hd h3, exportPlane_z a.arr n0 n1 n2 ha h3,
      exportPlane_z b.arr n0 n1 n2 hb h3, hp, hq]
    rfl

/-- Voxel (1, 2, 3) of a volume in the image of slice x = -1. -/
example : ∃ p q : NDArray Rat, exportPair (fun _ => .error .fileNotFound)
    ⟨.u8, ⟨[2, 3, 4], fun i => i.getD 0 0 * 100 + i.getD 1 0 * 10 + i.getD 2 0⟩⟩ ⟨.u8, ⟨[2, 3, 4], fun _ => 7⟩⟩ (some (-1)) none none = .ok (p, q) ∧
    p.get [3, 2] = 123 ∧ q.get [3, 2] = 7 := by
  obtain ⟨p, q, h, -, -, h'⟩ := (C68_slice_partial (fun _ => .error .fileNotFound)
    ⟨.u8, ⟨[2, 3, 4], fun i => i.getD 0 0 * 100 + i.getD 1 0 * 10 + i.getD 2 0⟩⟩ ⟨.u8, ⟨[2, 3, 4], fun _ => 7⟩⟩ 2 3 4 rfl rfl rfl
    (by decide)).1 (-1) 1 ⟨by decide, by decide⟩
  refine ⟨p, q, h, ?_, (h' 2 3 (by decide) (by decide)).2⟩
  rw [(h' 2 3 (by decide) (by decide)).1]
  norm_num

theorem mem_distinctGiven (x y z : Option Int) (i : Int) :
    i ∈ distinctGiven x y z ↔ x = some i ∨ y = some i ∨ z = some i := by
  unfold distinctGiven
  rw [List.mem_eraseDups]
  simp [List.mem_filterMap, eq_comm]

/-- **C68, partial**: no index, or two different ones, are refused. Missing: equal indices, see
`C68_equal_refuted`. -/
theorem C68_refused_partial (disk : Txt → Py (Image Rat)) (a b : Image Rat) (n0 n1 n2 : Nat)
    (ha : a.arr.shape = [n0, n1, n2]) (hb : b.arr.shape = [n0, n1, n2]) (hd : a.dtype = b.dtype) (h3 : n2 ≠ 3)
    (x y z : Option Int)
    (h : (x = none ∧ y = none ∧ z = none) ∨
      ∃ i j, i ≠ j ∧ (x = some i ∨ y = some i ∨ z = some i) ∧ (x = some j ∨ y = some j ∨ z = some j)) :
    ∃ m, exportPair disk a b x y z = .error (.valueError m) := by
  rw [exportPair_volume disk a b n0 n1 n2 ha hb hd h3]
  suffices hp : ∃ m, exportPlane a.arr x y z = .error (.valueError m) by
    obtain ⟨m, hm⟩ := hp
    exact ⟨m, by rw [hm]; rfl⟩
  unfold exportPlane
  rw [if_neg (by simp [NDArray.ndim, NDArray.lastDim, ha, h3]), if_pos (by simp [NDArray.ndim, ha])]
  by_cases hn : x = none ∧ y = none ∧ z = none
  · rw [if_pos hn]; exact ⟨_, rfl⟩
  · rw [if_neg hn, if_pos]
    · exact ⟨_, rfl⟩
    · rcases h with h | ⟨i, j, hij, hi, hj⟩
      · exact absurd h hn
      · intro h1
        obtain ⟨w, hw⟩ := List.length_eq_one_iff.1 h1
        have e1 := (mem_distinctGiven x y z i).2 hi
        have e2 := (mem_distinctGiven x y z j).2 hj
        rw [hw] at e1 e2
        simp only [List.mem_singleton] at e1 e2
        exact hij (e1.trans e2.symm)

example : ∃ m, exportPair (fun _ => .error .fileNotFound) ⟨.u8, ⟨[2, 3, 4], fun _ => 1⟩⟩ ⟨.u8, ⟨[2, 3, 4], fun _ => 7⟩⟩ (some 0) (some 1) none =
    .error (.valueError m) :=
  C68_refused_partial _ ⟨.u8, ⟨[2, 3, 4], fun _ => 1⟩⟩ ⟨.u8, ⟨[2, 3, 4], fun _ => 7⟩⟩ 2 3 4 rfl rfl rfl (by decide) _ _ _ (.inr ⟨0, 1, by decide, .inl rfl, .inr (.inl rfl)⟩)

/-- **C68, refuted**: the same index for all three axes is accepted, and the slice along the first axis is shown. -/
theorem C68_equal_refuted (disk : Txt → Py (Image Rat)) (a b : Image Rat) (n0 n1 n2 : Nat)
    (ha : a.arr.shape = [n0, n1, n2]) (hb : b.arr.shape = [n0, n1, n2]) (hd : a.dtype = b.dtype) (h3 : n2 ≠ 3)
    (i : Nat) (hi : i < n0) : ∃ p q, exportPair disk a b (some i) (some i) (some i) = .ok (p, q) ∧
      ∀ u v, u < n1 → v < n2 → p.get [v, u] = a.arr.get [i, u, v] := by
  obtain ⟨⟨p, q, h, -, -, hp⟩, -⟩ := (C68_slice_partial disk a b n0 n1 n2 ha hb hd h3).imp
    (fun f => f (i : Int) i ⟨hi, Or.inl rfl⟩) id
  refine ⟨p, q, ?_, fun u v hu hv => (hp u v hu hv).1⟩
  rw [← h, exportPair_volume disk a b n0 n1 n2 ha hb hd h3, exportPair_volume disk a b n0 n1 n2 ha hb hd h3]
  have key : ∀ c : Image Rat, c.arr.shape = [n0, n1, n2] →
      exportPlane c.arr (some (i : Int)) (some (i : Int)) (some (i : Int)) = exportPlane c.arr (some (i : Int)) none none := by
    intro c hc
    rw [exportPlane_x c.arr n0 n1 n2 hc h3]
    unfold exportPlane
    rw [if_neg (by simp [NDArray.ndim, NDArray.lastDim, hc, h3]), if_pos (by simp [NDArray.ndim, hc]),
      if_neg (by simp), if_neg (by simp [distinctGiven, List.eraseDups_cons])]
    rfl
  rw [key a ha, key b hb]

/-- **C68, refuted**: for every volume of three slices along the last axis no index is needed and no slice is
shown: the slices are mixed as if they were colours. -/
theorem C68_three_slices_refuted (disk : Txt → Py (Image Rat)) (a b : Image Rat) (n0 n1 : Nat)
    (ha : a.arr.shape = [n0, n1, 3]) (hb : b.arr.shape = [n0, n1, 3]) (hd : a.dtype = b.dtype) (x y z : Option Int) :
    exportPair disk a b x y z = .ok (flipAxis (toGrayscale a).arr 1, flipAxis (toGrayscale b).arr 1) := by
  unfold exportPair
  rw [checkImgs_arrays disk a b false hd (by rw [ha, hb]) (Or.inr (by simp [NDArray.ndim, ha])),
    if_pos (by simp [NDArray.lastDim, ha])]
  have key : ∀ c : Image Rat, c.arr.shape = [n0, n1, 3] →
      exportPlane (toGrayscale c).arr x y z = .ok (flipAxis (toGrayscale c).arr 1) := by
    intro c hc
    unfold exportPlane
    rw [if_pos (Or.inl (by simp [toGrayscale, NDArray.ndim, hc]))]
  simp only [bind, Except.bind]
  rw [key a ha, key b hb]

/-! ### C68: the layout -/

theorem foldl_take {β : Type} (n : Nat) (l acc : List β) (h : acc.length ≤ n) :
    l.foldl (fun acc p => if acc.length < n then acc ++ [p] else acc) acc = acc ++ l.take (n - acc.length) := by
  induction l generalizing acc with
  | nil => simp
  | cons a l ih =>
    rw [List.foldl_cons]
    by_cases hl : acc.length < n
    · rw [if_pos hl, ih _ (by simp; omega)]
      obtain ⟨k, hk⟩ : ∃ k, n - acc.length = k + 1 := ⟨n - acc.length - 1, by omega⟩
      have hk' : n - (acc ++ [a]).length = k := by simp; omega
      rw [hk, hk', List.take_succ_cons]
      simp
    · rw [if_neg hl, ih _ h]
      have : n - acc.length = 0 := by omega
      simp [this]

theorem grid_eq (c : Nat) : (List.range c).flatMap (fun i => (List.range 4).map (fun j => (i, j))) =
    (List.range (4 * c)).map (fun m => (m / 4, m % 4)) := by
  induction c with
  | zero => rfl
  | succ c ih =>
    have h4 : List.range 4 = [0, 1, 2, 3] := rfl
    rw [List.range_succ (n := c), List.flatMap_append, ih, show 4 * (c + 1) = 4 * c + 4 by ring, List.range_add,
      List.map_append]
    congr 1
    simp only [h4, List.flatMap_cons, List.flatMap_nil, List.map_cons, List.map_nil, List.append_nil]
    have e : ∀ j, j < 4 → (4 * c + j) / 4 = c ∧ (4 * c + j) % 4 = j := by intro j hj; omega
    rw [(e 0 (by omega)).1, (e 0 (by omega)).2, (e 1 (by omega)).1, (e 1 (by omega)).2, (e 2 (by omega)).1,
      (e 2 (by omega)).2, (e 3 (by omega)).1, (e 3 (by omega)).2]

theorem frPositions_eq (cols : Int) (n : Nat) (h : (n : Int) ≤ 4 * cols) :
    frPositions cols n = (List.range n).map (fun m => (m / 4, m % 4)) := by
  unfold frPositions
  rw [foldl_take _ _ _ (by simp), grid_eq, ← List.map_take, List.take_range, List.nil_append, List.length_nil,
    Nat.sub_zero, Nat.min_eq_left (by omega)]

theorem zipWith_range_map {β γ : Type} (l : List β) (g : Nat → γ) :
    List.zipWith (fun _ m => g m) l (List.range l.length) = (List.range l.length).map g := by
  apply List.ext_getElem
  · simp
  · intro i h1 h2
    simp

theorem zipWith_range_fst {β : Type} (l : List β) :
    List.zipWith (fun k (_ : Nat) => k) l (List.range l.length) = l := by
  apply List.ext_getElem
  · simp
  · intro i h1 h2
    simp

theorem perm_filter_split {β : Type} (p : β → Bool) (l : List β) : (l.filter (fun k => !p k) ++ l.filter p).Perm l := by
  induction l with
  | nil => simp
  | cons a l ih =>
    by_cases h : p a
    · simp only [List.filter_cons, h, Bool.not_true, if_true]
      exact List.perm_middle.trans (ih.cons a)
    · simp only [List.filter_cons, h]
      exact ih.cons a

/-- The layout, with the positions written out. -/
theorem exportLayout_eq (keys : List Txt) : ∃ cols : Int, 0 ≤ cols ∧
    (cols = (((keys.filter (fun k => !isNrKey k)).length : Int) - 1) / 4 + 1 + (if keys.filter isNrKey = [] then 0 else 1)) ∧
    exportLayout keys =
      List.zipWith (fun k m => (k, textPos cols ((m / 4 : Nat) : Int) (m % 4))) (keys.filter (fun k => !isNrKey k))
        (List.range (keys.filter (fun k => !isNrKey k)).length) ++
      List.zipWith (fun k m => (k, textPos cols (cols - 1) m)) (keys.filter isNrKey)
        (List.range (keys.filter isNrKey).length) := by
  refine ⟨exportCols (keys.filter (fun k => !isNrKey k)).length (keys.filter isNrKey).length, ?_, ?_, ?_⟩
  · unfold exportCols
    split <;> omega
  · unfold exportCols
    by_cases h : keys.filter isNrKey = []
    · rw [if_pos h, if_neg (by simp [h])]
    · rw [if_neg h, if_pos (by simpa [List.length_eq_zero_iff] using h)]
  · unfold exportLayout
    simp only
    rw [frPositions_eq]
    · congr 1
      · rw [List.zipWith_map_right]
      · apply List.ext_getElem
        · simp
        · intro i h1 h2
          simp [textPos]
    · unfold exportCols
      split <;> omega

theorem textPos_inj (cols : Int) (hc : 0 ≤ cols) (i i' : Int) (j j' : Nat)
    (h : textPos cols i j = textPos cols i' j') : i = i' ∧ j = j' := by
  have hc' : (0 : Rat) < (cols : Rat) + 1 := by
    have : (0 : Rat) ≤ (cols : Rat) := by exact_mod_cast hc
    linarith
  simp only [textPos, Prod.mk.injEq] at h
  obtain ⟨h1, h2⟩ := h
  constructor
  · have hne : (1 : Rat) / ((cols : Rat) + 1) ≠ 0 := by positivity
    have := mul_left_cancel₀ hne h1
    have h3 : (i : Rat) = i' := by linarith
    exact_mod_cast h3
  · have h3 : (j : Rat) = j' := by linarith
    exact_mod_cast h3

theorem textPos_col_inj (cols : Int) (hc : 0 ≤ cols) (i i' : Int) (j j' : Nat)
    (h : (textPos cols i j).1 = (textPos cols i' j').1) : i = i' := by
  refine (textPos_inj cols hc i i' j j ?_).1
  ext
  · exact h.trans rfl
  · rfl

theorem count_column (n c : Nat) : ((List.range n).filter (fun m => m / 4 = c)).length ≤ 4 := by
  have hsub : (List.range n).filter (fun m => m / 4 = c) ⊆ [4 * c, 4 * c + 1, 4 * c + 2, 4 * c + 3] := by
    intro m hm
    simp only [List.mem_filter, decide_eq_true_eq] at hm
    simp only [List.mem_cons, List.not_mem_nil, or_false]
    omega
  exact ((List.nodup_range.filter _).subperm hsub).length_le

/-- **C68**: the layout, for any results. Every result is drawn exactly once, no two at the same position; no
column holds more than four full-reference values; the no-reference values have a column for themselves. -/
theorem C68_layout (keys : List Txt) :
    ((exportLayout keys).map Prod.fst).Perm keys ∧ ((exportLayout keys).map Prod.snd).Nodup ∧
    (∀ x : Rat, ((exportLayout keys).filter (fun t => !isNrKey t.1 && t.2.1 == x)).length ≤ 4) ∧
    (∀ t ∈ exportLayout keys, ∀ t' ∈ exportLayout keys, isNrKey t.1 = true → (isNrKey t'.1 = true ↔ t'.2.1 = t.2.1)) := by
  obtain ⟨cols, hc0, hc, he⟩ := exportLayout_eq keys
  generalize hfr : keys.filter (fun k => !isNrKey k) = fr at he hc
  generalize hnr : keys.filter isNrKey = nr at he hc
  have hfr' : ∀ k ∈ fr, isNrKey k = false := by
    intro k hk; rw [← hfr] at hk; simpa using (List.mem_filter.1 hk).2
  have hnr' : ∀ k ∈ nr, isNrKey k = true := by
    intro k hk; rw [← hnr] at hk; exact (List.mem_filter.1 hk).2
  have hcol : nr ≠ [] → ∀ m, m < fr.length → ((m / 4 : Nat) : Int) < cols - 1 := by
    intro hn m hm
    rw [if_neg hn] at hc
    omega
  have hm1 : ∀ t ∈ List.zipWith (fun k m => (k, textPos cols ((m / 4 : Nat) : Int) (m % 4))) fr (List.range fr.length),
      t.1 ∈ fr ∧ ∃ m, m < fr.length ∧ t.2 = textPos cols ((m / 4 : Nat) : Int) (m % 4) := by
    intro t ht
    obtain ⟨i, hi, rfl⟩ := List.getElem_of_mem ht
    simp only [List.length_zipWith, List.length_range, Nat.min_self] at hi
    simp only [List.getElem_zipWith, List.getElem_range]
    exact ⟨List.getElem_mem _, i, hi, rfl⟩
  have hm2 : ∀ t ∈ List.zipWith (fun k m => (k, textPos cols (cols - 1) m)) nr (List.range nr.length),
      t.1 ∈ nr ∧ ∃ m, m < nr.length ∧ t.2 = textPos cols (cols - 1) m := by
    intro t ht
    obtain ⟨i, hi, rfl⟩ := List.getElem_of_mem ht
    simp only [List.length_zipWith, List.length_range, Nat.min_self] at hi
    simp only [List.getElem_zipWith, List.getElem_range]
    exact ⟨List.getElem_mem _, i, hi, rfl⟩
  refine ⟨?_, ?_, ?_, ?_⟩
  · rw [he, List.map_append, List.map_zipWith, List.map_zipWith, zipWith_range_fst, zipWith_range_fst, ← hfr, ← hnr]
    exact perm_filter_split _ _
  · rw [he, List.map_append, List.map_zipWith, List.map_zipWith, zipWith_range_map fr (fun m => textPos cols ((m / 4 : Nat) : Int) (m % 4)),
      zipWith_range_map nr (fun m => textPos cols (cols - 1) m)]
    apply List.Nodup.append
    · apply List.Nodup.map _ List.nodup_range
      intro m m' h
      have := textPos_inj cols hc0 _ _ _ _ h
      omega
    · apply List.Nodup.map _ List.nodup_range
      intro m m' h
      exact (textPos_inj cols hc0 _ _ _ _ h).2
    · intro q h1 h2
      simp only [List.mem_map, List.mem_range] at h1 h2
      obtain ⟨m, hm, rfl⟩ := h1
      obtain ⟨m', hm', h⟩ := h2
      have := (textPos_inj cols hc0 _ _ _ _ h).1
      have := hcol (by intro h0; rw [h0] at hm'; simp at hm') m hm
      omega
  · intro x
    rw [he, List.filter_append, List.length_append]
    have h2 : (List.zipWith (fun k m => (k, textPos cols (cols - 1) m)) nr (List.range nr.length)).filter
        (fun t => !isNrKey t.1 && t.2.1 == x) = [] := by
      rw [List.filter_eq_nil_iff]
      intro t ht
      simp [hnr' _ (hm2 t ht).1]
    rw [h2, List.length_nil, Nat.add_zero]
    have h1 : ((List.zipWith (fun k m => (k, textPos cols ((m / 4 : Nat) : Int) (m % 4))) fr (List.range fr.length)).filter
        (fun t => !isNrKey t.1 && t.2.1 == x)).length ≤
        ((List.range fr.length).filter (fun m => (textPos cols ((m / 4 : Nat) : Int) (m % 4)).1 == x)).length := by
      rw [← List.countP_eq_length_filter, ← List.countP_eq_length_filter]
      have e : ∀ l : List (Txt × Rat × Rat), l.countP (fun t => !isNrKey t.1 && t.2.1 == x) ≤
          (l.map Prod.snd).countP (fun q => q.1 == x) := by
        intro l
        rw [List.countP_map]
        apply List.countP_mono_left
        intro t _ ht
        simp only [Bool.and_eq_true] at ht
        exact ht.2
      refine (e _).trans ?_
      rw [List.map_zipWith, zipWith_range_map fr (fun m => textPos cols ((m / 4 : Nat) : Int) (m % 4)), List.countP_map]
      exact le_of_eq rfl
    refine h1.trans ?_
    by_cases hex : ∃ m0, (textPos cols ((m0 / 4 : Nat) : Int) (m0 % 4)).1 = x
    · obtain ⟨m0, rfl⟩ := hex
      refine le_trans (le_of_eq ?_) (count_column fr.length (m0 / 4))
      congr 1
      apply List.filter_congr
      intro m _
      by_cases hmm : m / 4 = m0 / 4
      · rw [hmm]; simp [textPos]
      · rw [decide_eq_false hmm, beq_eq_false_iff_ne]
        intro h
        have := textPos_col_inj cols hc0 _ _ _ _ h
        omega
    · rw [List.filter_eq_nil_iff.2]
      · simp
      · intro m _ h
        exact hex ⟨m, by simpa using h⟩
  · intro t ht t' ht' hnrt
    rw [he, List.mem_append] at ht ht'
    have h2 : t.1 ∈ nr ∧ ∃ m, m < nr.length ∧ t.2 = textPos cols (cols - 1) m := by
      rcases ht with h | h
      · rw [hfr' _ (hm1 t h).1] at hnrt
        cases hnrt
      · exact hm2 t h
    obtain ⟨hk, m, hm, hp⟩ := h2
    rcases ht' with h | h
    · obtain ⟨hk', m', hm', hp'⟩ := hm1 t' h
      rw [hfr' _ hk', hp, hp']
      constructor
      · intro h; cases h
      · intro h
        have := textPos_col_inj cols hc0 _ _ _ _ h
        have := hcol (by intro h0; rw [h0] at hk; cases hk) m' hm'
        omega
    · obtain ⟨hk', m', hm', hp'⟩ := hm2 t' h
      rw [hp, hp']
      exact ⟨fun _ => rfl, fun _ => hnr' _ hk'⟩

example : (exportLayout ["PSNR".toList, "SNR_r".toList, "SSIM".toList, "SNR_m".toList]).map Prod.fst =
    ["PSNR".toList, "SSIM".toList, "SNR_r".toList, "SNR_m".toList] := by decide +kernel

/-! ### C97 -/

/-- Entries that take one line each: no line breaks, and no colon in the names of parameters. -/
def PlainEntry (m : MetaEntry) : Prop :=
  '\n' ∉ m.name ∧ '\n' ∉ m.dataRange ∧ ∀ p ∈ m.params, '\n' ∉ p.1 ∧ ':' ∉ p.1 ∧ '\n' ∉ p.2

theorem append_sep_inj {β : Type} (c : β) (a b : List β) (u v : List β) (ha : c ∉ a) (hb : c ∉ b)
    (h : a ++ c :: u = b ++ c :: v) : a = b ∧ u = v := by
  induction a generalizing b with
  | nil =>
    cases b with
    | nil => simpa using h
    | cons y b =>
      simp only [List.nil_append, List.cons_append, List.cons.injEq] at h
      exact absurd h.1 (by intro e; exact hb (by simp [e]))
  | cons x a ih =>
    cases b with
    | nil =>
      simp only [List.nil_append, List.cons_append, List.cons.injEq] at h
      exact absurd h.1 (by intro e; exact ha (by simp [e]))
    | cons y b =>
      simp only [List.cons_append, List.cons.injEq] at h
      obtain ⟨h1, h2⟩ := ih b (fun hc => ha (by simp [hc])) (fun hc => hb (by simp [hc])) h.2
      exact ⟨by rw [h.1, h1], h2⟩

theorem lines_inj (a b : List Txt) (ha : ∀ l ∈ a, '\n' ∉ l) (hb : ∀ l ∈ b, '\n' ∉ l)
    (h : a.flatMap (fun l => l ++ ['\n']) = b.flatMap (fun l => l ++ ['\n'])) : a = b := by
  induction a generalizing b with
  | nil =>
    cases b with
    | nil => rfl
    | cons y b => simp at h
  | cons x a ih =>
    cases b with
    | nil => simp at h
    | cons y b =>
      simp only [List.flatMap_cons, List.append_assoc, List.singleton_append] at h
      obtain ⟨h1, h2⟩ := append_sep_inj '\n' x y _ _ (ha x (by simp)) (hb y (by simp)) h
      rw [h1, ih b (fun l hl => ha l (by simp [hl])) (fun l hl => hb l (by simp [hl])) h2]

theorem paramLine_inj (p q : Txt × Txt) (hp : ':' ∉ p.1) (hq : ':' ∉ q.1) (h : paramLine p = paramLine q) : p = q := by
  unfold paramLine at h
  simp only [List.append_assoc] at h
  obtain ⟨h1, h2⟩ := append_sep_inj ':' p.1 q.1 _ _ hp hq h
  ext1
  · exact h1
  · exact (List.cons.inj h2).2

theorem params_inj (a b : List (Txt × Txt)) (u v : List Txt) (ha : ∀ p ∈ a, ':' ∉ p.1) (hb : ∀ p ∈ b, ':' ∉ p.1)
    (h : a.map paramLine ++ [] :: u = b.map paramLine ++ [] :: v) : a = b ∧ u = v := by
  have hne : ∀ p : Txt × Txt, paramLine p ≠ [] := by
    intro p; unfold paramLine; simp
  have hmem : ∀ l : List (Txt × Txt), ([] : Txt) ∉ l.map paramLine := by
    intro l hl
    obtain ⟨p, -, hp⟩ := List.mem_map.1 hl
    exact hne p hp
  obtain ⟨h1, h2⟩ := append_sep_inj [] _ _ u v (hmem a) (hmem b) h
  refine ⟨?_, h2⟩
  induction a generalizing b with
  | nil => cases b with
    | nil => rfl
    | cons q b => simp at h1
  | cons p a ih => cases b with
    | nil => simp at h1
    | cons q b =>
      simp only [List.map_cons, List.cons.injEq] at h1
      rw [paramLine_inj p q (ha p (by simp)) (hb q (by simp)) h1.1,
        ih b (fun p hp => ha p (by simp [hp])) (fun p hp => hb p (by simp [hp])) (by rw [h1.2, h2]) h1.2]

/-- **C97, partial.** The metadata file says which parameters belong to which metric: for entries that take one
line each, files with the same text below the heading come from the same entries in the same order.
Missing: texts with line breaks, see `C97_refuted`. -/
theorem C97_readable_partial (a b : List MetaEntry) (ha : ∀ m ∈ a, PlainEntry m) (hb : ∀ m ∈ b, PlainEntry m)
    (h : metaBody a = metaBody b) : a = b := by
  have hl : ∀ c : List MetaEntry, (∀ m ∈ c, PlainEntry m) → ∀ l ∈ c.flatMap metaLines, '\n' ∉ l := by
    intro c hc l hl
    obtain ⟨m, hm, hml⟩ := List.mem_flatMap.1 hl
    obtain ⟨h1, h2, h3⟩ := hc m hm
    unfold metaLines at hml
    simp only [List.mem_append, List.mem_cons, List.not_mem_nil, or_false, List.mem_map] at hml
    rcases hml with ((rfl | rfl | rfl) | ⟨p, hp, rfl⟩) | rfl
    · exact h1
    · simp
    · simp [h2]
    · obtain ⟨e1, -, e3⟩ := h3 p hp
      simp [paramLine, e1, e3]
    · simp
  have h' := lines_inj _ _ (hl a ha) (hl b hb) h
  clear h
  induction a generalizing b with
  | nil => cases b with
    | nil => rfl
    | cons m b => simp [metaLines] at h'
  | cons m a ih => cases b with
    | nil => simp [metaLines] at h'
    | cons n b =>
      simp only [List.flatMap_cons, metaLines, List.cons_append, List.nil_append, List.append_assoc, List.cons.injEq] at h'
      obtain ⟨e1, -, e2, e3⟩ := h'
      obtain ⟨e4, e5⟩ := params_inj m.params n.params _ _ (fun p hp => ((ha m (by simp)).2.2 p hp).2.1)
        (fun p hp => ((hb n (by simp)).2.2 p hp).2.1) e3
      have e6 : m.dataRange = n.dataRange := List.append_cancel_left e2
      rw [ih b (fun m hm => ha m (by simp [hm])) (fun m hm => hb m (by simp [hm])) e5]
      congr 1
      cases m; cases n
      simp_all

example : metaBody [⟨"SSIM".toList, "255".toList, [("win_size".toList, "7".toList)]⟩] ≠
    metaBody [⟨"SSIM".toList, "255".toList, [("win_size".toList, "9".toList)]⟩] := fun h =>
  absurd (C97_readable_partial _ _ (by unfold PlainEntry; decide) (by unfold PlainEntry; decide) h) (by decide)

/-- **C97**: every metric gets the parameters at its own position; with too few parameters nothing complete is
written. -/
theorem C97_own_parameters (metrics : List (Txt × Txt)) (params : List (List (Txt × Txt))) :
    (∀ es, metaEntries metrics params = .ok es → es.length = metrics.length ∧ metrics.length ≤ params.length ∧
      ∀ (i : Nat) m, metrics[i]? = some m → ∃ p, params[i]? = some p ∧ es[i]? = some ⟨m.1, m.2, p⟩) ∧
    (params.length < metrics.length → metaEntries metrics params = .error .indexError) ∧
    (metrics.length ≤ params.length → ∃ es, metaEntries metrics params = .ok es) := by
  have gen : ∀ (ms : List (Txt × Txt)) (k : Nat),
      (∀ es, (ms.zipIdx k).mapM (fun (m, i) => match params[i]? with
          | some p => (Except.ok ⟨m.1, m.2, p⟩ : Py MetaEntry)
          | none => .error .indexError) = .ok es → es.length = ms.length ∧ (ms ≠ [] → k + ms.length ≤ params.length) ∧
        ∀ (i : Nat) m, ms[i]? = some m → ∃ p, params[k + i]? = some p ∧ es[i]? = some ⟨m.1, m.2, p⟩) ∧
      (ms ≠ [] → params.length < k + ms.length → (ms.zipIdx k).mapM (fun (m, i) => match params[i]? with
          | some p => (Except.ok ⟨m.1, m.2, p⟩ : Py MetaEntry)
          | none => .error .indexError) = .error .indexError) ∧
      (k + ms.length ≤ params.length → ∃ es, (ms.zipIdx k).mapM (fun (m, i) => match params[i]? with
          | some p => (Except.ok ⟨m.1, m.2, p⟩ : Py MetaEntry)
          | none => .error .indexError) = .ok es) := by
    intro ms
    induction ms with
    | nil =>
      intro k
      refine ⟨?_, ?_, ?_⟩
      · intro es h
        simp only [List.zipIdx_nil, List.mapM_nil, pure, Except.pure, Except.ok.injEq] at h
        subst h
        simp
      · simp
      · intro _; exact ⟨[], rfl⟩
    | cons m ms ih =>
      intro k
      obtain ⟨i1, i2, i3⟩ := ih (k + 1)
      simp only [List.zipIdx_cons, List.mapM_cons]
      cases hp : params[k]? with
      | none =>
        have hk : params.length ≤ k := List.getElem?_eq_none_iff.1 hp
        simp only [bind, Except.bind, List.length_cons]
        refine ⟨?_, ?_, ?_⟩
        · intro es h; cases h
        · intro _ _; trivial
        · intro h; omega
      | some p =>
        have hk : k < params.length := by
          by_contra hc
          rw [List.getElem?_eq_none_iff.2 (by omega)] at hp
          cases hp
        simp only [bind, Except.bind, List.length_cons]
        refine ⟨?_, ?_, ?_⟩
        · intro es h
          cases hr : (ms.zipIdx (k + 1)).mapM (fun (m, i) => match params[i]? with
              | some p => (Except.ok ⟨m.1, m.2, p⟩ : Py MetaEntry)
              | none => .error .indexError) with
          | error e =>
            rw [hr] at h
            cases h
          | ok es' =>
            rw [hr] at h
            simp only [pure, Except.pure, Except.ok.injEq] at h
            subst h
            obtain ⟨j1, j2, j3⟩ := i1 es' hr
            refine ⟨by simp [j1], ?_, ?_⟩
            · intro _
              by_cases hm : ms = []
              · subst hm; simp; omega
              · have := j2 hm; omega
            · intro i m' hm'
              cases i with
              | zero =>
                simp only [List.getElem?_cons_zero, Option.some.injEq] at hm'
                subst hm'
                exact ⟨p, hp, rfl⟩
              | succ i =>
                simp only [List.getElem?_cons_succ] at hm' ⊢
                obtain ⟨p', h1, h2⟩ := j3 i m' hm'
                exact ⟨p', by rw [← h1]; congr 1; omega, h2⟩
        · intro _ hlt
          rw [i2 (by intro h0; subst h0; simp at hlt; omega) (by omega)]
        · intro hle
          obtain ⟨es', he⟩ := i3 (by omega)
          rw [he]
          exact ⟨_, rfl⟩
  obtain ⟨g1, g2, g3⟩ := gen metrics 0
  unfold metaEntries
  refine ⟨?_, ?_, ?_⟩
  · intro es h
    obtain ⟨h1, h2, h3⟩ := g1 es h
    refine ⟨h1, ?_, ?_⟩
    · by_cases hm : metrics = []
      · subst hm; simp
      · have := h2 hm; omega
    · intro i m hm
      simpa using h3 i m hm
  · intro h
    exact g2 (by intro h0; subst h0; simp at h) (by omega)
  · intro h
    exact g3 (by omega)

example : metaEntries [("SSIM".toList, "255".toList), ("UQI".toList, "255".toList)] [[("win_size".toList, "7".toList)]] = .error .indexError :=
  (C97_own_parameters _ _).2.1 (by decide)

example : ∃ es, metaEntries [("SSIM".toList, "255".toList), ("UQI".toList, "1".toList)] [[("win_size".toList, "7".toList)], []] = .ok es ∧
    es[1]? = some ⟨"UQI".toList, "1".toList, []⟩ := by
  obtain ⟨h1, -, h3⟩ := C97_own_parameters [("SSIM".toList, "255".toList), ("UQI".toList, "1".toList)] [[("win_size".toList, "7".toList)], []]
  obtain ⟨es, h⟩ := h3 (by decide)
  obtain ⟨p, hp, he⟩ := (h1 es h).2.2 1 ("UQI".toList, "1".toList) rfl
  refine ⟨es, h, ?_⟩
  simp only [List.getElem?_cons_succ, List.getElem?_cons_zero, Option.some.injEq] at hp
  rw [he, hp]

/-- **C97, refuted** for texts with line breaks (such as arrays): one parameter looks like two. -/
theorem C97_refuted : ¬ ∀ a b : List MetaEntry, metaBody a = metaBody b → a = b := by
  intro h
  have := h [⟨"PSNR".toList, "255".toList, [("a".toList, "1\nb: 2".toList)]⟩]
    [⟨"PSNR".toList, "255".toList, [("a".toList, "1".toList), ("b".toList, "2".toList)]⟩] (by decide +kernel)
  simp at this

example : PlainEntry ⟨"SSIM".toList, "255".toList, [("win_size".toList, "7".toList)]⟩ := by
  unfold PlainEntry; decide

end Viqa
