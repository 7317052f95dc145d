import Verif.Model.QMeasure
import Verif.Lemmas.Scripts

set_option linter.unusedSimpArgs false

/-!
Properties C69 and C103: what QMeasure hands to the native code.
-/

namespace Viqa
open Spec

theorem map_ravelIndex (sh : List Nat) : (indices sh).map (ravelIndex sh) = List.range sh.prod := by
  apply List.ext_getElem?
  intro k
  rw [List.getElem?_map]
  by_cases hk : k < sh.prod
  · have hk' : k < (indices sh).length := by rw [length_indices]; exact hk
    rw [List.getElem?_eq_getElem hk', List.getElem?_range hk, Option.map_some]
    have hin : InShape sh (indices sh)[k] := (mem_indices _ _).1 (List.getElem_mem _)
    have h1 := toList_get sh _ hin
    obtain ⟨hr, he⟩ := List.getElem?_eq_some_iff.1 h1
    rw [(List.Nodup.getElem_inj_iff (indices_nodup sh)).1 he]
  · rw [List.getElem?_eq_none (by rw [length_indices]; omega), List.getElem?_eq_none (by rw [List.length_range]; omega)]
    rfl

namespace MemVolume

theorem itemOffset_cStrides (sh idx : List Nat) (h : InShape sh idx) :
    itemOffset (cStrides sh) idx = (ravelIndex sh idx : Int) := by
  induction sh generalizing idx with
  | nil => cases idx with
    | nil => rfl
    | cons => exact h.elim
  | cons n sh ih =>
    cases idx with
    | nil => exact h.elim
    | cons i idx =>
      have := ih idx h.2
      simp only [itemOffset, cStrides, List.zipWith_cons_cons, List.sum_cons, ravelIndex] at this ⊢
      rw [this, Int.mul_comm]; push_cast; rfl

theorem packedIndex_cStrides (sh idx : List Nat) (h : InShape sh idx) (q : Nat) :
    packedIndex sh (cStrides sh) (q * sh.prod + ravelIndex sh idx) = idx := by
  induction sh generalizing idx q with
  | nil => cases idx with
    | nil => rfl
    | cons => exact h.elim
  | cons n sh ih =>
    cases idx with
    | nil => exact h.elim
    | cons i idx =>
      have hlt := ravelIndex_lt sh idx h.2
      have e : q * (n :: sh).prod + ravelIndex (n :: sh) (i :: idx) = (q * n + i) * sh.prod + ravelIndex sh idx := by
        simp only [ravelIndex, List.prod_cons]
        rw [Nat.add_mul, Nat.mul_assoc]; omega
      rw [e]
      have := ih idx h.2 (q * n + i)
      simp only [packedIndex, cStrides, List.zipWith_cons_cons] at this ⊢
      rw [this, Int.toNat_natCast, Nat.mul_comm _ sh.prod, Nat.mul_add_div (by omega), Nat.div_eq_of_lt hlt, Nat.add_zero,
        Nat.mul_comm q n, Nat.mul_add_mod, Nat.mod_eq_of_lt h.1]

theorem keepStrides_cStrides (a b c : Nat) (hb : 0 < b) (hc : 0 < c) :
    keepStrides [a, b, c] (cStrides [a, b, c]) = cStrides [a, b, c] := by
  have h1 : ¬ (b * c < c) := by
    have := Nat.mul_le_mul_right c hb; omega
  have h2 : ¬ (c < 1) := by omega
  have h3 : ¬ (b * c < 1) := by
    have := Nat.mul_le_mul_right c hb; omega
  have hs : sortedAxes (cStrides [a, b, c]) = [0, 1, 2] := by
    have l1 : ¬ ((((b : Int) * c).natAbs) < c) := by rw [Int.natAbs_mul]; simpa using h1
    have l2 : ¬ ((((b : Int) * c).natAbs) < 1) := by rw [Int.natAbs_mul]; simpa using h3
    simp [sortedAxes, cStrides, insertAxis, List.range_succ, l1, l2, h2, hc]
  unfold keepStrides
  rw [hs]
  simp [packedStride, List.range_succ, cStrides]

/-- The voxels with the last axis running fastest. -/
def cOrder (v : MemVolume) : List Nat := (indices v.shape).map v.item

/-- The voxels with the first axis running fastest. -/
def fOrder (v : MemVolume) : List Nat := (indices v.shape.reverse).map (fun idx => v.item idx.reverse)

theorem nativeWords_c (sh : List Nat) (base : Nat) (mem : Nat → Nat) (conv) :
    nativeWords ⟨.float32, sh, cStrides sh, base, mem, conv⟩ = cOrder ⟨.float32, sh, cStrides sh, base, mem, conv⟩ := by
  unfold nativeWords cOrder
  simp only
  rw [← map_ravelIndex, List.map_map]
  apply List.map_congr_left
  intro idx hidx
  simp only [Function.comp_apply, item]
  rw [itemOffset_cStrides sh idx ((mem_indices _ _).1 hidx)]
  congr 1

end MemVolume

open MemVolume

/-- **C69, partial.** For packed volumes in C order of any item type but `float64` the native code receives all voxels,
converted to `float32`, with the last axis running fastest. Missing: `float64`, other memory layouts. -/
theorem C69_c_order_partial (v : MemVolume) (hk : v.kind ≠ .float64) (h3 : v.shape.length = 3)
    (hs : v.strides = cStrides v.shape) : nativeWords (toFloat32 v) = cOrder v := by
  obtain ⟨kind, shape, strides, base, mem, conv⟩ := v
  simp only at hk h3 hs
  subst hs
  cases kind with
  | float32 => exact nativeWords_c _ _ _ _
  | float64 => exact absurd rfl hk
  | other =>
    match shape, h3 with
    | [a, b, c], _ =>
      by_cases h0 : [a, b, c].prod = 0
      · have : indices [a, b, c] = [] := by
          apply List.length_eq_zero_iff.1; rw [length_indices, h0]
        simp only [nativeWords, toFloat32, cOrder, h0, this]; rfl
      · have hb : 0 < b := by
          apply Nat.pos_of_ne_zero; rintro rfl; simp at h0
        have hc : 0 < c := by
          apply Nat.pos_of_ne_zero; rintro rfl; simp at h0
        simp only [nativeWords, toFloat32, cOrder, keepStrides_cStrides a b c hb hc]
        rw [← map_ravelIndex, List.map_map]
        apply List.map_congr_left
        intro idx hidx
        have := packedIndex_cStrides [a, b, c] idx ((mem_indices _ _).1 hidx) 0
        rw [Nat.zero_mul, Nat.zero_add] at this
        simp only [Function.comp_apply, item, Nat.zero_add, this]

example : nativeWords (toFloat32 ⟨.other, [2, 1, 2], cStrides [2, 1, 2], 0, fun _ => 0, fun i => 10 * i.getD 0 0 + i.getD 2 0⟩) =
    cOrder ⟨.other, [2, 1, 2], cStrides [2, 1, 2], 0, fun _ => 0, fun i => 10 * i.getD 0 0 + i.getD 2 0⟩ :=
  C69_c_order_partial _ (by decide) rfl rfl

/-- **C69, partial.** For packed `float32` volumes in Fortran order, such as volumes loaded from a file, the native code
receives all voxels, but with the first axis running fastest. -/
theorem C69_f_order_partial (a b c base : Nat) (mem : Nat → Nat) (conv) :
    let v : MemVolume := ⟨.float32, [a, b, c], fStrides [a, b, c], base, mem, conv⟩
    nativeWords (toFloat32 v) = fOrder v := by
  intro v
  have hp : [a, b, c].prod = [c, b, a].prod := by
    simp only [List.prod_cons, List.prod_nil, Nat.mul_one]
    rw [← Nat.mul_assoc, ← Nat.mul_assoc, Nat.mul_comm (a * b) c, Nat.mul_comm a b, Nat.mul_assoc]
  show (List.range [a, b, c].prod).map _ = (indices [c, b, a]).map _
  rw [hp, ← map_ravelIndex, List.map_map]
  apply List.map_congr_left
  intro idx hidx
  have hin := (mem_indices _ _).1 hidx
  match idx, hin with
  | [z, y, x], _ =>
    simp only [Function.comp_apply, List.reverse_cons, List.reverse_nil, List.nil_append, List.cons_append, v, item, fStrides,
      fStridesFrom, itemOffset, List.zipWith_cons_cons, List.zipWith_nil_left, List.sum_cons, List.sum_nil, ravelIndex,
      List.prod_cons, List.prod_nil, toFloat32]
    congr 1
    have e : ((base : Int) + ((1 : Nat) * (x : Int) + (((1 * a : Nat) : Int) * y + (((1 * a * b : Nat) : Int) * z + 0)))) =
        ((base + (z * (b * (a * 1)) + (y * (a * 1) + (x * 1 + 0))) : Nat) : Int) := by
      push_cast
      rw [Int.mul_comm (z : Int), Int.mul_comm (y : Int), Int.mul_comm (b : Int)]
      simp only [Int.one_mul, Int.mul_one]
      omega
    rw [e, Int.toNat_natCast]

example : nativeWords (toFloat32 ⟨.float32, [2, 3, 4], fStrides [2, 3, 4], 5, fun i => i, fun _ => 0⟩) =
    fOrder ⟨.float32, [2, 3, 4], fStrides [2, 3, 4], 5, fun i => i, fun _ => 0⟩ := C69_f_order_partial 2 3 4 5 (fun i => i) (fun _ => 0)

/-- **C69, refuted**: the same volume is handed over in different orders, depending on its memory layout. -/
theorem C69_layout_refuted : ∃ v w : MemVolume, v.kind = .float32 ∧ w.kind = .float32 ∧ v.shape = [2, 2, 1] ∧ w.shape = v.shape ∧
    (∀ idx ∈ indices v.shape, v.item idx = w.item idx) ∧ nativeWords (toFloat32 v) ≠ nativeWords (toFloat32 w) := by
  refine ⟨⟨.float32, [2, 2, 1], cStrides [2, 2, 1], 0, fun k => [1, 2, 3, 4].getD k 0, fun _ => 0⟩,
    ⟨.float32, [2, 2, 1], fStrides [2, 2, 1], 0, fun k => [1, 3, 2, 4].getD k 0, fun _ => 0⟩, rfl, rfl, rfl, rfl, ?_, ?_⟩
  · decide +kernel
  · decide +kernel

/-- **C69, refuted** for `float64`: the native code only sees the first half of the volume, as halves of the 64 bit numbers.
Two volumes that agree in the first half of their voxels cannot be told apart. -/
theorem C69_double_refuted (v w : MemVolume) (hv : v.kind = .float64) (hw : w.kind = .float64) (hsh : w.shape = v.shape)
    (hsv : v.strides = cStrides v.shape) (hsw : w.strides = cStrides w.shape)
    (hmv : ∀ k, v.mem k < 2 ^ 32) (hmw : ∀ k, w.mem k < 2 ^ 32)
    (h : ∀ k idx, (indices v.shape)[k]? = some idx → 2 * k < v.shape.prod → v.item idx = w.item idx) :
    nativeWords (toFloat32 v) = nativeWords (toFloat32 w) := by
  have e1 : toFloat32 v = v := by unfold toFloat32; rw [hv]
  have e2 : toFloat32 w = w := by unfold toFloat32; rw [hw]
  rw [e1, e2]
  unfold nativeWords
  rw [hsh]
  apply List.map_congr_left
  intro k hk
  have hk : k < v.shape.prod := by simpa using hk
  have hk2 : k / 2 < (indices v.shape).length := by rw [length_indices]; omega
  have hin : InShape v.shape (indices v.shape)[k / 2] := (mem_indices _ _).1 (List.getElem_mem _)
  have hr : ravelIndex v.shape (indices v.shape)[k / 2] = k / 2 := by
    obtain ⟨_, he⟩ := List.getElem?_eq_some_iff.1 (toList_get _ _ hin)
    exact (List.Nodup.getElem_inj_iff (indices_nodup v.shape)).1 he
  have hi := h (k / 2) _ (List.getElem?_eq_getElem hk2) (by omega)
  unfold item at hi
  rw [hv, hw, hsv, hsw, hsh, itemOffset_cStrides _ _ hin, hr] at hi
  simp only at hi
  have p1 : ∀ base : Nat, ((base : Int) + 2 * ((k / 2 : Nat) : Int)).toNat = base + 2 * (k / 2) := by intro base; omega
  rw [p1, p1] at hi
  have m1 := hmv (v.base + 2 * (k / 2))
  have m2 := hmw (w.base + 2 * (k / 2))
  rcases Nat.mod_two_eq_zero_or_one k with hp | hp
  · rw [show v.base + k = v.base + 2 * (k / 2) by omega, show w.base + k = w.base + 2 * (k / 2) by omega]; omega
  · rw [show v.base + k = v.base + 2 * (k / 2) + 1 by omega, show w.base + k = w.base + 2 * (k / 2) + 1 by omega]; omega

/-- **C69, refuted** for every part of a larger `float32` volume with more columns (as given by a region of interest): the
native code receives items that do not belong to the part. Memory outside of the part can be changed such that all
voxels remain the same, but not the words handed over. -/
theorem C69_view_refuted (a b c c' base : Nat) (ha : 0 < a) (hb : 1 < b) (hc : 0 < c') (hc' : c' < c) (mem : Nat → Nat) (conv) :
    ∃ mem', let v : MemVolume := ⟨.float32, [a, b, c'], [((b * c : Nat) : Int), c, 1], base, mem, conv⟩
      let w : MemVolume := ⟨.float32, [a, b, c'], [((b * c : Nat) : Int), c, 1], base, mem', conv⟩
      (∀ idx, InShape [a, b, c'] idx → v.item idx = w.item idx) ∧ nativeWords (toFloat32 v) ≠ nativeWords (toFloat32 w) := by
  refine ⟨fun k => if k = base + c' then mem k + 1 else mem k, ?_, ?_⟩
  · intro idx hidx
    match idx, hidx with
    | [i, j, l], ⟨hi, hj, hl, _⟩ =>
      simp only [item, itemOffset, List.zipWith_cons_cons, List.zipWith_nil_left, List.sum_cons, List.sum_nil]
      refine (if_neg ?_).symm
      have e : ((base : Int) + (((b * c : Nat) : Int) * i + ((c : Int) * j + (1 * (l : Int) + 0)))).toNat =
          base + (c * (b * i + j) + l) := by
        have : ((base : Int) + (((b * c : Nat) : Int) * i + ((c : Int) * j + (1 * (l : Int) + 0)))) =
            ((base + (c * (b * i + j) + l) : Nat) : Int) := by
          push_cast; rw [Int.mul_add, ← Int.mul_assoc, Int.mul_comm (b : Int) c]; omega
        rw [this, Int.toNat_natCast]
      rw [e]
      intro hcon
      rcases Nat.eq_zero_or_pos (b * i + j) with h0 | h0
      · rw [h0] at hcon; omega
      · have := Nat.mul_le_mul_left c h0
        omega
  · intro hcon
    have hlt : c' < [a, b, c'].prod := by
      simp only [List.prod_cons, List.prod_nil, Nat.mul_one]
      have h1 : 2 * c' ≤ b * c' := Nat.mul_le_mul_right _ hb
      have h2 : 1 * (b * c') ≤ a * (b * c') := Nat.mul_le_mul_right _ ha
      omega
    have := congrArg (fun l => l[c']?) hcon
    simp only [nativeWords, toFloat32, List.getElem?_map, List.getElem?_range hlt, Option.map_some] at this
    simp at this

example : nativeWords (toFloat32 ⟨.other, [2, 1, 2], cStrides [2, 1, 2], 0, fun _ => 0, fun i => 10 * i.getD 0 0 + i.getD 2 0⟩) =
    [0, 1, 10, 11] := by decide +kernel

/-- Two volumes of two 64 bit numbers that differ in the second one. -/
example : nativeWords (toFloat32 ⟨.float64, [1, 1, 2], cStrides [1, 1, 2], 0, fun k => [7, 8, 9, 9].getD k 0, fun _ => 0⟩) =
    nativeWords (toFloat32 ⟨.float64, [1, 1, 2], cStrides [1, 1, 2], 0, fun k => [7, 8, 1, 2].getD k 0, fun _ => 0⟩) := by
  decide +kernel

/-! ### C103 -/

theorem foldl_min_spec (vs : List ℚ) (v : ℚ) : vs.foldl min v ∈ v :: vs ∧ ∀ x ∈ v :: vs, vs.foldl min v ≤ x := by
  induction vs generalizing v with
  | nil => simp
  | cons a vs ih =>
    obtain ⟨h1, h2⟩ := ih (min v a)
    rw [List.foldl_cons]
    refine ⟨?_, ?_⟩
    · rcases List.mem_cons.1 h1 with h | h
      · rw [h]; rcases min_choice v a with h | h <;> simp [h]
      · simp [h]
    · intro x hx
      have h0 := h2 (min v a) (by simp)
      simp only [List.mem_cons] at hx
      rcases hx with rfl | rfl | hx
      · exact le_trans h0 (min_le_left _ _)
      · exact le_trans h0 (min_le_right _ _)
      · exact h2 x (by simp [hx])

theorem foldl_max_spec (vs : List ℚ) (v : ℚ) : vs.foldl max v ∈ v :: vs ∧ ∀ x ∈ v :: vs, x ≤ vs.foldl max v := by
  induction vs generalizing v with
  | nil => simp
  | cons a vs ih =>
    obtain ⟨h1, h2⟩ := ih (max v a)
    rw [List.foldl_cons]
    refine ⟨?_, ?_⟩
    · rcases List.mem_cons.1 h1 with h | h
      · rw [h]; rcases max_choice v a with h | h <;> simp [h]
      · simp [h]
    · intro x hx
      have h0 := h2 (max v a) (by simp)
      simp only [List.mem_cons] at hx
      rcases hx with rfl | rfl | hx
      · exact le_trans (le_max_left _ _) h0
      · exact le_trans (le_max_right _ _) h0
      · exact h2 x (by simp [hx])

theorem truncInt_le (q : ℚ) : (truncInt q : ℚ) ≤ q ↔ 0 ≤ q ∨ ∃ n : ℤ, q = n := by
  unfold truncInt
  split
  · rename_i h; simp [h, Int.floor_le]
  · rename_i h
    constructor
    · intro hle
      exact Or.inr ⟨⌈q⌉, le_antisymm (Int.le_ceil q) hle⟩
    · rintro (h' | ⟨n, rfl⟩)
      · exact absurd h' h
      · simp

theorem le_truncInt (q : ℚ) : q ≤ (truncInt q : ℚ) ↔ q ≤ 0 ∨ ∃ n : ℤ, q = n := by
  unfold truncInt
  split
  · rename_i h
    constructor
    · intro hle
      exact Or.inr ⟨⌊q⌋, le_antisymm hle (Int.floor_le q)⟩
    · rintro (h' | ⟨n, rfl⟩)
      · have : q = 0 := le_antisymm h' h
        subst this; simp
      · simp
  · rename_i h
    simp [Int.le_ceil, le_of_not_ge h]

/-- **C103, partial.** The range handed to the native code contains all values of the volume exactly if the smallest value is an
integer or not negative, and the largest one an integer or not positive. -/
theorem C103_covers_iff_partial (values : List ℚ) (lo hi : ℤ) (h : qmeasureRange values = .ok (lo, hi)) :
    (∀ x ∈ values, (lo : ℚ) ≤ x ∧ x ≤ hi) ↔
      (∀ m ∈ values, (∀ x ∈ values, m ≤ x) → 0 ≤ m ∨ ∃ n : ℤ, m = n) ∧
      (∀ m ∈ values, (∀ x ∈ values, x ≤ m) → m ≤ 0 ∨ ∃ n : ℤ, m = n) := by
  cases values with
  | nil => cases h
  | cons v vs =>
    obtain ⟨a1, a2⟩ := foldl_min_spec vs v
    obtain ⟨b1, b2⟩ := foldl_max_spec vs v
    unfold qmeasureRange at h
    simp only at h
    split at h
    · cases h
      constructor
      · intro hc
        refine ⟨fun m hm hle => ?_, fun m hm hle => ?_⟩
        · obtain rfl : m = vs.foldl min v := le_antisymm (hle _ a1) (a2 m hm)
          exact (truncInt_le _).1 (hc _ hm).1
        · obtain rfl : m = vs.foldl max v := le_antisymm (b2 m hm) (hle _ b1)
          exact (le_truncInt _).1 (hc _ hm).2
      · rintro ⟨h1, h2⟩ x hx
        exact ⟨le_trans ((truncInt_le _).2 (h1 _ a1 a2)) (a2 x hx), le_trans (b2 x hx) ((le_truncInt _).2 (h2 _ b1 b2))⟩
    · cases h

example : ¬ ∀ x ∈ [1 / 4, 5 / 2, 3 / 2], ((0 : ℤ) : ℚ) ≤ x ∧ x ≤ ((2 : ℤ) : ℚ) := fun h => by
  rcases ((C103_covers_iff_partial [1 / 4, 5 / 2, 3 / 2] 0 2 (by decide +kernel)).1 h).2 (5 / 2) (by simp) (by decide +kernel) with h | ⟨n, h⟩
  · norm_num at h
  · have : (5 : ℚ) = 2 * n := by linarith
    have : (5 : ℤ) = 2 * n := by exact_mod_cast this
    omega

/-- For volumes of integers the range is exactly the range of the values. -/
theorem C103_integers_partial (values : List ℤ) (lo hi : ℤ) (h : qmeasureRange (values.map (fun n : ℤ => (n : ℚ))) = .ok (lo, hi)) :
    lo ∈ values ∧ hi ∈ values ∧ ∀ x ∈ values, lo ≤ x ∧ x ≤ hi := by
  cases values with
  | nil => cases h
  | cons v vs =>
    obtain ⟨a1, a2⟩ := foldl_min_spec (vs.map (fun n : ℤ => (n : ℚ))) v
    obtain ⟨b1, b2⟩ := foldl_max_spec (vs.map (fun n : ℤ => (n : ℚ))) v
    rw [← List.map_cons (f := fun n : ℤ => (n : ℚ))] at a1 b1 a2 b2
    obtain ⟨p, hp, hp'⟩ := List.mem_map.1 a1
    obtain ⟨q, hq, hq'⟩ := List.mem_map.1 b1
    have ht : ∀ n : ℤ, truncInt (n : ℚ) = n := by
      intro n; unfold truncInt; split <;> simp
    unfold qmeasureRange at h
    simp only [List.map_cons] at h
    split at h
    · cases h
      rw [← hp', ← hq', ht, ht]
      refine ⟨hp, hq, ?_⟩
      intro x hx
      have h1 := a2 x (List.mem_map.2 ⟨x, hx, rfl⟩)
      have h2 := b2 x (List.mem_map.2 ⟨x, hx, rfl⟩)
      rw [← hp'] at h1; rw [← hq'] at h2
      exact ⟨by exact_mod_cast h1, by exact_mod_cast h2⟩
    · cases h

example : ∀ x ∈ [3, -4, 7], (-4 : ℤ) ≤ x ∧ x ≤ 7 := (C103_integers_partial [3, -4, 7] (-4) 7 (by decide +kernel)).2.2

/-- **C103, refuted**: a volume with values between 0 and 1 (such as a normalised one with largest value below 1) is handed
over with the range 0 to 0. -/
theorem C103_refuted (values : List ℚ) (hne : values ≠ []) (h : ∀ x ∈ values, 0 ≤ x ∧ x < 1) :
    qmeasureRange values = .ok (0, 0) := by
  cases values with
  | nil => exact absurd rfl hne
  | cons v vs =>
    have ht : ∀ q : ℚ, 0 ≤ q → q < 1 → truncInt q = 0 := by
      intro q h0 h1
      unfold truncInt
      rw [if_pos h0, Int.floor_eq_zero_iff]
      exact ⟨h0, h1⟩
    obtain ⟨a1, -⟩ := foldl_min_spec vs v
    obtain ⟨b1, -⟩ := foldl_max_spec vs v
    unfold qmeasureRange
    simp only [ht _ (h _ a1).1 (h _ a1).2, ht _ (h _ b1).1 (h _ b1).2]
    rfl

/-- **C103, refuted**: volumes with large values are not accepted. -/
theorem C103_overflow_refuted : qmeasureRange [0, 4294967295] = .error .overflowError := by decide +kernel

example : qmeasureRange [1 / 4, 5 / 2, -3 / 2] = .ok (-1, 2) := by decide +kernel

end Viqa
