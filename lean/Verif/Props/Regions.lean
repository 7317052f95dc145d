import Verif.Model.Regions
import Verif.Spec.Region
import Verif.Lemmas.Sums
import Mathlib.Tactic.Linarith
import Mathlib.Tactic.Ring

set_option linter.unusedSimpArgs false
set_option linter.unusedVariables false

/-! Properties C52, C53, C58, C59: regions, border check, automatic centres, thresholds. -/

namespace Viqa
open Spec

/-! ### Helpers -/

theorem inShape_iff_mem (sh idx : List Nat) : idx ∈ indices sh ↔ InShape sh idx := by
  induction sh generalizing idx with
  | nil => cases idx <;> simp [indices, InShape]
  | cons n sh ih =>
    cases idx with
    | nil => simp [indices, InShape]
    | cons i idx =>
      simp only [indices, List.mem_flatMap, List.mem_range, List.mem_map, InShape]
      constructor
      · rintro ⟨j, hj, x, hx, he⟩
        cases he
        exact ⟨hj, (ih idx).1 hx⟩
      · rintro ⟨h1, h2⟩
        exact ⟨i, h1, idx, (ih idx).2 h2, rfl⟩

theorem inShape_length : ∀ (sh idx : List Nat), InShape sh idx → idx.length = sh.length
  | [], [], _ => rfl
  | _ :: sh, _ :: idx, h => by simp [inShape_length sh idx h.2]

theorem inSlice_iff (n : Nat) (lo hi : Int) (i : Nat) (h0 : 0 ≤ lo) (h1 : lo ≤ hi) (hi' : i < n) :
    inSlice n lo hi i = true ↔ lo ≤ (i : Int) ∧ (i : Int) < hi := by
  unfold inSlice sliceRange sliceBound
  rw [if_neg (by omega), if_neg (by omega)]
  simp only [decide_eq_true_eq]
  omega

theorem inBox_cons (c : Int) (cs : List Int) (r : Int) (i : Nat) (idx : List Nat) :
    InBox (c :: cs) r (i :: idx) ↔ (c - r ≤ (i : Int) ∧ (i : Int) < c + r) ∧ InBox cs r idx := by
  unfold InBox
  constructor
  · intro h
    refine ⟨by simpa using h 0 (by simp), fun k hk => ?_⟩
    simpa using h (k + 1) (by simpa using hk)
  · rintro ⟨h1, h2⟩ k hk
    cases k with
    | zero => simpa using h1
    | succ k => simpa using h2 k (by simpa using hk)

theorem boxMask_iff (sh : List Nat) (c : List Int) (r : Int) (idx : List Nat) (hl : c.length = sh.length)
    (hr : 0 ≤ r) (hc : ∀ x ∈ c, r ≤ x) (hi : InShape sh idx) :
    boxMask sh c r idx = true ↔ InBox c r idx := by
  induction sh generalizing c idx with
  | nil =>
    cases c with
    | nil => cases idx <;> simp [boxMask, InBox]
    | cons => simp at hl
  | cons n sh ih =>
    cases c with
    | nil => simp at hl
    | cons x c =>
      cases idx with
      | nil => exact absurd hi (by simp [InShape])
      | cons i idx =>
        have hx := hc x (by simp)
        simp only [boxMask, Bool.and_eq_true, inBox_cons]
        rw [inSlice_iff n _ _ i (by omega) (by omega) hi.1,
          ih c idx (by simpa using hl) (fun y hy => hc y (by simp [hy])) hi.2]

theorem sqDist_cons (i : Nat) (idx : List Nat) (c : Int) (cs : List Int) :
    sqDist (i :: idx) (c :: cs) = ((i : Int) - c) ^ 2 + sqDist idx cs := by
  unfold sqDist
  simp only [List.length_cons, List.range_succ_eq_map, List.map_cons, List.map_map, List.foldr_cons]
  congr 1

theorem distSq_eq_sqDist (idx : List Nat) (c : List Int) (h : c.length ≤ idx.length) :
    distSq idx c = sqDist idx c := by
  induction c generalizing idx with
  | nil => cases idx <;> simp [distSq, sqDist]
  | cons x c ih =>
    cases idx with
    | nil => simp at h
    | cons i idx => rw [sqDist_cons, distSq, ih idx (by simpa using h)]

/-! ### C52 -/

theorem shape_of_isPlane {α} (a : NDArray α) (h : isPlane a = true) :
    (∃ n0 n1, a.shape = [n0, n1]) ∨ (∃ n0 n1, a.shape = [n0, n1, 3]) := by
  obtain ⟨sh, g⟩ := a
  simp only [isPlane, isColour, NDArray.ndim, NDArray.lastDim] at h
  rcases sh with _ | ⟨a0, _ | ⟨a1, _ | ⟨a2, _ | ⟨a3, sh⟩⟩⟩⟩
  · simp at h
  · simp at h
  · exact Or.inl ⟨a0, a1, rfl⟩
  · right; simp at h; exact ⟨a0, a1, by rw [h]⟩
  · simp at h

/-- **C52.** For a centre whose coordinates are at least the radius, a cubic region of an image or
volume selects exactly the pixels of the cube. -/
theorem C52_cubic {α} (a : NDArray α) (c : List Int) (r : Int) (reg : Region α) (hr : 0 ≤ r)
    (hc : ∀ x ∈ c, r ≤ x) (h : toCubic a c r = .ok reg) :
    reg.arr = a ∧ ∀ idx, InShape a.shape idx → (reg.sel idx = true ↔ InBox c r idx) := by
  unfold toCubic at h
  split at h
  · rename_i hp
    split at h
    · cases h
    · rename_i hlen
      split at h
      · cases h
      · rename_i hcol
        cases h
        refine ⟨rfl, fun idx hi => ?_⟩
        rcases shape_of_isPlane a hp with ⟨n0, n1, hs⟩ | ⟨n0, n1, hs⟩
        · exact boxMask_iff _ c r idx (by rw [hs]; simpa using hlen) hr hc hi
        · have hz : a.size = 0 := Classical.byContradiction (fun hn =>
            hcol ⟨by simp [isColour, NDArray.ndim, NDArray.lastDim, hs], hn⟩)
          exfalso
          have := (inShape_iff_mem _ _).2 hi
          have hl := length_indices a.shape
          unfold NDArray.size at hz
          rw [hz, List.length_eq_zero_iff] at hl
          rw [hl] at this
          cases this
  · split at h
    · rename_i h3
      split at h
      · cases h
      · rename_i hlen
        cases h
        refine ⟨rfl, fun idx hi => ?_⟩
        exact boxMask_iff _ c r idx (by have := h3.1; unfold NDArray.ndim at this; simp at hlen; omega) hr hc hi
    · cases h

example : ∃ reg, toCubic (⟨[6, 7], fun i => i⟩ : NDArray (List Nat)) [3, 4] 2 = .ok reg ∧ (reg.sel [1, 5] = true ↔ InBox [3, 4] 2 [1, 5]) := by
  refine ⟨_, rfl, (C52_cubic (⟨[6, 7], fun i => i⟩ : NDArray (List Nat)) [3, 4] 2 _ (by decide) (by decide) rfl).2 [1, 5] ?_⟩
  decide +kernel

/-- **C52.** A spherical region selects exactly the pixels whose distance to the centre is at most
the radius (for a colour image: of all channels), whatever the centre. -/
theorem C52_spherical {α} (a : NDArray α) (c : List Int) (r : Int) (reg : Region α)
    (h : toSpherical a c r = .ok reg) :
    reg.arr = a ∧ ∀ idx, InShape a.shape idx → (reg.sel idx = true ↔ sqDist idx c ≤ r ^ 2) := by
  unfold toSpherical at h
  split at h
  · rename_i hp
    split at h
    · cases h
    · rename_i hlen
      cases h
      refine ⟨rfl, fun idx hi => ?_⟩
      have := inShape_length _ _ hi
      have h2 : c.length ≤ idx.length := by
        rcases shape_of_isPlane a hp with ⟨n0, n1, hs⟩ | ⟨n0, n1, hs⟩ <;> rw [hs] at this <;> simp at this hlen <;> omega
      simp only [decide_eq_true_eq]
      rw [distSq_eq_sqDist idx c h2]
  · split at h
    · rename_i h3
      split at h
      · cases h
      · rename_i hlen
        cases h
        refine ⟨rfl, fun idx hi => ?_⟩
        have := inShape_length _ _ hi
        simp only [decide_eq_true_eq]
        rw [distSq_eq_sqDist idx c (by have := h3.1; unfold NDArray.ndim at this; simp at hlen; omega)]
    · cases h

example : ∃ reg, toSpherical (⟨[6, 7], fun i => i⟩ : NDArray (List Nat)) [3, 4] 2 = .ok reg ∧ (reg.sel [1, 5] = true ↔ (5 : Int) ≤ 2 ^ 2) := by
  refine ⟨_, rfl, (C52_spherical (⟨[6, 7], fun i => i⟩ : NDArray (List Nat)) [3, 4] 2 _ rfl).2 [1, 5] ?_⟩
  decide +kernel

theorem filter_indices_length (n : Nat) (sh : List Nat) (p : Nat → Bool) (q : List Nat → Bool) :
    ((indices (n :: sh)).filter (fun idx => match idx with | i :: t => p i && q t | [] => true)).length =
      ((List.range n).filter p).length * ((indices sh).filter q).length := by
  rw [show indices (n :: sh) = (List.range n).flatMap (fun i => (indices sh).map (i :: ·)) from rfl]
  generalize List.range n = l
  induction l with
  | nil => simp
  | cons i l ih =>
    rw [List.flatMap_cons, List.filter_append, List.length_append, ih]
    rw [List.filter_map, List.length_map]
    by_cases hp : p i
    · have e : ((fun idx : List Nat => match idx with | i :: t => p i && q t | [] => true) ∘ fun x => i :: x) = q := by
        funext t; simp [hp]
      rw [e, List.filter_cons_of_pos hp, List.length_cons]; ring
    · have e : ((fun idx : List Nat => match idx with | i :: t => p i && q t | [] => true) ∘ fun x => i :: x) =
          fun _ => false := by
        funext t; simp [hp]
      rw [e, List.filter_cons_of_neg hp]; simp

theorem filter_range_min (n : Nat) (lo hi : Nat) (h1 : lo ≤ hi) :
    ((List.range n).filter (fun i => decide (lo ≤ i ∧ i < hi))).length = min hi n - min lo n := by
  induction n with
  | zero => simp
  | succ n ih =>
    rw [List.range_succ, List.filter_append, List.length_append, ih]
    by_cases h : lo ≤ n ∧ n < hi
    · rw [List.filter_cons_of_pos (by simpa using h)]; simp; omega
    · rw [List.filter_cons_of_neg (by simpa using h)]; simp; omega

theorem filter_range_interval (n : Nat) (lo hi : Nat) (h1 : lo ≤ hi) (h2 : hi ≤ n) :
    ((List.range n).filter (fun i => decide (lo ≤ i ∧ i < hi))).length = hi - lo := by
  rw [filter_range_min n lo hi h1]; omega

theorem boxMask_count (sh : List Nat) (c : List Int) (r : Nat) (h : BoxInside sh c r) :
    ((indices sh).filter (boxMask sh c r)).length = (2 * r) ^ sh.length := by
  induction sh generalizing c with
  | nil =>
    obtain ⟨hl, -⟩ := h
    simp [indices, boxMask]
  | cons n sh ih =>
    obtain ⟨hl, hk⟩ := h
    cases c with
    | nil => simp at hl
    | cons x c =>
      have h0 := hk 0 (by simp)
      simp only [List.getD_cons_zero] at h0
      have e : boxMask (n :: sh) (x :: c) (r : Int) =
          fun idx => match idx with
            | i :: t => inSlice n (x - r) (x + r) i && boxMask sh c (r : Int) t
            | [] => true := by
        funext idx; cases idx <;> simp [boxMask]
      rw [e, filter_indices_length, ih c ⟨by simpa using hl, fun k hk' => by simpa using hk (k + 1) (by simpa using hk')⟩]
      have e2 : (List.range n).filter (inSlice n (x - r) (x + r)) =
          (List.range n).filter (fun i => decide ((x - r).toNat ≤ i ∧ i < (x + r).toNat)) := by
        apply List.filter_congr
        intro i hi
        rw [List.mem_range] at hi
        rw [Bool.eq_iff_iff, inSlice_iff n _ _ i (by omega) (by omega) hi, decide_eq_true_eq]
        omega
      rw [e2, filter_range_interval n _ _ (by omega) (by omega), List.length_cons, Nat.pow_succ, Nat.mul_comm]
      congr 1
      omega

/-- **C52.** A cubic region inside of a grayscale image or volume has `(2r)^d` pixels. -/
theorem C52_count {α} (a : NDArray α) (c : List Int) (r : Nat) (reg : Region α)
    (h : toCubic a c r = .ok reg) (hin : BoxInside a.shape c r) :
    reg.selected.length = (2 * r) ^ a.ndim := by
  have : reg = ⟨a, boxMask a.shape c r⟩ := by
    unfold toCubic at h
    split at h
    · split at h
      · cases h
      · split at h
        · cases h
        · cases h; rfl
    · split at h
      · split at h
        · cases h
        · cases h; rfl
      · cases h
  subst this
  exact boxMask_count a.shape c r hin

example : (match toCubic (⟨[6, 7], fun _ => (0 : Nat)⟩ : NDArray Nat) [3, 4] 2 with
    | .ok reg => reg.selected.length | .error _ => 0) = 16 := by decide +kernel

example : (match toSpherical (⟨[6, 7], fun _ => (0 : Nat)⟩ : NDArray Nat) [3, 4] 2 with
    | .ok reg => reg.selected.length | .error _ => 0) = 13 := by decide +kernel

/-! ### C59 -/

theorem percentile_zero_le (l : List Rat) (x : Rat) (hx : x ∈ l) :
    percentile l 0 ≤ x ∧ percentile l 0 ∈ l := by
  have hs : (l.insertionSort (· ≤ ·)).Pairwise (fun a b => a ≤ b) := List.pairwise_insertionSort _ _
  have hm : x ∈ (l.insertionSort (· ≤ ·)) := (List.mem_insertionSort _).2 hx
  have e : percentile l 0 = (l.insertionSort (· ≤ ·)).getD 0 0 := by
    have h0 : (Rat.floor 0) = 0 := by simpa using Rat.floor_intCast 0
    unfold percentile; simp [h0]
  rw [e]
  have hmem : ∀ y ∈ (l.insertionSort (· ≤ ·)), y ∈ l := fun y hy => (List.mem_insertionSort _).1 hy
  cases hsl : (l.insertionSort (· ≤ ·)) with
  | nil => rw [hsl] at hm; cases hm
  | cons y t =>
    rw [hsl] at hm hs hmem
    refine ⟨?_, by simpa using hmem y (by simp)⟩
    simp only [List.getD_cons_zero]
    rcases List.mem_cons.1 hm with rfl | h
    · exact le_refl _
    · exact (List.pairwise_cons.1 hs).1 x h

theorem percentile_hundred_ge (l : List Rat) (x : Rat) (hx : x ∈ l) :
    x ≤ percentile l 100 ∧ percentile l 100 ∈ l := by
  have hs : (l.insertionSort (· ≤ ·)).Pairwise (fun a b => a ≤ b) := List.pairwise_insertionSort _ _
  have hm : x ∈ (l.insertionSort (· ≤ ·)) := (List.mem_insertionSort _).2 hx
  have hlen : (l.insertionSort (· ≤ ·)).length = l.length := List.length_insertionSort _ l
  have hpos : 0 < l.length := List.length_pos_of_mem hx
  have e : percentile l 100 = (l.insertionSort (· ≤ ·)).getD (l.length - 1) 0 := by
    unfold percentile
    have h1 : (100 / 100 * ((l.length : Rat) - 1)) = ((l.length - 1 : Nat) : Rat) := by
      rw [Nat.cast_sub hpos]; simp
    simp only [h1]
    have h2 : (((l.length - 1 : Nat) : Rat)).floor.toNat = l.length - 1 := by
      rw [show (((l.length - 1 : Nat) : Rat)) = (((l.length - 1 : Nat) : Int) : Rat) by simp, Rat.floor_intCast]
      simp
    rw [h2]; simp
  rw [e, show (l.insertionSort (· ≤ ·)).getD (l.length - 1) 0 = (l.insertionSort (· ≤ ·))[l.length - 1]'(by omega) by
    rw [List.getD_eq_getElem?_getD, List.getElem?_eq_getElem (by omega)]; rfl]
  refine ⟨?_, (List.mem_insertionSort _).1 (List.getElem_mem _)⟩
  obtain ⟨i, hi, rfl⟩ := List.getElem_of_mem hm
  rcases Nat.lt_or_ge i (l.length - 1) with h | h
  · exact List.pairwise_iff_getElem.1 hs i (l.length - 1) hi (by omega) h
  · have : i = l.length - 1 := by omega
    subst this; exact le_refl _

theorem get_mem_toList {α} (a : NDArray α) (idx : List Nat) (h : InShape a.shape idx) :
    a.get idx ∈ a.toList := List.mem_map.2 ⟨idx, (inShape_iff_mem _ _).2 h, rfl⟩

/-- **C59 (partial).** With the thresholds of CNR, no pixel is both foreground and background, and
every pixel that is not as dark as the darkest one is one of them. Missing for the full statement:
the darkest pixels, see `C59_refuted`. -/
theorem C59_partial (a : NDArray Rat) (fg bg : NDArray Bool) (mid : Rat)
    (hf : getBinary a mid 100 = .ok fg) (hb : getBinary a 0 mid = .ok bg) :
    fg.shape = a.shape ∧ bg.shape = a.shape ∧
    ∀ idx, InShape a.shape idx →
      ¬ (fg.get idx = true ∧ bg.get idx = true) ∧
      ((∃ j, InShape a.shape j ∧ a.get j < a.get idx) → fg.get idx = true ∨ bg.get idx = true) := by
  unfold getBinary at hf hb
  split at hf
  · cases hf
  · split at hb
    · cases hb
    · split at hf
      · cases hf
      · rename_i hz
        rw [if_neg hz] at hb
        cases hf; cases hb
        refine ⟨rfl, rfl, fun idx hi => ?_⟩
        simp only [NDArray.map, decide_eq_true_eq]
        refine ⟨fun ⟨h1, h2⟩ => absurd h1.1 (not_lt.2 h2.2), ?_⟩
        rintro ⟨j, hj, hlt⟩
        have h0 := (percentile_zero_le a.toList (a.get j) (get_mem_toList a j hj)).1
        have h100 := (percentile_hundred_ge a.toList (a.get idx) (get_mem_toList a idx hi)).1
        rcases lt_or_ge (percentile a.toList mid) (a.get idx) with h | h
        · exact Or.inl ⟨h, h100⟩
        · exact Or.inr ⟨lt_of_le_of_lt h0 hlt, h⟩

theorem percentile_ge_min (l : List Rat) (q m : Rat) (h0 : 0 ≤ q) (h1 : q ≤ 100) (hl : l ≠ [])
    (hm : ∀ x ∈ l, m ≤ x) : m ≤ percentile l q := by
  have hs : (l.insertionSort (· ≤ ·)).Pairwise (fun a b => a ≤ b) := List.pairwise_insertionSort _ _
  have hlen : (l.insertionSort (· ≤ ·)).length = l.length := List.length_insertionSort _ l
  have hpos : 0 < l.length := List.length_pos_of_ne_nil hl
  have hn : (1 : Rat) ≤ l.length := by exact_mod_cast hpos
  have hmem : ∀ y ∈ (l.insertionSort (· ≤ ·)), y ∈ l := fun y hy => (List.mem_insertionSort _).1 hy
  unfold percentile
  simp only
  generalize hp : q / 100 * ((l.length : Rat) - 1) = pos
  have hp0 : 0 ≤ pos := by rw [← hp]; apply mul_nonneg <;> linarith
  have hp1 : pos ≤ (l.length : Rat) - 1 := by
    rw [← hp]; nlinarith
  have hf0 : 0 ≤ pos.floor := by
    have := Rat.le_floor_iff (x := 0) (a := pos)
    exact this.2 (by simpa using hp0)
  have hfl : ((pos.floor : Int) : Rat) ≤ pos := Rat.le_floor_iff.1 (le_refl _)
  have hk : ((pos.floor.toNat : Nat) : Rat) ≤ pos := by
    have : ((pos.floor.toNat : Nat) : Rat) = ((pos.floor : Int) : Rat) := by
      rw [← Int.cast_natCast, Int.toNat_of_nonneg hf0]
    rw [this]; exact hfl
  generalize pos.floor.toNat = k at hk
  have hkl : k < l.length := by
    have : (k : Rat) ≤ (l.length : Rat) - 1 := le_trans hk hp1
    have : (k : Rat) + 1 ≤ (l.length : Rat) := by linarith
    exact_mod_cast this
  have ek : (l.insertionSort (· ≤ ·)).getD k 0 = (l.insertionSort (· ≤ ·))[k]'(by omega) := by
    rw [List.getD_eq_getElem?_getD, List.getElem?_eq_getElem (by omega)]; rfl
  have ek' : (l.insertionSort (· ≤ ·)).getD (min (k + 1) (l.length - 1)) 0 = (l.insertionSort (· ≤ ·))[min (k + 1) (l.length - 1)]'(by omega) := by
    rw [List.getD_eq_getElem?_getD, List.getElem?_eq_getElem (by omega)]; rfl
  rw [ek, ek']
  have ha : m ≤ (l.insertionSort (· ≤ ·))[k]'(by omega) := hm _ (hmem _ (List.getElem_mem _))
  have hb : (l.insertionSort (· ≤ ·))[k]'(by omega) ≤ (l.insertionSort (· ≤ ·))[min (k + 1) (l.length - 1)]'(by omega) := by
    rcases Nat.lt_or_ge k (min (k + 1) (l.length - 1)) with h | h
    · exact List.pairwise_iff_getElem.1 hs k _ (by omega) (by omega) h
    · have : min (k + 1) (l.length - 1) = k := by omega
      simp only [this]; exact le_refl _
  nlinarith [mul_nonneg (sub_nonneg.2 hb) (sub_nonneg.2 hk)]

/-- **C59 (refuted).** In every image, the darkest pixels are neither foreground nor background. -/
theorem C59_refuted (a : NDArray Rat) (fg bg : NDArray Bool)
    (hf : getBinary a 90 100 = .ok fg) (hb : getBinary a 0 90 = .ok bg) (idx : List Nat)
    (hi : InShape a.shape idx) (hmin : ∀ j, InShape a.shape j → a.get idx ≤ a.get j) :
    bg.get idx = false ∧ fg.get idx = false := by
  unfold getBinary at hf hb
  rw [if_neg (by norm_num)] at hf hb
  split at hf
  · cases hf
  · rename_i hz
    rw [if_neg hz] at hb
    cases hf; cases hb
    simp only [NDArray.map, decide_eq_false_iff_not]
    have hall : ∀ x ∈ a.toList, a.get idx ≤ x := by
      intro x hx
      obtain ⟨j, hj, rfl⟩ := List.mem_map.1 hx
      exact hmin j ((inShape_iff_mem _ _).1 hj)
    have hne : a.toList ≠ [] := List.ne_nil_of_mem (get_mem_toList a idx hi)
    have h0 := percentile_ge_min a.toList 0 _ (by norm_num) (by norm_num) hne hall
    have h9 := percentile_ge_min a.toList 90 _ (by norm_num) (by norm_num) hne hall
    exact ⟨fun h => absurd h.1 (not_lt.2 h0), fun h => absurd h.1 (not_lt.2 h9)⟩

example : (getBinary ⟨[2, 2], fun idx => (idx.sum : Rat)⟩ 90 100).toOption.map NDArray.toList =
      some [false, false, false, true] ∧
    (getBinary ⟨[2, 2], fun idx => (idx.sum : Rat)⟩ 0 90).toOption.map NDArray.toList =
      some [false, true, true, false] := by decide +kernel

/-! ### C58 -/

theorem minList_le (l : List Int) (x : Int) (h : x ∈ l) : minList l ≤ x := by
  induction l with
  | nil => cases h
  | cons y l ih =>
    cases l with
    | nil => simp at h; subst h; exact le_refl _
    | cons z l =>
      rw [minList]
      rcases List.mem_cons.1 h with rfl | h
      · exact min_le_left _ _
      · exact le_trans (min_le_right _ _) (ih h)

theorem minList_mem (l : List Int) (h : l ≠ []) : minList l ∈ l := by
  induction l with
  | nil => exact absurd rfl h
  | cons y l ih =>
    cases l with
    | nil => simp [minList]
    | cons z l =>
      rw [minList]
      rcases min_choice y (minList (z :: l)) with e | e
      · rw [e]; simp
      · rw [e]; exact List.mem_cons_of_mem _ (ih (by simp))

theorem argmaxBy_spec {α} (f : α → Int) (l : List α) (x : α) (h : argmaxBy f l = some x) :
    x ∈ l ∧ ∀ y ∈ l, f y ≤ f x := by
  induction l generalizing x with
  | nil => cases h
  | cons a l ih =>
    rw [argmaxBy] at h
    cases hl : argmaxBy f l with
    | none =>
      rw [hl] at h
      cases h
      cases l with
      | nil => simp
      | cons b l =>
        exfalso
        rw [argmaxBy] at hl
        split at hl
        · cases hl
        · split at hl <;> cases hl
    | some y =>
      rw [hl] at h
      obtain ⟨h1, h2⟩ := ih y hl
      simp only at h
      split at h
      · rename_i hle
        cases h
        exact ⟨by simp, fun z hz => by
          rcases List.mem_cons.1 hz with rfl | hz
          · exact le_refl _
          · exact le_trans (h2 z hz) hle⟩
      · rename_i hle
        cases h
        exact ⟨List.mem_cons_of_mem _ h1, fun z hz => by
          rcases List.mem_cons.1 hz with rfl | hz
          · omega
          · exact h2 z hz⟩

theorem iterateN_succ' {α} (f : α → α) (n : Nat) (x : α) : iterateN f (n + 1) x = f (iterateN f n x) := by
  induction n generalizing x with
  | zero => rfl
  | succ n ih => rw [iterateN, ih]; rfl

theorem iterateN_shape (f : NDArray Bool → NDArray Bool) (hf : ∀ b, (f b).shape = b.shape) (n : Nat)
    (b : NDArray Bool) : (iterateN f n b).shape = b.shape := by
  induction n generalizing b with
  | zero => rfl
  | succ n ih => rw [iterateN, ih, hf]

theorem cleanBinary_shape (b : NDArray Bool) (it : Int) : (cleanBinary b it).shape = b.shape := by
  unfold cleanBinary
  rw [iterateN_shape erodeStep (fun _ => rfl), iterateN_shape dilateStep (fun _ => rfl)]

/-- A cleaned image of at least one pixel is the result of an erosion. -/
theorem cleanBinary_eroded (b : NDArray Bool) (it : Int) (h : 0 < b.size) :
    ∃ d : NDArray Bool, d.shape = b.shape ∧ cleanBinary b it = erodeStep d := by
  unfold cleanBinary
  have : morphSteps (it + 1) b.size = (morphSteps (it + 1) b.size - 1) + 1 := by
    unfold morphSteps; split <;> omega
  rw [this, iterateN_succ']
  exact ⟨_, by rw [iterateN_shape erodeStep (fun _ => rfl), iterateN_shape dilateStep (fun _ => rfl)], rfl⟩

theorem erode_border (d : NDArray Bool) (idx : List Nat) (k : Nat) (hi : InShape d.shape idx)
    (hk : k < idx.length) (hb : idx.getD k 0 = 0 ∨ idx.getD k 0 + 1 = d.shape.getD k 0) :
    (erodeStep d).get idx = false := by
  unfold erodeStep
  simp only
  rw [List.all_eq_false]
  have hget : ∀ x, (idx.map (fun i : Nat => (i : Int))).modify k x =
      ((idx.map (fun i : Nat => (i : Int))).set k (x ((idx.getD k 0 : Nat) : Int))) := by
    intro x
    rw [List.modify_eq_set_getElem?]
    simp [hk]
  rcases hb with hb | hb
  · refine ⟨(idx.map (fun i : Nat => (i : Int))).modify k (· - 1), ?_, ?_⟩
    · unfold crossNeighbours
      refine List.mem_cons_of_mem _ (List.mem_flatMap.2 ⟨k, by simpa using hk, by simp⟩)
    · unfold boolAt
      rw [hget, hb]
      simp only [Bool.and_eq_true, List.all_eq_true, decide_eq_true_eq, not_and]
      intro hall
      have := hall (((0 : Nat) : Int) - 1) (List.mem_set (by simpa using hk) _)
      omega
  · refine ⟨(idx.map (fun i : Nat => (i : Int))).modify k (· + 1), ?_, ?_⟩
    · unfold crossNeighbours
      refine List.mem_cons_of_mem _ (List.mem_flatMap.2 ⟨k, by simpa using hk, by simp⟩)
    · unfold boolAt
      rw [hget]
      simp only [Bool.and_eq_true, List.all_eq_true, decide_eq_true_eq, not_and]
      intro _ hs
      exfalso
      have key : ∀ (sh j : List Nat) (k : Nat), InShape sh j → k < j.length → j.getD k 0 < sh.getD k 0 := by
        intro sh
        induction sh with
        | nil => intro j k h hk; cases j <;> simp [InShape] at h hk
        | cons n sh ih =>
          intro j k h hk
          cases j with
          | nil => simp at hk
          | cons i j =>
            cases k with
            | zero => simpa using h.1
            | succ k => simpa using ih j k h.2 (by simpa using hk)
      have := key _ _ k hs (by simpa using hk)
      rw [List.getD_eq_getElem?_getD, List.getElem?_map, List.getElem?_set_self (by simpa using hk)] at this
      simp at this
      simp at hb
      omega

theorem distSq_nonneg (p : List Nat) (c : List Int) : 0 ≤ distSq p c := by
  induction c generalizing p with
  | nil => cases p <;> simp [distSq]
  | cons x c ih =>
    cases p with
    | nil => simp [distSq]
    | cons i p => rw [distSq]; have := ih p; positivity

abbrev toInts (p : List Nat) : List Int := p.map (fun i : Nat => (i : Int))

theorem distSq_symm (p q : List Nat) : distSq p (toInts q) = distSq q (toInts p) := by
  induction p generalizing q with
  | nil => cases q <;> simp [distSq]
  | cons i p ih =>
    cases q with
    | nil => simp [distSq]
    | cons j q =>
      simp only [List.map_cons, distSq]
      rw [ih q]; ring

theorem distSq_eq_zero (p q : List Nat) (hl : p.length = q.length) :
    distSq p (toInts q) = 0 ↔ p = q := by
  induction p generalizing q with
  | nil => cases q with
    | nil => simp [distSq]
    | cons => simp at hl
  | cons i p ih =>
    cases q with
    | nil => simp at hl
    | cons j q =>
      simp only [List.map_cons, distSq, List.cons.injEq]
      have h1 := distSq_nonneg p (toInts q)
      have h2 := ih q (by simpa using hl)
      have h3 := sq_nonneg ((i : Int) - j)
      change ((i : Int) - j) ^ 2 + distSq p (toInts q) = 0 ↔ _
      constructor
      · intro h
        have e : ((i : Int) - j) ^ 2 = 0 := by linarith
        have e2 : distSq p (toInts q) = 0 := by linarith
        have := pow_eq_zero_iff (two_ne_zero) |>.1 e
        exact ⟨by omega, h2.1 e2⟩
      · rintro ⟨rfl, rfl⟩
        rw [h2.2 rfl]; simp

theorem distSq_set (p : List Nat) (k v : Nat) (hk : k < p.length) :
    distSq p (toInts (p.set k v)) = ((p.getD k 0 : Int) - v) ^ 2 := by
  induction p generalizing k with
  | nil => simp at hk
  | cons i p ih =>
    cases k with
    | zero =>
      simp only [List.set_cons_zero, List.map_cons, distSq, List.getD_cons_zero]
      rw [(distSq_eq_zero p p rfl).2 rfl]; ring
    | succ k =>
      simp only [List.set_cons_succ, List.map_cons, distSq, List.getD_cons_succ]
      rw [ih k (by simpa using hk)]; ring

theorem inShape_set (sh p : List Nat) (k v : Nat) (h : InShape sh p) (hv : v < sh.getD k 0) :
    InShape sh (p.set k v) := by
  induction sh generalizing p k with
  | nil => cases p <;> simp_all [InShape]
  | cons n sh ih =>
    cases p with
    | nil => simp [InShape] at h
    | cons i p =>
      cases k with
      | zero => exact ⟨by simpa using hv, h.2⟩
      | succ k => exact ⟨h.1, ih p k h.2 (by simpa using hv)⟩

theorem inShape_lt (sh p : List Nat) (k : Nat) (h : InShape sh p) (hk : k < p.length) :
    p.getD k 0 < sh.getD k 0 := by
  induction sh generalizing p k with
  | nil => cases p <;> simp [InShape] at h hk
  | cons n sh ih =>
    cases p with
    | nil => simp at hk
    | cons i p =>
      cases k with
      | zero => simpa using h.1
      | succ k => simpa using ih p k h.2 (by simpa using hk)

theorem edtSq_le (b : NDArray Bool) (p q : List Nat) (hq : InShape b.shape q) (hf : b.get q = false) :
    edtSq b p ≤ distSq p (toInts q) := by
  apply minList_le
  exact List.mem_map.2 ⟨q, List.mem_filter.2 ⟨(inShape_iff_mem _ _).2 hq, by simp [hf]⟩, rfl⟩

theorem edtSq_attained (b : NDArray Bool) (p : List Nat) (h : ∃ q, InShape b.shape q ∧ b.get q = false) :
    ∃ q, InShape b.shape q ∧ b.get q = false ∧ edtSq b p = distSq p (toInts q) := by
  obtain ⟨q0, h0, h1⟩ := h
  have hne : ((indices b.shape).filter (fun q => !b.get q)).map
      (fun q => distSq p (q.map (fun i : Nat => (i : Int)))) ≠ [] := by
    apply List.ne_nil_of_mem
    exact List.mem_map.2 ⟨q0, List.mem_filter.2 ⟨(inShape_iff_mem _ _).2 h0, by simp [h1]⟩, rfl⟩
  obtain ⟨q, hq, he⟩ := List.mem_map.1 (minList_mem _ hne)
  obtain ⟨hq1, hq2⟩ := List.mem_filter.1 hq
  exact ⟨q, (inShape_iff_mem _ _).1 hq1, by simpa using hq2, he.symm⟩

/-- The result of the search for the cleaned image `b`, which is an erosion. -/
theorem centreRadius_spec (d : NDArray Bool) (c : List Nat) (r : Nat)
    (h : centreRadius (erodeStep d) = some (c, r)) (hnd : 0 < d.shape.length)
    (hne : ∃ idx, InShape d.shape idx ∧ (erodeStep d).get idx = true) :
    InShape d.shape c ∧ (erodeStep d).get c = true ∧ 1 ≤ r ∧
    (∀ k, k < c.length → r ≤ c.getD k 0 ∧ c.getD k 0 + r < d.shape.getD k 0) ∧
    (∀ q, InShape d.shape q → sqDist q (toInts c) < (r : Int) ^ 2 → (erodeStep d).get q = true) ∧
    (∀ p (ρ : Nat), InShape d.shape p →
      (∀ q, InShape d.shape q → sqDist q (toInts p) < (ρ : Int) ^ 2 → (erodeStep d).get q = true) → ρ ≤ r) := by
  generalize hb : erodeStep d = b at *
  have hsh : b.shape = d.shape := by rw [← hb]; rfl
  unfold centreRadius at h
  obtain ⟨c', hc', he⟩ := Option.map_eq_some_iff.1 h
  cases he
  obtain ⟨hmem, hmax⟩ := argmaxBy_spec _ _ _ hc'
  have hc : InShape d.shape c := by rw [← hsh]; exact (inShape_iff_mem _ _).1 hmem
  have hlen := inShape_length _ _ hc
  have hlow : ∀ k, k < c.length → edtSq b c ≤ ((c.getD k 0 : Int) - 0) ^ 2 := by
    intro k hk
    have hlt := inShape_lt _ _ k hc hk
    have hs := inShape_set _ c k 0 hc (by omega)
    have hbd := erode_border d (c.set k 0) k hs (by simpa using hk) (Or.inl (by simp [hk]))
    rw [hb] at hbd
    have := edtSq_le b c (c.set k 0) (by rw [hsh]; exact hs) hbd
    rw [distSq_set c k 0 hk] at this
    exact_mod_cast this
  have hhigh : ∀ k, k < c.length →
      edtSq b c ≤ ((c.getD k 0 : Int) - ((d.shape.getD k 0 - 1 : Nat) : Int)) ^ 2 := by
    intro k hk
    have hlt := inShape_lt _ _ k hc hk
    have hs := inShape_set _ c k (d.shape.getD k 0 - 1) hc (by omega)
    have hbd := erode_border d (c.set k (d.shape.getD k 0 - 1)) k hs (by simpa using hk)
      (Or.inr (by
        rw [List.getD_eq_getElem?_getD, List.getElem?_set_self hk]
        simp only [Option.getD_some]
        omega))
    rw [hb] at hbd
    have := edtSq_le b c (c.set k (d.shape.getD k 0 - 1)) (by rw [hsh]; exact hs) hbd
    rw [distSq_set c k _ hk] at this
    exact this
  have hfalse : ∃ q, InShape b.shape q ∧ b.get q = false := by
    have hk : 0 < c.length := by omega
    have hlt := inShape_lt _ _ 0 hc hk
    have hs := inShape_set _ c 0 0 hc (by omega)
    have hbd := erode_border d (c.set 0 0) 0 hs (by simpa using hk) (Or.inl (by simp [hk]))
    rw [hb] at hbd
    exact ⟨_, by rw [hsh]; exact hs, hbd⟩
  have hpos : ∀ p, InShape d.shape p → b.get p = true → 1 ≤ edtSq b p := by
    intro p hp ht
    obtain ⟨q, hq, hqf, he⟩ := edtSq_attained b p hfalse
    rw [he]
    have h1 := distSq_nonneg p (toInts q)
    have h2 : distSq p (toInts q) ≠ 0 := by
      intro h0
      rw [hsh] at hq
      have := (distSq_eq_zero p q (by rw [inShape_length _ _ hp, inShape_length _ _ hq])).1 h0
      subst this
      rw [ht] at hqf; cases hqf
    omega
  have hce : 1 ≤ edtSq b c := by
    obtain ⟨p, hp, ht⟩ := hne
    have := hmax p ((inShape_iff_mem _ _).2 (by rw [hsh]; exact hp))
    have := hpos p hp ht
    omega
  have hrr : ((Nat.sqrt (edtSq b c).toNat : Nat) : Int) ^ 2 ≤ edtSq b c := by
    have := Nat.sqrt_le' (edtSq b c).toNat
    have h2 : (((Nat.sqrt (edtSq b c).toNat) ^ 2 : Nat) : Int) ≤ ((edtSq b c).toNat : Int) := by exact_mod_cast this
    rw [Int.toNat_of_nonneg (by omega)] at h2
    push_cast at h2
    exact h2
  refine ⟨hc, ?_, ?_, ?_, ?_, ?_⟩
  · cases ht : b.get c with
    | true => rfl
    | false =>
      exfalso
      have := edtSq_le b c c (by rw [hsh]; exact hc) ht
      rw [(distSq_eq_zero c c rfl).2 rfl] at this
      omega
  · rw [Nat.le_sqrt]; omega
  · intro k hk
    have hlt := inShape_lt _ _ k hc hk
    have h1 := le_trans hrr (hlow k hk)
    have h2 := le_trans hrr (hhigh k hk)
    have h1' := sq_le_sq.1 h1
    have h2' := sq_le_sq.1 h2
    rw [Int.abs_eq_natAbs, Int.abs_eq_natAbs] at h1' h2'
    omega
  · intro q hq hlt
    cases ht : b.get q with
    | true => rfl
    | false =>
      exfalso
      have := edtSq_le b c q (by rw [hsh]; exact hq) ht
      rw [distSq_symm, distSq_eq_sqDist q _ (by simp [inShape_length _ _ hq, hlen])] at this
      omega
  · intro p ρ hp hball
    obtain ⟨q, hq, hqf, he⟩ := edtSq_attained b p hfalse
    rw [hsh] at hq
    have h1 : (ρ : Int) ^ 2 ≤ edtSq b p := by
      rw [he]
      refine Classical.byContradiction (fun hn => ?_)
      have := hball q hq (by
        rw [← distSq_eq_sqDist q _ (by simp [inShape_length _ _ hq, inShape_length _ _ hp]), distSq_symm]
        omega)
      rw [this] at hqf; cases hqf
    have h2 := hmax p ((inShape_iff_mem _ _).2 (by rw [hsh]; exact hp))
    rw [Nat.le_sqrt']
    have : ((ρ ^ 2 : Nat) : Int) ≤ ((edtSq b c).toNat : Int) := by
      rw [Int.toNat_of_nonneg (by omega)]; push_cast; omega
    exact_mod_cast this

theorem size_pos_of_inShape (sh idx : List Nat) (h : InShape sh idx) : 0 < sh.prod := by
  rw [← length_indices]
  exact List.length_pos_of_mem ((inShape_iff_mem _ _).2 h)

/-- **C58.** A centre and radius found in an image with a non-empty cleaned region: the centre is a
pixel of the region, it is at least the radius away from every border, all pixels closer than the
radius belong to the region, and no pixel has this property for a larger radius. -/
theorem C58_valid (b : NDArray Bool) (it : Int) (l : Largest) (h : findLargest b it = .ok l)
    (hne : ∃ idx, InShape b.shape idx ∧ l.cleaned.get idx = true) :
    InShape b.shape l.centre ∧ l.cleaned.get l.centre = true ∧ 1 ≤ l.radius ∧
    (∀ k, k < l.centre.length →
      l.radius ≤ l.centre.getD k 0 ∧ l.centre.getD k 0 + l.radius < b.shape.getD k 0) ∧
    (∀ q, InShape b.shape q → sqDist q (toInts l.centre) < (l.radius : Int) ^ 2 → l.cleaned.get q = true) ∧
    (∀ p (ρ : Nat), InShape b.shape p →
      (∀ q, InShape b.shape q → sqDist q (toInts p) < (ρ : Int) ^ 2 → l.cleaned.get q = true) →
      ρ ≤ l.radius) := by
  unfold findLargest at h
  split at h
  · cases h
  · split at h
    · cases h
    · split at h
      · rename_i hnd
        split at h
        · cases h
        · rename_i c r hcr
          cases h
          simp only at hne ⊢
          have hne' := hne
          obtain ⟨i0, hi0, -⟩ := hne'
          obtain ⟨d, hd, hde⟩ := cleanBinary_eroded b it (size_pos_of_inShape _ _ hi0)
          rw [hde] at hcr hne ⊢
          have := centreRadius_spec d c r hcr (by
            rw [hd]; unfold NDArray.ndim at hnd; omega) (by rw [hd]; exact hne)
          rw [hd] at this
          exact this
      · cases h

/-- **C58.** If nothing is left after the erosion, the radius is zero. -/
theorem C58_empty (b : NDArray Bool) (it : Int) (l : Largest) (h : findLargest b it = .ok l)
    (hne : ∀ idx, InShape b.shape idx → l.cleaned.get idx = false) : l.radius = 0 := by
  unfold findLargest at h
  split at h
  · cases h
  · split at h
    · cases h
    · split at h
      · split at h
        · cases h
        · rename_i c r hcr
          cases h
          simp only at hne ⊢
          unfold centreRadius at hcr
          obtain ⟨c', hc', he⟩ := Option.map_eq_some_iff.1 hcr
          cases he
          have hc := (inShape_iff_mem _ _).1 (argmaxBy_spec _ _ _ hc').1
          have h0 := edtSq_le _ c c hc (hne c (by rw [← cleanBinary_shape b it]; exact hc))
          rw [(distSq_eq_zero c c rfl).2 rfl] at h0
          have : (edtSq (cleanBinary b it) c).toNat = 0 := by omega
          rw [this]; rfl
      · cases h

/-- A 9 × 11 image with a filled rectangle of 7 × 8 pixels. -/
def sampleBinary : NDArray Bool :=
  ⟨[9, 11], fun idx => decide (1 ≤ idx.getD 0 0 ∧ idx.getD 0 0 < 8 ∧ 2 ≤ idx.getD 1 0 ∧ idx.getD 1 0 < 10)⟩

example : (findLargest sampleBinary 1).toOption.map (fun l => (l.centre, l.radius)) = some ([4, 5], 3) := by
  decide +kernel

/-- C58 for this image. -/
example : ∃ l, findLargest sampleBinary 1 = .ok l ∧ 1 ≤ l.radius := by
  obtain ⟨l, hl⟩ : ∃ l, findLargest sampleBinary 1 = .ok l := by
    have : (findLargest sampleBinary 1).toBool = true := by decide +kernel
    cases h : findLargest sampleBinary 1 with
    | error e => rw [h] at this; cases this
    | ok l => exact ⟨l, rfl⟩
  have e : (findLargest sampleBinary 1).toOption.map (fun l => l.cleaned.get [4, 5]) = some true := by decide +kernel
  rw [hl] at e
  exact ⟨l, hl, (C58_valid _ _ l hl ⟨[4, 5], by decide +kernel, by simpa [Except.toOption] using e⟩).2.2.1⟩

/-- C59 for an image of four pixels. -/
example (fg bg : NDArray Bool) (hf : getBinary ⟨[2, 2], fun idx => (idx.sum : Rat)⟩ 50 100 = .ok fg)
    (hb : getBinary ⟨[2, 2], fun idx => (idx.sum : Rat)⟩ 0 50 = .ok bg) : fg.get [0, 1] = true ∨ bg.get [0, 1] = true :=
  ((C59_partial ⟨[2, 2], fun idx => (idx.sum : Rat)⟩ fg bg 50 hf hb).2.2 [0, 1] (by decide +kernel)).2 ⟨[0, 0], by decide +kernel, by decide +kernel⟩

end Viqa
