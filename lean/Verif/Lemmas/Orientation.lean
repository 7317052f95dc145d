import Verif.Lemmas.Ssim
import Verif.Lemmas.Sums

/-!
Flipping and exchanging axes: what happens to indices, windows and positions.
-/

namespace Viqa

/-! ### Indices by position -/

theorem inShape_iff (sh idx : List Nat) : InShape sh idx ↔
    idx.length = sh.length ∧ ∀ k i n : Nat, idx[k]? = some i → sh[k]? = some n → i < n := by
  induction sh generalizing idx with
  | nil => cases idx <;> simp [InShape]
  | cons n sh ih =>
    cases idx with
    | nil => simp [InShape]
    | cons i idx =>
      simp only [InShape, ih, List.length_cons, Nat.add_right_cancel_iff]
      constructor
      · rintro ⟨h, hl, hr⟩
        refine ⟨hl, fun k a b ha hb => ?_⟩
        cases k with
        | zero => simp at ha hb; omega
        | succ k => exact hr k a b (by simpa using ha) (by simpa using hb)
      · rintro ⟨hl, hr⟩
        exact ⟨hr 0 i n (by simp) (by simp), hl, fun k a b ha hb => hr (k + 1) a b (by simpa using ha) (by simpa using hb)⟩

theorem extendIndices_iff (m : BorderMode) (sh : List Nat) (p : List Int) (js : List Nat) (hl : p.length = sh.length) :
    extendIndices m sh p = some js ↔ js.length = sh.length ∧ ∀ (k n : Nat) (i : Int) (j : Nat), sh[k]? = some n → p[k]? = some i →
      js[k]? = some j → extendIndex m n i = some j := by
  induction sh generalizing p js with
  | nil =>
    cases p with
    | nil => simp [extendIndices, eq_comm]
    | cons => simp at hl
  | cons n sh ih =>
    cases p with
    | nil => simp at hl
    | cons i p =>
      have hl' : p.length = sh.length := by simpa using hl
      unfold extendIndices
      constructor
      · intro h
        cases h1 : extendIndex m n i with
        | none => rw [h1] at h; cases h
        | some a =>
          cases h2 : extendIndices m sh p with
          | none => rw [h1, h2] at h; cases h
          | some b =>
            rw [h1, h2] at h
            cases h
            obtain ⟨h3, h4⟩ := (ih p b hl').1 h2
            refine ⟨by simp [h3], fun k n' i' j' e1 e2 e3 => ?_⟩
            cases k with
            | zero => simp at e1 e2 e3; rw [← e1, ← e2, ← e3, h1]
            | succ k => exact h4 k n' i' j' (by simpa using e1) (by simpa using e2) (by simpa using e3)
      · rintro ⟨h1, h2⟩
        cases js with
        | nil => simp at h1
        | cons j js =>
          have e1 := h2 0 n i j (by simp) (by simp) (by simp)
          have e2 := (ih p js hl').2 ⟨by simpa using h1, fun k n' i' j' a b c =>
            h2 (k + 1) n' i' j' (by simpa using a) (by simpa using b) (by simpa using c)⟩
          rw [e1, e2]

theorem offsets1_nodup (r : Nat) : (offsets1 r).Nodup := by
  unfold offsets1
  refine List.Nodup.map (fun a b h => ?_) List.nodup_range
  omega

theorem offsets_nodup (r d : Nat) : (offsets r d).Nodup := by
  induction d with
  | zero => simp [offsets]
  | succ d ih =>
    unfold offsets
    rw [List.nodup_flatMap]
    refine ⟨fun o _ => ih.map (fun a b h => by simpa using h), ?_⟩
    refine List.Pairwise.imp_of_mem ?_ (offsets1_nodup r)
    intro a b _ _ hab
    simp only [Function.onFun]
    rw [List.disjoint_left]
    intro l h1 h2
    simp only [List.mem_map] at h1 h2
    obtain ⟨l1, -, rfl⟩ := h1
    obtain ⟨l2, -, h⟩ := h2
    simp at h
    exact hab h.1.symm

theorem cropPositions_nodup (pad : Nat) (sh : List Nat) : (cropPositions pad sh).Nodup := by
  unfold cropPositions
  refine List.Nodup.map (fun a b h => ?_) (indices_nodup _)
  exact List.map_injective_iff.2 (fun a b h => by simpa using h) h

/-! ### Reading beyond the border is symmetric -/

theorem extendIndex_lt (m : BorderMode) (n : Nat) (i : Int) (j : Nat) (hn : 0 < n) (h : extendIndex m n i = some j) :
    j < n := by
  by_cases hm : m = .constant
  · subst hm
    unfold extendIndex at h
    split at h
    · cases h; omega
    · cases h
  · obtain ⟨j', h1, h2⟩ := extendIndex_spec m n i hn hm
    rw [h1] at h; cases h; exact h2

theorem emod_flip (P i c : Int) : (c - i) % P = (c - i % P) % P := by
  have := Int.emod_add_mul_ediv i P
  conv_lhs => rw [← this]
  rw [show c - (i % P + P * (i / P)) = (c - i % P) + P * (-(i / P)) by ring, Int.add_mul_emod_self_left]

theorem extendIndex_flip (m : BorderMode) (n : Nat) (i : Int) (j : Nat) (hn : 0 < n) (h : extendIndex m n i = some j) :
    extendIndex m n ((n : Int) - 1 - i) = some (n - 1 - j) := by
  unfold extendIndex at h ⊢
  by_cases hi : 0 ≤ i ∧ i < n
  · rw [if_pos hi] at h
    rw [if_pos (by omega)]
    cases h
    congr 1
    omega
  · rw [if_neg hi] at h
    rw [if_neg (by omega)]
    cases m with
    | constant => cases h
    | nearest =>
      simp only [Option.some.injEq] at h ⊢
      by_cases h0 : i < 0
      · rw [if_pos h0] at h; rw [if_neg (by omega)]; omega
      · rw [if_neg h0] at h; rw [if_pos (by omega)]; omega
    | wrap =>
      simp only [Option.some.injEq] at h ⊢
      have h1 := Int.emod_nonneg i (show (n : Int) ≠ 0 by omega)
      have h2 := Int.emod_lt_of_pos i (show (0 : Int) < n by omega)
      rw [emod_flip, Int.emod_eq_of_lt (by omega) (by omega)]
      omega
    | reflect =>
      simp only [Option.some.injEq] at h ⊢
      have h1 := Int.emod_nonneg i (show (2 * (n : Int)) ≠ 0 by omega)
      have h2 := Int.emod_lt_of_pos i (show (0 : Int) < 2 * n by omega)
      rw [emod_flip]
      generalize i % (2 * (n : Int)) = q at *
      by_cases hq : q < n
      · rw [if_pos hq] at h
        rw [Int.emod_eq_of_lt (by omega) (by omega), if_pos (by omega)]
        omega
      · rw [if_neg hq] at h
        have e : ((n : Int) - 1 - q) % (2 * n) = 3 * n - 1 - q := by
          rw [← Int.add_emod_right, Int.emod_eq_of_lt (by omega) (by omega)]
          ring
        rw [e, if_neg (by omega)]
        omega
    | mirror =>
      simp only at h ⊢
      by_cases h1 : n = 1
      · rw [if_pos h1] at h ⊢; cases h; subst h1; rfl
      · rw [if_neg h1] at h ⊢
        simp only [Option.some.injEq] at h ⊢
        have h3 := Int.emod_nonneg i (show (2 * (n : Int) - 2) ≠ 0 by omega)
        have h2 := Int.emod_lt_of_pos i (show (0 : Int) < 2 * n - 2 by omega)
        rw [emod_flip]
        generalize i % (2 * (n : Int) - 2) = q at *
        by_cases hq : q < n
        · rw [if_pos hq] at h
          rw [Int.emod_eq_of_lt (by omega) (by omega), if_pos (by omega)]
          omega
        · rw [if_neg hq] at h
          have e : ((n : Int) - 1 - q) % (2 * n - 2) = 3 * n - 3 - q := by
            rw [← Int.add_emod_right, Int.emod_eq_of_lt (by omega) (by omega)]
            ring
          rw [e, if_neg (by omega)]
          omega

/-! ### Turns -/

/-- A way to turn arrays of the shape `sh` into arrays of the shape `sh'`: `T` maps indices, `O` offsets. -/
structure Turn (sh sh' : List Nat) (T : List Nat → List Nat) (O : List Int → List Int) : Prop where
  len : sh'.length = sh.length
  any : ∀ f : Nat → Bool, sh'.any f = sh.any f
  size : sh'.prod = sh.prod
  mem : ∀ i, InShape sh i → InShape sh' (T i)
  offs : ∀ r, ((offsets r sh.length).map O).Perm (offsets r sh.length)
  weight : ∀ k : Int → ℝ, (∀ x, k (-x) = k x) → ∀ o, o.length = sh.length → offsetWeight k (O o) = offsetWeight k o
  ext : ∀ m p o, InShape sh p → o.length = sh.length →
    extendIndices m sh' (shiftIndex (T p) (O o)) = (extendIndices m sh (shiftIndex p o)).map T
  all : ((indices sh).map T).Perm (indices sh')
  crop : ∀ pad, ((cropPositions pad sh).map T).Perm (cropPositions pad sh')

/-- Perm of a mapped list without duplicates. -/
theorem map_perm_of_bij {α β : Type} (l : List α) (l' : List β) (f : α → β) (g : β → α) (hl : l.Nodup) (hl' : l'.Nodup)
    (h1 : ∀ a ∈ l, f a ∈ l' ∧ g (f a) = a) (h2 : ∀ b ∈ l', g b ∈ l ∧ f (g b) = b) : (l.map f).Perm l' := by
  rw [List.perm_ext_iff_of_nodup]
  · intro b
    rw [List.mem_map]
    constructor
    · rintro ⟨a, ha, rfl⟩
      exact (h1 a ha).1
    · intro hb
      exact ⟨g b, (h2 b hb).1, (h2 b hb).2⟩
  · exact hl.map_on (fun a ha b hb h => by rw [← (h1 a ha).2, h, (h1 b hb).2])
  · exact hl'

theorem length_shiftIndex (p : List Nat) (o : List Int) (h : o.length = p.length) : (shiftIndex p o).length = p.length := by
  simp [shiftIndex, h]

theorem shiftIndex_getElem? (p : List Nat) (o : List Int) (k : Nat) (x : Int) :
    (shiftIndex p o)[k]? = some x ↔ ∃ a b, p[k]? = some a ∧ o[k]? = some b ∧ x = a + b := by
  unfold shiftIndex
  rw [List.getElem?_zipWith]
  cases p[k]? <;> cases o[k]? <;> simp [eq_comm]

/-! ### Flips -/

/-- Index map of `np.flip`. -/
def flipIndex (sh : List Nat) (a : Nat) (idx : List Nat) : List Nat := idx.modify a (fun i => sh.getD a 0 - 1 - i)

theorem flipIndex_getElem? (sh : List Nat) (a : Nat) (idx : List Nat) (k : Nat) :
    (flipIndex sh a idx)[k]? = if a = k then idx[k]?.map (fun i => sh.getD a 0 - 1 - i) else idx[k]? := by
  unfold flipIndex
  rw [List.getElem?_modify]
  split
  · rename_i h; simp [h]
  · rename_i h; simp [h]

theorem length_flipIndex (sh : List Nat) (a : Nat) (idx : List Nat) : (flipIndex sh a idx).length = idx.length := by
  simp [flipIndex]

theorem flipIndex_invol (sh : List Nat) (a : Nat) (idx : List Nat) (h : InShape sh idx) :
    flipIndex sh a (flipIndex sh a idx) = idx := by
  rw [inShape_iff] at h
  apply List.ext_getElem?
  intro k
  rw [flipIndex_getElem?, flipIndex_getElem?]
  by_cases hk : a = k
  · subst hk
    simp only [if_true]
    cases hi : idx[a]? with
    | none => rfl
    | some i =>
      have hlt : a < sh.length := by rw [← h.1]; exact (List.getElem?_eq_some_iff.1 hi).1
      have := h.2 a i sh[a] hi (List.getElem?_eq_getElem hlt)
      simp [List.getElem?_eq_getElem hlt]
      omega
  · simp [hk]

theorem flipIndex_mem (sh : List Nat) (a : Nat) (idx : List Nat) (h : InShape sh idx) : InShape sh (flipIndex sh a idx) := by
  rw [inShape_iff] at h ⊢
  refine ⟨by rw [length_flipIndex]; exact h.1, fun k i n h1 h2 => ?_⟩
  rw [flipIndex_getElem?] at h1
  by_cases hk : a = k
  · subst hk
    simp only [if_true, Option.map_eq_some_iff] at h1
    obtain ⟨i', h3, rfl⟩ := h1
    have := h.2 a i' n h3 h2
    simp [h2]
    omega
  · rw [if_neg hk] at h1
    exact h.2 k i n h1 h2

/-- Positions, also outside. -/
def flipPos (sh : List Nat) (a : Nat) (p : List Int) : List Int := p.modify a (fun i => ((sh.getD a 0 : Nat) : Int) - 1 - i)

theorem flipPos_getElem? (sh : List Nat) (a : Nat) (p : List Int) (k : Nat) :
    (flipPos sh a p)[k]? = if a = k then p[k]?.map (fun i => ((sh.getD a 0 : Nat) : Int) - 1 - i) else p[k]? := by
  unfold flipPos
  rw [List.getElem?_modify]
  split
  · rename_i h; simp [h]
  · rename_i h; simp [h]

theorem flipPos_invol (sh : List Nat) (a : Nat) (p : List Int) : flipPos sh a (flipPos sh a p) = p := by
  apply List.ext_getElem?
  intro k
  rw [flipPos_getElem?, flipPos_getElem?]
  by_cases hk : a = k
  · subst hk
    cases p[a]? <;> simp
  · simp [hk]

theorem extendIndices_flip_some (m : BorderMode) (sh : List Nat) (a : Nat) (p : List Int) (js : List Nat)
    (hn : ∀ n ∈ sh, 0 < n) (hl : p.length = sh.length) (h : extendIndices m sh p = some js) :
    extendIndices m sh (flipPos sh a p) = some (flipIndex sh a js) := by
  rw [extendIndices_iff _ _ _ _ hl] at h
  rw [extendIndices_iff _ _ _ _ (by simp [flipPos, hl])]
  refine ⟨by rw [length_flipIndex]; exact h.1, fun k n i j h1 h2 h3 => ?_⟩
  rw [flipPos_getElem?] at h2
  rw [flipIndex_getElem?] at h3
  by_cases hk : a = k
  · subst hk
    simp only [if_true, Option.map_eq_some_iff] at h2 h3
    obtain ⟨i', h4, rfl⟩ := h2
    obtain ⟨j', h5, rfl⟩ := h3
    have e := h.2 a n i' j' h1 h4 h5
    have hpos := hn n (List.mem_of_getElem? h1)
    have := extendIndex_flip m n i' j' hpos e
    simpa [h1] using this
  · rw [if_neg hk] at h2 h3
    exact h.2 k n i j h1 h2 h3

theorem extendIndices_flip (m : BorderMode) (sh : List Nat) (a : Nat) (p : List Int)
    (hn : ∀ n ∈ sh, 0 < n) (hl : p.length = sh.length) :
    extendIndices m sh (flipPos sh a p) = (extendIndices m sh p).map (flipIndex sh a) := by
  cases h : extendIndices m sh p with
  | some js => exact extendIndices_flip_some m sh a p js hn hl h
  | none =>
    cases h' : extendIndices m sh (flipPos sh a p) with
    | none => rfl
    | some js =>
      have := extendIndices_flip_some m sh a _ js hn (by simp [flipPos, hl]) h'
      rw [flipPos_invol, h] at this
      cases this

/-- The offset map of a flip. -/
def flipOffset (a : Nat) (o : List Int) : List Int := o.modify a (fun x => -x)

theorem flipOffset_getElem? (a : Nat) (o : List Int) (k : Nat) :
    (flipOffset a o)[k]? = if a = k then o[k]?.map (fun x => -x) else o[k]? := by
  unfold flipOffset
  rw [List.getElem?_modify]
  split
  · rename_i h; simp [h]
  · rename_i h; simp [h]

theorem flipOffset_mem (r d a : Nat) (o : List Int) (h : o ∈ offsets r d) : flipOffset a o ∈ offsets r d := by
  rw [mem_offsets] at h ⊢
  refine ⟨by simp [flipOffset, h.1], fun e he => ?_⟩
  obtain ⟨k, hk⟩ := List.mem_iff_getElem?.1 he
  rw [flipOffset_getElem?] at hk
  by_cases hak : a = k
  · rw [if_pos hak, Option.map_eq_some_iff] at hk
    obtain ⟨x, hx, rfl⟩ := hk
    have := h.2 x (List.mem_of_getElem? hx)
    omega
  · rw [if_neg hak] at hk
    exact h.2 e (List.mem_of_getElem? hk)

theorem flipOffset_invol (a : Nat) (o : List Int) : flipOffset a (flipOffset a o) = o := by
  apply List.ext_getElem?
  intro k
  rw [flipOffset_getElem?, flipOffset_getElem?]
  by_cases hk : a = k
  · subst hk
    cases o[a]? <;> simp
  · simp [hk]

theorem mem_cropPositions' (pad : Nat) (sh p : List Nat) : p ∈ cropPositions pad sh ↔
    p.length = sh.length ∧ ∀ k i n : Nat, p[k]? = some i → sh[k]? = some n → pad ≤ i ∧ i + pad < n := by
  rw [mem_cropPositions]
  refine and_congr_right (fun hl => ?_)
  constructor
  · intro h k i n h1 h2
    obtain ⟨a, rfl⟩ := List.getElem?_eq_some_iff.1 h1
    obtain ⟨b, rfl⟩ := List.getElem?_eq_some_iff.1 h2
    exact h k b a
  · intro h k h1 h2
    exact h k _ _ (List.getElem?_eq_getElem h2) (List.getElem?_eq_getElem h1)

theorem crop_inShape (pad : Nat) (sh p : List Nat) (h : p ∈ cropPositions pad sh) : InShape sh p := by
  rw [mem_cropPositions'] at h
  rw [inShape_iff]
  refine ⟨h.1, fun k i n h1 h2 => ?_⟩
  have := h.2 k i n h1 h2
  omega

theorem inShape_pos (sh p : List Nat) (h : InShape sh p) : ∀ n ∈ sh, 0 < n := by
  rw [inShape_iff] at h
  intro n hn
  obtain ⟨k, hk⟩ := List.mem_iff_getElem?.1 hn
  have hk' : k < p.length := by rw [h.1]; exact (List.getElem?_eq_some_iff.1 hk).1
  have := h.2 k p[k] n (List.getElem?_eq_getElem hk') hk
  omega

theorem shiftIndex_flip (sh : List Nat) (a : Nat) (p : List Nat) (o : List Int) (hp : InShape sh p)
    (ho : o.length = sh.length) : shiftIndex (flipIndex sh a p) (flipOffset a o) = flipPos sh a (shiftIndex p o) := by
  rw [inShape_iff] at hp
  apply List.ext_getElem?
  intro k
  rw [flipPos_getElem?]
  unfold shiftIndex
  rw [List.getElem?_zipWith, List.getElem?_zipWith, flipIndex_getElem?, flipOffset_getElem?]
  by_cases hk : a = k
  · subst hk
    simp only [if_true]
    cases h1 : p[a]? with
    | none => simp
    | some i =>
      cases h2 : o[a]? with
      | none => simp
      | some x =>
        have hlt : a < sh.length := by rw [← hp.1]; exact (List.getElem?_eq_some_iff.1 h1).1
        have := hp.2 a i sh[a] h1 (List.getElem?_eq_getElem hlt)
        simp [List.getElem?_eq_getElem hlt]
        omega
  · simp [hk]

theorem flip_turn (sh : List Nat) (a : Nat) : Turn sh sh (flipIndex sh a) (flipOffset a) where
  len := rfl
  any _ := rfl
  size := rfl
  mem i h := flipIndex_mem sh a i h
  offs r := map_perm_of_bij _ _ _ (flipOffset a) (offsets_nodup r _) (offsets_nodup r _)
    (fun o h => ⟨flipOffset_mem r _ a o h, flipOffset_invol a o⟩)
    (fun o h => ⟨flipOffset_mem r _ a o h, flipOffset_invol a o⟩)
  weight k hk o _ := by
    unfold offsetWeight
    congr 1
    apply List.ext_getElem?
    intro j
    rw [List.getElem?_map, List.getElem?_map, flipOffset_getElem?]
    by_cases h : a = j
    · subst h
      cases o[a]? <;> simp [hk]
    · simp [h]
  ext m p o hp ho := by
    rw [shiftIndex_flip sh a p o hp ho]
    refine extendIndices_flip m sh a _ (inShape_pos sh p hp) ?_
    have := ((inShape_iff _ _).1 hp).1
    rw [length_shiftIndex _ _ (by omega), this]
  all := map_perm_of_bij _ _ _ (flipIndex sh a) (indices_nodup _) (indices_nodup _)
    (fun i h => by
      rw [mem_indices] at h
      exact ⟨(mem_indices _ _).2 (flipIndex_mem sh a i h), flipIndex_invol sh a i h⟩)
    (fun i h => by
      rw [mem_indices] at h
      exact ⟨(mem_indices _ _).2 (flipIndex_mem sh a i h), flipIndex_invol sh a i h⟩)
  crop pad := by
    have key : ∀ p, p ∈ cropPositions pad sh → flipIndex sh a p ∈ cropPositions pad sh ∧
        flipIndex sh a (flipIndex sh a p) = p := by
      intro p h
      refine ⟨?_, flipIndex_invol sh a p (crop_inShape pad sh p h)⟩
      rw [mem_cropPositions'] at h ⊢
      refine ⟨by rw [length_flipIndex]; exact h.1, fun k i n h1 h2 => ?_⟩
      rw [flipIndex_getElem?] at h1
      by_cases hk : a = k
      · subst hk
        simp only [if_true, Option.map_eq_some_iff] at h1
        obtain ⟨i', h3, rfl⟩ := h1
        have := h.2 a i' n h3 h2
        simp [h2]
        omega
      · rw [if_neg hk] at h1
        exact h.2 k i n h1 h2
    exact map_perm_of_bij _ _ _ (flipIndex sh a) (cropPositions_nodup _ _) (cropPositions_nodup _ _) key key

/-! ### Exchanged axes -/

/-- Where an entry comes from. -/
def swapPos (a b k : Nat) : Nat := if k = b then a else if k = a then b else k

theorem swapPos_invol (a b k : Nat) : swapPos a b (swapPos a b k) = k := by
  unfold swapPos
  split
  · split
    · omega
    · split <;> omega
  · split
    · simp; omega
    · simp [*]

theorem swapAt_getElem? {α : Type} [Inhabited α] (l : List α) (a b k : Nat) (ha : a < l.length) (hb : b < l.length) :
    (swapAt l a b)[k]? = l[swapPos a b k]? := by
  unfold swapAt swapPos
  rw [List.getElem?_set, List.getElem?_set]
  by_cases h1 : k = b
  · subst h1
    simp [hb, List.getElem?_eq_getElem ha]
  · rw [if_neg (Ne.symm h1), if_neg h1]
    by_cases h2 : k = a
    · subst h2
      simp [ha, List.getElem?_eq_getElem hb]
    · rw [if_neg (Ne.symm h2), if_neg h2]

theorem length_swapAt {α : Type} [Inhabited α] (l : List α) (a b : Nat) : (swapAt l a b).length = l.length := by
  simp [swapAt]

theorem swapAt_invol {α : Type} [Inhabited α] (l : List α) (a b : Nat) (ha : a < l.length) (hb : b < l.length) :
    swapAt (swapAt l a b) a b = l := by
  apply List.ext_getElem?
  intro k
  rw [swapAt_getElem? _ _ _ _ (by rw [length_swapAt]; exact ha) (by rw [length_swapAt]; exact hb),
    swapAt_getElem? _ _ _ _ ha hb, swapPos_invol]

theorem swapAt_perm {α : Type} [Inhabited α] (l : List α) (a b : Nat) (ha : a < l.length) (hb : b < l.length) :
    (swapAt l a b).Perm l := by
  have : swapAt l a b = (l.set a l[b]).set b l[a] := by
    unfold swapAt
    simp [List.getElem?_eq_getElem ha, List.getElem?_eq_getElem hb]
  rw [this]
  exact List.set_set_perm ha hb

theorem swapAt_mem (sh : List Nat) (a b : Nat) (ha : a < sh.length) (hb : b < sh.length) (idx : List Nat)
    (h : InShape sh idx) : InShape (swapAt sh a b) (swapAt idx a b) := by
  rw [inShape_iff] at h ⊢
  refine ⟨by rw [length_swapAt, length_swapAt]; exact h.1, fun k i n h1 h2 => ?_⟩
  rw [swapAt_getElem? _ _ _ _ (by omega) (by omega)] at h1 h2
  exact h.2 _ i n h1 h2

theorem extendIndices_swap_some (m : BorderMode) (sh : List Nat) (a b : Nat) (ha : a < sh.length) (hb : b < sh.length)
    (p : List Int) (js : List Nat) (hl : p.length = sh.length) (h : extendIndices m sh p = some js) :
    extendIndices m (swapAt sh a b) (swapAt p a b) = some (swapAt js a b) := by
  rw [extendIndices_iff _ _ _ _ hl] at h
  rw [extendIndices_iff _ _ _ _ (by rw [length_swapAt, length_swapAt, hl])]
  refine ⟨by rw [length_swapAt, length_swapAt, h.1], fun k n i j h1 h2 h3 => ?_⟩
  rw [swapAt_getElem? _ _ _ _ (by omega) (by omega)] at h1 h2 h3
  exact h.2 _ n i j h1 h2 h3

theorem extendIndices_swap (m : BorderMode) (sh : List Nat) (a b : Nat) (ha : a < sh.length) (hb : b < sh.length)
    (p : List Int) (hl : p.length = sh.length) :
    extendIndices m (swapAt sh a b) (swapAt p a b) = (extendIndices m sh p).map (swapAt · a b) := by
  cases h : extendIndices m sh p with
  | some js => exact extendIndices_swap_some m sh a b ha hb p js hl h
  | none =>
    cases h' : extendIndices m (swapAt sh a b) (swapAt p a b) with
    | none => rfl
    | some js =>
      have := extendIndices_swap_some m (swapAt sh a b) a b (by rw [length_swapAt]; exact ha)
        (by rw [length_swapAt]; exact hb) _ js (by rw [length_swapAt, length_swapAt, hl]) h'
      rw [swapAt_invol _ _ _ ha hb, swapAt_invol _ _ _ (by omega) (by omega), h] at this
      cases this

theorem shiftIndex_swap (a b : Nat) (p : List Nat) (o : List Int) (hp : o.length = p.length) (ha : a < p.length)
    (hb : b < p.length) : shiftIndex (swapAt p a b) (swapAt o a b) = swapAt (shiftIndex p o) a b := by
  apply List.ext_getElem?
  intro k
  have hl := length_shiftIndex p o hp
  rw [swapAt_getElem? _ _ _ _ (by omega) (by omega)]
  unfold shiftIndex
  rw [List.getElem?_zipWith, List.getElem?_zipWith, swapAt_getElem? _ _ _ _ ha hb,
    swapAt_getElem? _ _ _ _ (by omega) (by omega)]

theorem swap_turn (sh : List Nat) (a b : Nat) (ha : a < sh.length) (hb : b < sh.length) :
    Turn sh (swapAt sh a b) (swapAt · a b) (swapAt · a b) where
  len := length_swapAt _ _ _
  any f := by
    have := (swapAt_perm sh a b ha hb)
    rw [Bool.eq_iff_iff, List.any_eq_true, List.any_eq_true]
    simp only [this.mem_iff]
  size := (swapAt_perm sh a b ha hb).prod_eq
  mem i h := swapAt_mem sh a b ha hb i h
  offs r := by
    have key : ∀ o ∈ offsets r sh.length, swapAt o a b ∈ offsets r sh.length ∧ swapAt (swapAt o a b) a b = o := by
      intro o h
      have hl := ((mem_offsets _ _ _).1 h).1
      refine ⟨?_, swapAt_invol o a b (by omega) (by omega)⟩
      rw [mem_offsets] at h ⊢
      refine ⟨by rw [length_swapAt]; exact h.1, fun e he => ?_⟩
      exact h.2 e ((swapAt_perm o a b (by omega) (by omega)).mem_iff.1 he)
    exact map_perm_of_bij _ _ _ (swapAt · a b) (offsets_nodup r _) (offsets_nodup r _) key key
  weight k _ o ho := ((swapAt_perm o a b (by omega) (by omega)).map k).prod_eq
  ext m p o hp ho := by
    have hl := ((inShape_iff _ _).1 hp).1
    rw [shiftIndex_swap a b p o (by omega) (by omega) (by omega)]
    exact extendIndices_swap m sh a b ha hb _ (by rw [length_shiftIndex _ _ (by omega), hl])
  all := map_perm_of_bij _ _ _ (swapAt · a b) (indices_nodup _) (indices_nodup _)
    (fun i h => by
      rw [mem_indices] at h
      have hl := ((inShape_iff _ _).1 h).1
      exact ⟨(mem_indices _ _).2 (swapAt_mem sh a b ha hb i h), swapAt_invol i a b (by omega) (by omega)⟩)
    (fun i h => by
      rw [mem_indices] at h
      have hl := ((inShape_iff _ _).1 h).1
      rw [length_swapAt] at hl
      have := swapAt_mem _ a b (by rw [length_swapAt]; exact ha) (by rw [length_swapAt]; exact hb) i h
      rw [swapAt_invol sh a b ha hb] at this
      exact ⟨(mem_indices _ _).2 this, swapAt_invol i a b (by omega) (by omega)⟩)
  crop pad := by
    have key : ∀ sh : List Nat, a < sh.length → b < sh.length → ∀ p, p ∈ cropPositions pad sh →
        swapAt p a b ∈ cropPositions pad (swapAt sh a b) ∧ swapAt (swapAt p a b) a b = p := by
      intro sh ha hb p h
      rw [mem_cropPositions'] at h ⊢
      refine ⟨⟨by rw [length_swapAt, length_swapAt, h.1], fun k i n h1 h2 => ?_⟩, swapAt_invol p a b (by omega) (by omega)⟩
      rw [swapAt_getElem? _ _ _ _ (by omega) (by omega)] at h1 h2
      exact h.2 _ i n h1 h2
    refine map_perm_of_bij _ _ _ (swapAt · a b) (cropPositions_nodup _ _) (cropPositions_nodup _ _) (key sh ha hb) ?_
    intro p h
    have := key (swapAt sh a b) (by rw [length_swapAt]; exact ha) (by rw [length_swapAt]; exact hb) p h
    rw [swapAt_invol sh a b ha hb] at this
    exact this

end Viqa
