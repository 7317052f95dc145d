import Verif.Model.Scripts
import Verif.Lemmas.Binary
import Verif.Lemmas.Normalize
import Verif.Lemmas.Text
import Verif.Lemmas.Sums

/-! Lemmas about the scripts: written files are read back item by item. -/

namespace Viqa
open Spec

theorem itemBytes_eq (s v : Nat) : itemBytes s v = leBytes s v := by
  induction s generalizing v with
  | zero => rfl
  | succ s ih =>
    unfold itemBytes at ih ⊢
    rw [leBytes, ← ih, List.range_succ_eq_map, List.map_cons, List.map_map]
    simp only [Nat.pow_zero, Nat.div_one, List.cons.injEq, true_and]
    apply List.map_congr_left
    intro j _
    simp only [Function.comp_apply, Nat.pow_succ, Nat.succ_eq_add_one]
    rw [Nat.div_div_eq_div_mul, Nat.mul_comm (256 ^ j)]

theorem natText_eq (n : Nat) : natText n = decimal n := by
  unfold natText
  induction n using Nat.strongRecOn with
  | _ n ih =>
    have hd : ∀ m < 10, Nat.digitChar m = Char.ofNat (48 + m) := by decide
    unfold decimal
    split
    · rename_i h; rw [Nat.toDigits_of_lt_base h, hd n h]
    · rename_i h
      rw [Nat.toDigits_of_base_le (by omega) (by omega), ih (n / 10) (by omega), hd _ (Nat.mod_lt _ (by omega))]

theorem flatMap_eq_range (l : List Nat) (g : Nat → List UInt8) :
    l.flatMap g = (List.range l.length).flatMap (fun i => g (l.getD i 0)) := by
  induction l with
  | nil => rfl
  | cons a l ih =>
    rw [List.flatMap_cons, ih, List.length_cons, List.range_succ_eq_map, List.flatMap_cons, List.flatMap_map]
    rfl

theorem toList_get (sh idx : List Nat) (h : InShape sh idx) : (indices sh)[ravelIndex sh idx]? = some idx := by
  induction sh generalizing idx with
  | nil => cases idx with
    | nil => rfl
    | cons => exact h.elim
  | cons n sh ih =>
    cases idx with
    | nil => exact h.elim
    | cons i idx =>
      obtain ⟨hi, h⟩ := h
      have := ih idx h
      have hlt : ravelIndex sh idx < sh.prod := by
        obtain ⟨h1, -⟩ := List.getElem?_eq_some_iff.1 this
        rwa [length_indices] at h1
      rw [indices, ravelIndex, flatMap_range_get n sh.prod _ (by simp [length_indices]) i _ hi hlt]
      simp [this]

theorem ravelIndex_lt (sh idx : List Nat) (h : InShape sh idx) : ravelIndex sh idx < sh.prod := by
  obtain ⟨h1, -⟩ := List.getElem?_eq_some_iff.1 (toList_get sh idx h)
  rwa [length_indices] at h1

theorem length_tofile (s : Nat) (a : NDArray Nat) : (tofile s a).length = a.shape.prod * s := by
  unfold tofile
  rw [flatMap_eq_range, flatMap_range_length _ s _ (fun i => by rw [itemBytes_eq, leBytes_length])]
  simp [NDArray.toList, length_indices]

/-- Every item of a written file is the value of the array at the corresponding index in C order. -/
theorem fileItem_tofile (s : Nat) (a : NDArray Nat) (idx : List Nat) (h : InShape a.shape idx)
    (hv : a.get idx < 256 ^ s) : fileItem (tofile s a) s (ravelIndex a.shape idx) = a.get idx := by
  have hr := ravelIndex_lt _ _ h
  have hg : a.toList.getD (ravelIndex a.shape idx) 0 = a.get idx := by
    simp [NDArray.toList, List.getD_eq_getElem?_getD, toList_get _ _ h]
  have hl : a.toList.length = a.shape.prod := by simp [NDArray.toList, length_indices]
  rw [← leValue_leBytes s _ hv, leValue_eq, fileItem, leBytes_length]
  congr 1
  apply List.map_congr_left
  intro j hj
  have hj : j < s := by simpa using hj
  rw [List.getD_eq_getElem?_getD, List.getD_eq_getElem?_getD]
  unfold tofile
  rw [flatMap_eq_range, flatMap_range_get _ s _ (fun i => by rw [itemBytes_eq, leBytes_length]) _ _ (by omega) hj, hg,
    itemBytes_eq]

theorem leValue_lt (l : List UInt8) : leValue l < 256 ^ l.length := by
  induction l with
  | nil => simp [leValue]
  | cons b l ih =>
    have : b.toNat < 256 := b.toNat_lt
    rw [leValue, List.length_cons, Nat.pow_succ]; omega

theorem fileItem_lt (bytes : List UInt8) (s k : Nat) : fileItem bytes s k < 256 ^ s := by
  have h : ∀ (l : List UInt8), ((List.range l.length).map (fun j => (l.getD j 0).toNat * 256 ^ j)).sum < 256 ^ l.length := by
    intro l; rw [← leValue_eq]; exact leValue_lt l
  have := h ((List.range s).map (fun j => bytes.getD (k * s + j) 0))
  rw [List.length_map, List.length_range] at this
  refine Nat.lt_of_le_of_lt (Nat.le_of_eq ?_) this
  unfold fileItem
  congr 1
  apply List.map_congr_left
  intro j hj
  have hj : j < s := by simpa using hj
  simp [List.getD_eq_getElem?_getD, hj]

/-- The parts of a file. -/
theorem loadParts_ok (bytes : List UInt8) (dt : DType) (X Y Z : Nat) (hs : bytes.length / dt.itemsize = X * Y * Z) :
    ∃ l, loadParts bytes dt X Y Z = .ok l ∧ l.length = Z ∧
      ∀ i, i < Z → ∃ a, l[i]? = some a ∧ a.shape = [X, Y] ∧ ∀ p q, p < X → q < Y →
        a.get [p, q] = fileItem bytes dt.itemsize (q + Y * (p + X * i)) := by
  refine ⟨_, by unfold loadParts; simp only; rw [if_neg (by rw [fromfile_length, hs]; simp)], by simp, ?_⟩
  intro i hi
  refine ⟨_, by rw [List.getElem?_map, List.getElem?_range hi]; rfl, rfl, ?_⟩
  intro p q hp hq
  have h1 : p * Y + q < X * Y := by
    have := Nat.mul_le_mul_right Y hp
    rw [Nat.succ_mul] at this; omega
  have h2 : i * X * Y + (p * Y + q) < X * Y * Z := by
    have := Nat.mul_le_mul_right (X * Y) hi
    rw [Nat.succ_mul, Nat.mul_comm Z, ← Nat.mul_assoc] at this; omega
  have h3 : q + Y * (p + X * i) = i * X * Y + (p * Y + q) := by
    rw [Nat.mul_add, Nat.mul_comm Y p, Nat.mul_comm Y (X * i), Nat.mul_comm X i]; omega
  rw [h3, ← fromfile_getD dt.itemsize bytes _ (by rw [hs]; exact h2)]
  simp only [reshape, ravelIndex, List.prod_cons, List.prod_nil, Nat.mul_one, Nat.add_zero, List.getD_eq_getElem?_getD]
  rw [List.getElem?_take, if_pos h1, List.getElem?_drop]

/-- A file in C order of a three-dimensional array, loaded with the sizes in reversed order. -/
theorem load_tofile (a : NDArray Nat) (dt : DType) (P Q R : Nat) (ha : a.shape = [P, Q, R]) (hP : P < 2 ^ 63)
    (hQ : Q < 2 ^ 63) (hR : R < 2 ^ 63) (hb : P * Q * R * dt.itemsize < 2 ^ 63)
    (hv : ∀ p q r, p < P → q < Q → r < R → a.get [p, q, r] < 256 ^ dt.itemsize) :
    ∃ v, loadBinary (tofile dt.itemsize a) dt [(R : Int), Q, P] = .ok v ∧ v.shape = [R, Q, P] ∧
      ∀ p q r, p < P → q < Q → r < R → v.get [r, q, p] = a.get [p, q, r] := by
  have hlen : (tofile dt.itemsize a).length = P * Q * R * dt.itemsize := by
    rw [length_tofile, ha]; simp [Nat.mul_assoc]
  obtain ⟨v, h1, h2, h3⟩ := (loadBinary_three (tofile dt.itemsize a) dt R Q P hR hQ hP (by rw [hlen]; exact hb)).1 (by
    rw [hlen, Nat.mul_div_cancel _ dt.itemsize_pos, Nat.mul_comm (P * Q) R, Nat.mul_comm P Q, ← Nat.mul_assoc])
  refine ⟨v, h1, h2, ?_⟩
  intro p q r hp hq hr
  rw [h3 r q p hr hq hp, ← fileItem_tofile dt.itemsize a [p, q, r] (by rw [ha]; exact ⟨hp, hq, hr, trivial⟩)
    (hv p q r hp hq hr)]
  congr 1
  rw [ha]
  simp only [voxelPos, ravelIndex, List.prod_cons, List.prod_nil, Nat.mul_one, Nat.add_zero]
  rw [Nat.mul_add, Nat.mul_comm R q, ← Nat.mul_assoc, Nat.mul_comm (R * Q) p, Nat.mul_comm R Q]; omega

end Viqa
