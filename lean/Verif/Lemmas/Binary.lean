import Verif.Model.Loading
import Verif.Spec.Binary

set_option linter.unusedSimpArgs false

/-! Helper lemmas about reading binary files. -/

namespace Viqa
open Spec

theorem sum_map_mul_left (c : Nat) (l : List Nat) (f : Nat → Nat) :
    (l.map (fun j => c * f j)).sum = c * (l.map f).sum := by
  induction l with
  | nil => simp
  | cons a l ih => simp [ih, Nat.mul_add]

theorem leValue_eq (l : List UInt8) :
    leValue l = ((List.range l.length).map (fun j => (l.getD j 0).toNat * 256 ^ j)).sum := by
  induction l with
  | nil => simp [leValue]
  | cons b l ih =>
    rw [leValue, ih, List.length_cons, List.range_succ_eq_map]
    simp only [List.map_cons, List.map_map, List.sum_cons]
    rw [← sum_map_mul_left]
    congr 1
    · simp
    · congr 1
      apply List.map_congr_left
      intro j _
      simp [Nat.pow_succ, Nat.mul_comm, Nat.mul_left_comm, Nat.mul_assoc]

theorem fromfile_length (s : Nat) (bytes : List UInt8) :
    (fromfile s bytes).length = bytes.length / s := by simp [fromfile]

theorem fromfile_getD (s : Nat) (bytes : List UInt8) (k : Nat) (hk : k < bytes.length / s) :
    (fromfile s bytes).getD k default = fileItem bytes s k := by
  have hs : 0 < s := by
    rcases Nat.eq_zero_or_pos s with h | h
    · subst h; simp at hk
    · exact h
  have hlen : (k + 1) * s ≤ bytes.length := by
    have := Nat.div_mul_le_self bytes.length s
    exact Nat.le_trans (Nat.mul_le_mul_right s hk) this
  have hl : ((bytes.drop (k * s)).take s).length = s := by
    simp only [List.length_take, List.length_drop]
    rw [Nat.add_mul] at hlen
    omega
  rw [fromfile, List.getD_eq_getElem?_getD, List.getElem?_map, List.getElem?_range hk]
  simp only [Option.map_some, Option.getD_some]
  rw [leValue_eq, hl, fileItem]
  congr 1
  apply List.map_congr_left
  intro j hj
  have hj : j < s := by simpa using hj
  congr 2
  simp only [List.getD_eq_getElem?_getD]
  rw [List.getElem?_take_of_lt hj, List.getElem?_drop]

theorem wrap64_of_lt (n : Nat) (h : n < 2 ^ 63) : wrap64 n = n := by
  unfold wrap64; omega

/-- `loadBinary` for three non-negative sizes, unfolded. -/
theorem loadBinary_three (bytes : List UInt8) (dt : DType) (X Y Z : Nat)
    (hX : X < 2 ^ 63) (hY : Y < 2 ^ 63) (hZ : Z < 2 ^ 63) (hb : bytes.length < 2 ^ 63) :
    (bytes.length / dt.itemsize = X * Y * Z →
      ∃ v, loadBinary bytes dt [(X : Int), Y, Z] = .ok v ∧ v.shape = [X, Y, Z] ∧
        ∀ x y z, x < X → y < Y → z < Z →
          v.get [x, y, z] = fileItem bytes dt.itemsize (voxelPos X Y x y z)) ∧
    (bytes.length / dt.itemsize ≠ X * Y * Z →
      ∃ m, loadBinary bytes dt [(X : Int), Y, Z] = .error (.valueError m)) := by
  have hany : ([(X : Int), Y, Z].any fun d => decide (2 ^ 63 ≤ d)) = false := by
    simp only [List.any_cons, List.any_nil, Bool.or_false, Bool.or_eq_false_iff, decide_eq_false_iff_not]
    omega
  have hneg : ([(X : Int), Y, Z].any fun d => decide (d < 0)) = false := by
    simp only [List.any_cons, List.any_nil, Bool.or_false, Bool.or_eq_false_iff, decide_eq_false_iff_not]
    omega
  have hprod : ([(X : Int), Y, Z].foldl (· * ·) 1) = ((X * Y * Z : Nat) : Int) := by
    simp [List.foldl, Int.natCast_mul]
  have hl : (fromfile dt.itemsize bytes).length = bytes.length / dt.itemsize := fromfile_length _ _
  have hlt : bytes.length / dt.itemsize < 2 ^ 63 :=
    Nat.lt_of_le_of_lt (Nat.div_le_self _ _) hb
  constructor
  · intro heq
    unfold loadBinary
    simp only [hany, hneg, hprod, hl, heq]
    rw [wrap64_of_lt _ (heq ▸ hlt)]
    simp only [ne_eq, not_true_eq_false, if_false, or_self, Bool.false_eq_true]
    simp only [List.reverse_cons, List.reverse_nil, List.nil_append, List.cons_append, List.map_cons,
      List.map_nil, Int.toNat_natCast]
    refine ⟨_, rfl, rfl, ?_⟩
    intro x y z hx hy hz
    have e : X - 1 - (X - 1 - x) = x := by omega
    have hpos : voxelPos X Y x y z < X * Y * Z := by
      unfold voxelPos
      have h1 : y + Y * z + 1 ≤ Y * Z := by
        have : Y * (z + 1) ≤ Y * Z := Nat.mul_le_mul_left _ hz
        rw [Nat.mul_add] at this; omega
      have h2 : X * (y + Y * z + 1) ≤ X * (Y * Z) := Nat.mul_le_mul_left _ h1
      rw [Nat.mul_add, ← Nat.mul_assoc X Y Z] at h2; omega
    have hr : ravelIndex [Z, Y, X] [z, y, x] = voxelPos X Y x y z := by
      simp only [ravelIndex, voxelPos, List.prod_cons, List.prod_nil, Nat.mul_one, Nat.add_zero]
      rw [Nat.mul_add, ← Nat.mul_assoc X Y z, Nat.mul_comm z (Y * X), Nat.mul_comm Y X,
        Nat.mul_comm y X]
      omega
    rw [← fromfile_getD _ _ _ (heq ▸ hpos), ← hr]
    simp [flipAxis, swapAxes, swapAt, reshape, List.modify, List.modifyTailIdx,
      List.modifyTailIdx.go, List.modifyHead, e]
  · intro hne
    unfold loadBinary
    simp only [hany, hprod, hl]
    split
    · rename_i h; simp at h
    · split
      · exact ⟨_, rfl⟩
      · split
        · exact ⟨_, rfl⟩
        · rename_i h
          exfalso; apply h; right
          exact_mod_cast hne

/-! ### Volumes written to a file -/

theorem leBytes_length (s v : Nat) : (leBytes s v).length = s := by
  induction s generalizing v with
  | zero => rfl
  | succ s ih => simp [leBytes, ih]

theorem flatMap_range_length {α} (n L : Nat) (g : Nat → List α) (h : ∀ i, (g i).length = L) :
    ((List.range n).flatMap g).length = n * L := by
  induction n with
  | zero => simp
  | succ n ih => rw [List.range_succ, List.flatMap_append]; simp [ih, h, Nat.add_mul]

theorem flatMap_range_get {α} (n L : Nat) (g : Nat → List α) (h : ∀ i, (g i).length = L)
    (i j : Nat) (hi : i < n) (hj : j < L) :
    ((List.range n).flatMap g)[i * L + j]? = (g i)[j]? := by
  induction n with
  | zero => omega
  | succ n ih =>
    rw [List.range_succ, List.flatMap_append]
    by_cases hin : i < n
    · rw [List.getElem?_append_left]
      · exact ih hin
      · rw [flatMap_range_length n L g h]
        have : (i + 1) * L ≤ n * L := Nat.mul_le_mul_right _ hin
        rw [Nat.add_mul] at this; omega
    · have : i = n := by omega
      subst this
      rw [List.getElem?_append_right] <;> rw [flatMap_range_length i L g h]
      · simp
      · omega

theorem leValue_leBytes (s v : Nat) (h : v < 256 ^ s) : leValue (leBytes s v) = v := by
  induction s generalizing v with
  | zero => simp at h; simp [leBytes, leValue, h]
  | succ s ih =>
    have : v / 256 < 256 ^ s := by
      rw [Nat.pow_succ] at h; exact Nat.div_lt_of_lt_mul (by rw [Nat.mul_comm]; exact h)
    rw [leBytes, leValue, ih _ this]
    have h2 : (UInt8.ofNat (v % 256)).toNat = v % 256 := by
      simp
    rw [h2]; omega

theorem volumeBytes_length (s X Y Z : Nat) (f : Nat → Nat → Nat → Nat) :
    (volumeBytes s X Y Z f).length = X * Y * Z * s := by
  unfold volumeBytes
  rw [flatMap_range_length Z (Y * (X * s)) _ (fun z => flatMap_range_length Y (X * s) _ (fun y =>
    flatMap_range_length X s _ (fun x => leBytes_length s _)))]
  rw [Nat.mul_comm (X * Y) Z, Nat.mul_assoc, Nat.mul_comm X Y, Nat.mul_assoc]

theorem volumeBytes_get (s X Y Z : Nat) (f : Nat → Nat → Nat → Nat) (x y z j : Nat)
    (hx : x < X) (hy : y < Y) (hz : z < Z) (hj : j < s) :
    (volumeBytes s X Y Z f)[voxelPos X Y x y z * s + j]? = (leBytes s (f x y z))[j]? := by
  have hxj : x * s + j < X * s := by
    have : (x + 1) * s ≤ X * s := Nat.mul_le_mul_right _ hx
    rw [Nat.add_mul] at this; omega
  have hyj : y * (X * s) + (x * s + j) < Y * (X * s) := by
    have : (y + 1) * (X * s) ≤ Y * (X * s) := Nat.mul_le_mul_right _ hy
    rw [Nat.add_mul] at this; omega
  have e : voxelPos X Y x y z * s + j = z * (Y * (X * s)) + (y * (X * s) + (x * s + j)) := by
    unfold voxelPos
    rw [Nat.mul_add X, Nat.add_mul, Nat.add_mul, ← Nat.mul_assoc X Y z, Nat.mul_comm (X * Y) z,
      Nat.mul_assoc z, Nat.mul_comm X Y, Nat.mul_assoc Y, Nat.mul_comm X y, Nat.mul_assoc y]
    omega
  rw [e]
  unfold volumeBytes
  rw [flatMap_range_get Z (Y * (X * s)) _ (fun z => flatMap_range_length Y (X * s) _ (fun y =>
    flatMap_range_length X s _ (fun x => leBytes_length s _))) z _ hz hyj]
  rw [flatMap_range_get Y (X * s) _ (fun y =>
    flatMap_range_length X s _ (fun x => leBytes_length s _)) y _ hy hxj]
  rw [flatMap_range_get X s _ (fun x => leBytes_length s _) x _ hx hj]

theorem fileItem_volumeBytes (s X Y Z : Nat) (f : Nat → Nat → Nat → Nat) (x y z : Nat)
    (hx : x < X) (hy : y < Y) (hz : z < Z) (hf : f x y z < 256 ^ s) :
    fileItem (volumeBytes s X Y Z f) s (voxelPos X Y x y z) = f x y z := by
  rw [← leValue_leBytes s _ hf, leValue_eq, fileItem, leBytes_length]
  congr 1
  apply List.map_congr_left
  intro j hj
  have hj : j < s := by simpa using hj
  congr 2
  simp only [List.getD_eq_getElem?_getD]
  rw [volumeBytes_get s X Y Z f x y z j hx hy hz hj]

theorem DType.itemsize_pos (dt : DType) : 0 < dt.itemsize := by cases dt <;> decide

end Viqa
