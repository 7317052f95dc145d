import Verif.Lemmas.Scripts
import Verif.Props.Loading

set_option linter.unusedSimpArgs false

/-!
Properties C70 – C72 and C104: the scripts that crop, reduce and combine volumes.
-/

namespace Viqa
open Spec

namespace Spec

/-- The `m` positions starting with `b` are the central part of `n` positions for a factor `f`: `m` is the largest
even number that is at most `n / f`, and the margins at both ends are equal, or the second one is larger by one. -/
def IsCentral (f n m b : Nat) : Prop :=
  2 ∣ m ∧ m ≤ n / f ∧ n / f < m + 2 ∧ (n = b + m + b ∨ n = b + m + (b + 1))

/-- `w` is the central part of `v` along all three axes. -/
def CentralPart (f : Nat) (v w : NDArray Nat) : Prop :=
  ∃ A B C A' B' C' a b c, v.shape = [A, B, C] ∧ w.shape = [A', B', C'] ∧
    IsCentral f A A' a ∧ IsCentral f B B' b ∧ IsCentral f C C' c ∧
    ∀ i j k, i < A' → j < B' → k < C' → w.get [i, j, k] = v.get [a + i, b + j, c + k]

end Spec

theorem cropRange_eq (f n : Nat) (hf : 2 ≤ f) : cropRange f n = (n / 2 - n / f / 2, 2 * (n / f / 2)) := by
  have h2 : n / f ≤ n / 2 := Nat.div_le_div_left hf (by omega)
  unfold cropRange sliceRange sliceBound
  simp only [Int.fdiv_eq_ediv_of_nonneg _ (show (0 : Int) ≤ 2 by omega), Int.fdiv_eq_ediv_of_nonneg _ (show (0 : Int) ≤ f by omega)]
  have e1 : ((n : Int) / (f : Int)) = ((n / f : Nat) : Int) := by simp
  rw [e1]
  generalize n / f = m at *
  have l1 : ¬ ((n : Int) / 2 - (m : Int) / 2 < 0) := by omega
  have l2 : ¬ ((n : Int) / 2 + (m : Int) / 2 < 0) := by omega
  rw [if_neg l1, if_neg l2]
  ext <;> simp only <;> omega

theorem isCentral_cropRange (f n : Nat) (hf : 2 ≤ f) : IsCentral f n (2 * (n / f / 2)) (n / 2 - n / f / 2) := by
  have h2 : n / f ≤ n / 2 := Nat.div_le_div_left hf (by omega)
  unfold IsCentral
  generalize n / f = m at *
  refine ⟨⟨_, rfl⟩, ?_, ?_, ?_⟩ <;> omega

/-- The result of `crop`, with sizes. -/
theorem cropVolume_eq (v : NDArray Nat) (f : Nat) (hf : 2 ≤ f) (A B C : Nat) (hv : v.shape = [A, B, C]) :
    ∃ w, cropVolume v f = .ok w ∧ w.shape = [2 * (A / f / 2), 2 * (B / f / 2), 2 * (C / f / 2)] ∧
      ∀ i j k, w.get [i, j, k] = v.get [A / 2 - A / f / 2 + i, B / 2 - B / f / 2 + j, C / 2 - C / f / 2 + k] := by
  refine ⟨_, by unfold cropVolume; rw [if_neg (by omega), if_neg (by omega)], ?_, ?_⟩
  · simp [hv, cropRange_eq f _ hf]
  · intro i j k
    simp [hv, cropRange_eq f _ hf]

/-- **C70**: `crop` keeps the central part of every volume, for every factor greater than one. -/
theorem C70_crop (v : NDArray Nat) (f : Nat) (hf : 2 ≤ f) (hv : v.shape.length = 3) :
    ∃ w, cropVolume v f = .ok w ∧ CentralPart f v w := by
  obtain ⟨A, B, C, hv⟩ : ∃ A B C, v.shape = [A, B, C] := by
    match h : v.shape, hv with
    | [A, B, C], _ => exact ⟨A, B, C, rfl⟩
  obtain ⟨w, h1, h2, h3⟩ := cropVolume_eq v f hf A B C hv
  exact ⟨w, h1, A, B, C, _, _, _, _, _, _, hv, h2, isCentral_cropRange f A hf, isCentral_cropRange f B hf,
    isCentral_cropRange f C hf, fun i j k _ _ _ => h3 i j k⟩

example : ∃ w, cropVolume ⟨[5, 4, 9], fun idx => idx.getD 0 0 * 100 + idx.getD 1 0 * 10 + idx.getD 2 0⟩ 2 = .ok w ∧
    w.shape = [2, 2, 4] ∧ w.get [0, 0, 0] = 112 := ⟨_, rfl, rfl, rfl⟩

/-! ### File names -/

theorem subDims_prefix (repl pre s : Txt) (h : ∀ c ∈ pre, c.isDigit = false) :
    subDims repl (pre ++ s) = pre ++ subDims repl s := by
  induction pre with
  | nil => rfl
  | cons c pre ih =>
    rw [List.cons_append, subDims, matchDims_head (by simp [h c (by simp)])]
    simp only [List.cons_append]
    rw [ih (fun d hd => h d (by simp [hd]))]

theorem subDims_of_not_mem (repl s : Txt) (h : 'x' ∉ s) : subDims repl s = s := by
  induction s with
  | nil => simp [subDims]
  | cons c s ih =>
    rw [subDims]
    split
    · rename_i a b c' hm
      obtain ⟨-, r, e, -⟩ := matchDims_some hm
      rw [e] at h
      simp at h
    · rw [ih (fun hs => h (by simp [hs]))]

theorem subDims_match (repl a b c r : Txt) (h : IsDims a b c) (hr : ∀ d, r.head? = some d → d.isDigit = false) :
    subDims repl (a ++ 'x' :: (b ++ 'x' :: (c ++ r))) = repl ++ subDims repl r := by
  have hm := matchDims_append a b c r h hr
  obtain ⟨ch, a', rfl⟩ : ∃ ch a', a = ch :: a' := by
    cases a with
    | nil => exact absurd rfl h.1.1
    | cons ch a' => exact ⟨ch, a', rfl⟩
  rw [List.cons_append] at hm ⊢
  rw [subDims, hm]
  simp only
  congr 2
  have : a' ++ 'x' :: (b ++ 'x' :: (c ++ r)) = (a' ++ 'x' :: (b ++ 'x' :: c)) ++ r := by simp
  rw [this, List.drop_left' (by simp; omega)]

theorem saveCropped_name (pre : Txt) (X Y Z : Nat) (bits : String) (dt : DType) (hpre : ∀ c ∈ pre, c.isDigit = false)
    (hb : (bits, dt) ∈ documentedBits) (v : NDArray Nat) (P Q R : Nat) (hv : v.shape = [P, Q, R]) :
    (saveCropped (rawName pre X Y Z bits.toList) v dt).1 = rawName ("crop_".toList ++ pre) R Q P bits.toList := by
  obtain ⟨ds, tail, e, ht, hd, hl, hdot, hx, hp⟩ := documentedBits_split _ hb
  unfold saveCropped rawName
  simp only [hv, dimsText, natText_eq, List.getD_cons_zero, List.getD_cons_succ]
  have h1 := subDims_prefix (decimal R ++ 'x' :: (decimal Q ++ 'x' :: decimal P)) (pre ++ ['_'])
    (decimal X ++ 'x' :: (decimal Y ++ 'x' :: (decimal Z ++ '_' :: (bits.toList ++ ".raw".toList))))
    (by
      intro c hc
      rcases List.mem_append.1 hc with hc | hc
      · exact hpre c hc
      · simp only [List.mem_singleton] at hc; subst hc; decide)
  rw [List.append_assoc, List.cons_append, List.nil_append] at h1
  rw [h1, subDims_match _ _ _ _ _ ⟨isNumber_decimal X, isNumber_decimal Y, isNumber_decimal Z⟩
      (by intro d hd; simp at hd; subst hd; decide), subDims_of_not_mem _ ('_' :: _) (by
        simp only [List.mem_cons, List.mem_append, not_or]
        exact ⟨by decide, hx, by decide⟩)]
  simp

theorem parseBitdepth_documented (bits : String) (dt : DType) (hb : (bits, dt) ∈ documentedBits) :
    parseBitdepth bits = .ok dt := (documentedBits_split _ hb).choose_spec.choose_spec.2.2.2.2.2.2

theorem loadRaw_file (fs : FileSystem) (dir name : Txt) (bytes : List UInt8) (dims : List Int) (dt : DType)
    (hn : parseRawName name = .ok (dims, dt)) (hf : fs (pathJoin dir name) = some bytes) :
    loadRaw fs dir name = match loadBinary bytes dt dims with
      | .error e => .error e
      | .ok a => .ok (dt, a) := by
  unfold loadRaw readFile
  rw [hn]
  simp only [hf]
  cases loadBinary bytes dt dims <;> rfl

/-! ### C70 -/

/-- What the crop script does, for all sizes: the file it writes is loaded by `load_raw` as the central part of the
volume that the input file contains *if the first two sizes are exchanged*. -/
theorem C70_script (bytes : List UInt8) (pre : Txt) (X Y Z : Nat) (bits : String) (dt : DType) (f : Nat) (hf : 2 ≤ f)
    (hpre : ∀ c ∈ pre, c.isDigit = false) (hb : (bits, dt) ∈ documentedBits)
    (hX : X < 2 ^ 63) (hY : Y < 2 ^ 63) (hZ : Z < 2 ^ 63) (hZ0 : 0 < Z) (hl : bytes.length < 2 ^ 63)
    (hs : bytes.length / dt.itemsize = X * Y * Z) :
    ∃ name' bytes' v w, cropScript bytes (rawName pre X Y Z bits.toList) bits X Y Z f = .ok (name', bytes') ∧
      loadBinary bytes dt [(Y : Int), X, Z] = .ok v ∧ v.shape = [Y, X, Z] ∧ CentralPart f v w ∧
      ∀ fs dir, fs (pathJoin dir name') = some bytes' → loadRaw fs dir name' = .ok (dt, w) := by
  obtain ⟨l, hl1, hl2, hl3⟩ := loadParts_ok bytes dt X Y Z hs
  obtain ⟨v, hv1, hv2, hv3⟩ := (loadBinary_three bytes dt Y X Z hY hX hZ hl).1 (by rw [hs, Nat.mul_comm X Y])
  have hvol : loadVolume bytes dt X Y Z = .ok (stackArrays [X, Y] l) := by
    unfold loadVolume
    rw [hl1]
    cases l with
    | nil => simp at hl2; omega
    | cons => rfl
  have hget : ∀ i p q, i < Z → p < X → q < Y → (stackArrays [X, Y] l).get [i, p, q] =
      fileItem bytes dt.itemsize (q + Y * (p + X * i)) := by
    intro i p q hi hp hq
    obtain ⟨a, ha, -, hg⟩ := hl3 i hi
    simp only [stackArrays, ha, Option.map_some, Option.getD_some]
    exact hg p q hp hq
  obtain ⟨u, hu1, hu2, hu3⟩ := cropVolume_eq (stackArrays [X, Y] l) f hf Z X Y (by simp [stackArrays, hl2])
  have hle : ∀ n : Nat, 2 * (n / f / 2) ≤ n ∧ ∀ i, i < 2 * (n / f / 2) → n / 2 - n / f / 2 + i < n := by
    intro n
    have h2 : n / f ≤ n / 2 := Nat.div_le_div_left hf (by omega)
    generalize n / f = m at *
    exact ⟨by omega, fun i hi => by omega⟩
  have hlen : 2 * (Z / f / 2) * (2 * (X / f / 2)) * (2 * (Y / f / 2)) * dt.itemsize < 2 ^ 63 := by
    have h1 : 2 * (Z / f / 2) * (2 * (X / f / 2)) * (2 * (Y / f / 2)) ≤ Z * X * Y :=
      Nat.mul_le_mul (Nat.mul_le_mul (hle Z).1 (hle X).1) (hle Y).1
    have h2 : Z * X * Y * dt.itemsize ≤ bytes.length := by
      rw [Nat.mul_assoc Z, Nat.mul_comm Z, ← hs]; exact Nat.div_mul_le_self _ _
    exact Nat.lt_of_le_of_lt (Nat.le_trans (Nat.mul_le_mul_right _ h1) h2) hl
  have hlt : ∀ n : Nat, n < 2 ^ 63 → 2 * (n / f / 2) < 2 ^ 63 := fun n hn => Nat.lt_of_le_of_lt (hle n).1 hn
  have hug : ∀ p q r, p < 2 * (Z / f / 2) → q < 2 * (X / f / 2) → r < 2 * (Y / f / 2) → u.get [p, q, r] =
      fileItem bytes dt.itemsize ((Y / 2 - Y / f / 2 + r) + Y * ((X / 2 - X / f / 2 + q) + X * (Z / 2 - Z / f / 2 + p))) := by
    intro p q r hp hq hr
    rw [hu3, hget _ _ _ ((hle Z).2 p hp) ((hle X).2 q hq) ((hle Y).2 r hr)]
  obtain ⟨w, hw1, hw2, hw3⟩ := load_tofile u dt _ _ _ hu2 (hlt Z hZ) (hlt X hX) (hlt Y hY) hlen
    (fun p q r hp hq hr => by rw [hug p q r hp hq hr]; exact fileItem_lt _ _ _)
  refine ⟨(saveCropped (rawName pre X Y Z bits.toList) u dt).1, (saveCropped (rawName pre X Y Z bits.toList) u dt).2,
    v, w, ?_, hv1, hv2, ⟨Y, X, Z, _, _, _, _, _, _, hv2, hw2, isCentral_cropRange f Y hf,
    isCentral_cropRange f X hf, isCentral_cropRange f Z hf, ?_⟩, ?_⟩
  · unfold cropScript
    rw [parseBitdepth_documented bits dt hb]
    simp only [hvol, hu1]
  · intro i j k hi hj hk
    rw [hw3 k j i hk hj hi, hug k j i hk hj hi, hv3 _ _ _ ((hle Y).2 i hi) ((hle X).2 j hj) ((hle Z).2 k hk)]
    rfl
  · intro fs dir hfile
    rw [saveCropped_name pre X Y Z bits dt hpre hb u _ _ _ hu2] at hfile ⊢
    rw [loadRaw_file fs dir _ _ _ dt (C04_name_round_trip _ _ _ _ bits dt (by
        intro c hc
        rcases List.mem_append.1 hc with hc | hc
        · exact (by decide : ∀ c ∈ "crop_".toList, c.isDigit = false) c hc
        · exact hpre c hc) hb) hfile]
    simp only [saveCropped, hw1]

/-- The central half of a volume of 4 by 2 by 2 voxels. -/
example : ∃ name' bytes' v w, cropScript [1, 2, 3, 4, 5, 6, 7, 8, 9, 10, 11, 12, 13, 14, 15, 16] (rawName "a_".toList 4 2 2 "8bit".toList) "8bit" 4 2 2 2 =
      .ok (name', bytes') ∧
    loadBinary [1, 2, 3, 4, 5, 6, 7, 8, 9, 10, 11, 12, 13, 14, 15, 16] .u8 [2, 4, 2] = .ok v ∧ CentralPart 2 v w ∧
    ∀ fs dir, fs (pathJoin dir name') = some bytes' → loadRaw fs dir name' = .ok (.u8, w) := by
  obtain ⟨n, b, v, w, h1, h2, -, h3, h4⟩ := C70_script [1, 2, 3, 4, 5, 6, 7, 8, 9, 10, 11, 12, 13, 14, 15, 16] "a_".toList 4 2 2 "8bit" .u8 2 (by decide)
    (by decide) (by decide) (by decide) (by decide) (by decide) (by decide) (by decide) (by decide)
  exact ⟨n, b, v, w, h1, h2, h3, h4⟩

/-- **C70, partial.** For volumes with equal extents in x and y the file written by the script is loaded as the central
part of the input volume, for every factor greater than one. Missing: other volumes, see `C70_refuted`. -/
theorem C70_script_partial (bytes : List UInt8) (pre : Txt) (N Z : Nat) (bits : String) (dt : DType) (f : Nat) (hf : 2 ≤ f)
    (hpre : ∀ c ∈ pre, c.isDigit = false) (hb : (bits, dt) ∈ documentedBits)
    (hN : N < 2 ^ 63) (hZ : Z < 2 ^ 63) (hl : bytes.length < 2 ^ 63) (v : NDArray Nat)
    (hv : loadBinary bytes dt [(N : Int), N, Z] = .ok v) (hZ0 : 0 < Z) :
    ∃ name' bytes' w, cropScript bytes (rawName pre N N Z bits.toList) bits N N Z f = .ok (name', bytes') ∧
      CentralPart f v w ∧ ∀ fs dir, fs (pathJoin dir name') = some bytes' → loadRaw fs dir name' = .ok (dt, w) := by
  have hs := (C02_size_check bytes dt N N Z hN hN hZ hl).1.1 ⟨v, hv⟩
  obtain ⟨name', bytes', v', w, h1, h2, -, h3, h4⟩ := C70_script bytes pre N N Z bits dt f hf hpre hb hN hN hZ hZ0 hl hs
  rw [hv] at h2
  cases h2
  exact ⟨name', bytes', w, h1, h3, h4⟩

example : ∃ name' bytes' v w, cropScript [1, 2, 3, 4, 5, 6, 7, 8] (rawName "a_".toList 2 2 2 "8bit".toList) "8bit" 2 2 2 2 =
      .ok (name', bytes') ∧ loadBinary [1, 2, 3, 4, 5, 6, 7, 8] .u8 [2, 2, 2] = .ok v ∧ CentralPart 2 v w ∧
    ∀ fs dir, fs (pathJoin dir name') = some bytes' → loadRaw fs dir name' = .ok (.u8, w) := by
  obtain ⟨v, hv⟩ : ∃ v, loadBinary [1, 2, 3, 4, 5, 6, 7, 8] .u8 [((2 : Nat) : Int), (2 : Nat), (2 : Nat)] = .ok v := ⟨_, rfl⟩
  obtain ⟨n, b, w, h1, h3, h4⟩ := C70_script_partial [1, 2, 3, 4, 5, 6, 7, 8] "a_".toList 2 2 "8bit" .u8 2 (by decide)
    (by decide) (by decide) (by decide) (by decide) (by decide) v hv (by decide)
  exact ⟨n, b, v, w, h1, hv, h3, h4⟩

/-- **C70, refuted** for all volumes whose extents in x and y differ by at least twice the factor: the file
written by the script is not loaded as the central part of the input volume; the extents are exchanged. -/
theorem C70_refuted (bytes : List UInt8) (pre : Txt) (X Y Z : Nat) (bits : String) (dt : DType) (f : Nat) (hf : 2 ≤ f)
    (hpre : ∀ c ∈ pre, c.isDigit = false) (hb : (bits, dt) ∈ documentedBits)
    (hX : X < 2 ^ 63) (hY : Y < 2 ^ 63) (hZ : Z < 2 ^ 63) (hZ0 : 0 < Z) (hl : bytes.length < 2 ^ 63)
    (v : NDArray Nat) (hv : loadBinary bytes dt [(X : Int), Y, Z] = .ok v) (hXY : X + 2 * f ≤ Y ∨ Y + 2 * f ≤ X) :
    ∃ name' bytes' w, cropScript bytes (rawName pre X Y Z bits.toList) bits X Y Z f = .ok (name', bytes') ∧
      ¬ CentralPart f v w ∧ ∀ fs dir, fs (pathJoin dir name') = some bytes' → loadRaw fs dir name' = .ok (dt, w) := by
  have hs := (C02_size_check bytes dt X Y Z hX hY hZ hl).1.1 ⟨v, hv⟩
  obtain ⟨name', bytes', v', w, h1, h2, hsh, h3, h4⟩ := C70_script bytes pre X Y Z bits dt f hf hpre hb hX hY hZ hZ0 hl hs
  refine ⟨name', bytes', w, h1, ?_, h4⟩
  rintro ⟨A, B, C, A', B', C', a, b, c, e1, e2, ⟨i1, i2, i3, -⟩, -⟩
  obtain ⟨A2, B2, C2, A2', B2', C2', a2, b2, c2, g1, g2, ⟨j1, j2, j3, -⟩, -⟩ := h3
  have hvs := (C01_voxel_order bytes dt X Y Z v hX hY hZ hl hv).1
  rw [hvs] at e1; rw [hsh] at g1; rw [e2] at g2
  cases e1; cases g1; cases g2
  have hdiv : ∀ p q : Nat, p + 2 * f ≤ q → p / f + 2 ≤ q / f := by
    intro p q h
    have := Nat.div_le_div_right (c := f) h
    rwa [Nat.mul_comm 2 f, Nat.add_mul_div_left _ _ (by omega)] at this
  rcases hXY with h | h
  · have := hdiv _ _ h; omega
  · have := hdiv _ _ h; omega

/-- **C70, refuted** also if the extents of the result agree: the file written for a 4 × 5 × 4 volume and the factor 2
has the right size, but the wrong voxels. -/
theorem C70_scrambled_refuted :
    ∃ v name' bytes' w, loadBinary ((List.range 80).map UInt8.ofNat) .u8 [4, 5, 4] = .ok v ∧
      cropScript ((List.range 80).map UInt8.ofNat) "a_4x5x4_8bit.raw".toList "8bit" 4 5 4 2 = .ok (name', bytes') ∧
      String.ofList name' = "crop_a_2x2x2_8bit.raw" ∧ loadBinary bytes' .u8 [2, 2, 2] = .ok w ∧
      ¬ CentralPart 2 v w := by
  refine ⟨_, _, _, _, rfl, rfl, by decide +kernel, rfl, ?_⟩
  rintro ⟨A, B, C, A', B', C', a, b, c, e1, e2, ⟨i1, i2, i3, i4⟩, ⟨j1, j2, j3, j4⟩, ⟨k1, k2, k3, k4⟩, h⟩
  have e1 : [4, 5, 4] = [A, B, C] := e1
  have e2 : [2, 2, 2] = [A', B', C'] := e2
  cases e1; cases e2
  obtain rfl : a = 1 := by omega
  obtain rfl : b = 1 := by omega
  obtain rfl : c = 1 := by omega
  exact absurd (h 0 0 0 (by decide) (by decide) (by decide)) (by decide +kernel)

/-- A factor of one is refused. -/
theorem C70_factor_one (v : NDArray Nat) : ∃ m, cropVolume v 1 = .error (.valueError m) := ⟨_, rfl⟩

example : ∃ m, cropVolume ⟨[5, 4, 9], fun idx => idx.sum⟩ 1 = .error (.valueError m) := C70_factor_one _

/-! ### C71 -/

theorem pyRange_get (n k i : Nat) (hi : i < (n + (k - 1)) / k) : (pyRange 0 n k)[i]? = some (i * k) := by
  simp [pyRange, hi]

theorem filterMap_get {α} (l : List α) (is : List Nat) (h : ∀ i ∈ is, i < l.length) :
    (is.filterMap (fun i => l[i]?)).length = is.length ∧
    ∀ j : Nat, (is.filterMap (fun i => l[i]?))[j]? = (is[j]?).bind (fun i => l[i]?) := by
  induction is with
  | nil => simp
  | cons i is ih =>
    have hi := h i (by simp)
    obtain ⟨h1, h2⟩ := ih (fun j hj => h j (by simp [hj]))
    rw [List.filterMap_cons, List.getElem?_eq_getElem hi]
    refine ⟨by simp [h1], ?_⟩
    intro j
    cases j with
    | zero => simp [List.getElem?_eq_getElem hi]
    | succ j => simp [h2]

theorem pyRange_lt (n k : Nat) (hk : 0 < k) : ∀ i ∈ pyRange 0 n k, i < n := by
  intro i hi
  simp only [pyRange, List.mem_map, List.mem_range, Nat.zero_add, Nat.sub_zero] at hi
  obtain ⟨j, hj, rfl⟩ := hi
  rw [Nat.lt_div_iff_mul_lt hk] at hj
  omega

/-- A stack of parts, written and loaded again. -/
theorem load_stacked (bytes : List UInt8) (dt : DType) (X Y n : Nat) (l : List (NDArray Nat)) (g : Nat → Nat) (hn : l.length = n)
    (hX : X < 2 ^ 63) (hY : Y < 2 ^ 63) (hn3 : n < 2 ^ 63) (hb : X * Y * n * dt.itemsize < 2 ^ 63)
    (hl : ∀ i, i < n → ∃ a, l[i]? = some a ∧ ∀ p q, p < X → q < Y →
      a.get [p, q] = fileItem bytes dt.itemsize (q + Y * (p + X * g i))) :
    ∃ w, loadBinary (tofile dt.itemsize (stackArrays [X, Y] l)) dt [(X : Int), Y, n] = .ok w ∧ w.shape = [X, Y, n] ∧
      ∀ x y i, x < X → y < Y → i < n → w.get [x, y, i] = fileItem bytes dt.itemsize (voxelPos X Y x y (g i)) := by
  have hlen : (tofile dt.itemsize (stackArrays [X, Y] l)).length = X * Y * n * dt.itemsize := by
    rw [length_tofile]; simp [stackArrays, hn, Nat.mul_comm n]
  obtain ⟨w, h1, h2, h3⟩ := (loadBinary_three (tofile dt.itemsize (stackArrays [X, Y] l)) dt X Y n hX hY hn3
    (by rw [hlen]; exact hb)).1 (by rw [hlen, Nat.mul_div_cancel _ dt.itemsize_pos])
  refine ⟨w, h1, h2, ?_⟩
  intro x y i hx hy hi
  rw [h3 x y i hx hy hi]
  obtain ⟨a, ha, hg⟩ := hl i hi
  have hY0 : 0 < Y := by omega
  have hk : x + X * y < X * Y := by
    have := Nat.mul_le_mul_left X hy
    rw [Nat.succ_eq_add_one, Nat.mul_add] at this; omega
  have hp : (x + X * y) / Y < X := Nat.div_lt_of_lt_mul (by rw [Nat.mul_comm Y X]; exact hk)
  have hq : (x + X * y) % Y < Y := Nat.mod_lt _ hY0
  have hd := Nat.div_add_mod (x + X * y) Y
  have hget : (stackArrays [X, Y] l).get [i, (x + X * y) / Y, (x + X * y) % Y] =
      fileItem bytes dt.itemsize (voxelPos X Y x y (g i)) := by
    simp only [stackArrays, ha, Option.map_some, Option.getD_some]
    rw [hg _ _ hp hq]
    congr 1
    unfold voxelPos
    rw [Nat.mul_add, Nat.mul_add, ← Nat.mul_assoc, ← Nat.mul_assoc, Nat.mul_comm Y X]; omega
  rw [← hget, ← fileItem_tofile dt.itemsize (stackArrays [X, Y] l) [i, (x + X * y) / Y, (x + X * y) % Y]
    ⟨by rw [hn]; exact hi, hp, hq, trivial⟩ (by rw [hget]; exact fileItem_lt _ _ _)]
  congr 1
  simp only [voxelPos, stackArrays, ravelIndex, List.prod_cons, List.prod_nil, Nat.mul_one, Nat.add_zero]
  have e1 : X * (y + Y * i) = X * y + i * (X * Y) := by rw [Nat.mul_add, ← Nat.mul_assoc, Nat.mul_comm i]
  have e2 := Nat.mul_comm ((x + X * y) / Y) Y
  rw [e1, e2]; omega

theorem loadBinary_item (bytes : List UInt8) (dt : DType) (X Y Z : Nat) (v : NDArray Nat)
    (hX : X < 2 ^ 63) (hY : Y < 2 ^ 63) (hZ : Z < 2 ^ 63) (hl : bytes.length < 2 ^ 63)
    (hv : loadBinary bytes dt [(X : Int), Y, Z] = .ok v) : X * Y * Z * dt.itemsize ≤ bytes.length := by
  have hs := (C02_size_check bytes dt X Y Z hX hY hZ hl).1.1 ⟨v, hv⟩
  rw [← hs]; exact Nat.div_mul_le_self _ _

theorem ensureFolder_ok (isDir : Txt → Bool) (folder : Txt) (h : folder ≠ []) : ensureFolder isDir folder = .ok () := by
  unfold ensureFolder
  rw [if_neg h, ite_self]

/-- The reduce script, given the result of the slice. -/
theorem reduceScript_eq (bytes : List UInt8) (X Y Z : Nat) (bits : String) (dt : DType) (factor : Int) (hf : factor ≠ 1)
    (hb : (bits, dt) ∈ documentedBits) (l l' : List (NDArray Nat)) (hl : loadParts bytes dt X Y Z = .ok l)
    (hl' : everyNth l factor = .ok l') (hne : l' ≠ []) (isDir : Txt → Bool) (output : Txt) (ho : dirname output ≠ []) :
    reduceScript bytes bits X Y Z factor isDir output = .ok (tofile dt.itemsize (stackArrays [X, Y] l')) := by
  have : reduceParts X Y l factor = .ok (stackArrays [X, Y] l') := by
    unfold reduceParts
    rw [if_neg hf, hl']
    cases l' with
    | nil => exact absurd rfl hne
    | cons => rfl
  unfold reduceScript
  rw [parseBitdepth_documented bits dt hb]
  simp only [hl, this, ensureFolder_ok isDir _ ho]

/-- **C71.** For a factor greater than one the output file, loaded with the same size in x and y, has as many slices
as there are multiples of the factor below `Z`, and slice `i` is slice `i*factor` of the input. The output path must
name a directory (C104). -/
theorem C71_reduced (bytes : List UInt8) (X Y Z : Nat) (bits : String) (dt : DType) (f : Nat) (hf : 2 ≤ f)
    (hb : (bits, dt) ∈ documentedBits)
    (hX : X < 2 ^ 63) (hY : Y < 2 ^ 63) (hZ : Z < 2 ^ 63) (hZ0 : 0 < Z) (hl : bytes.length < 2 ^ 63)
    (v : NDArray Nat) (hv : loadBinary bytes dt [(X : Int), Y, Z] = .ok v) (isDir : Txt → Bool) (output : Txt)
    (ho : dirname output ≠ []) :
    ∃ (bytes' : List UInt8) (w : NDArray Nat) (n : Nat), reduceScript bytes bits X Y Z f isDir output = .ok bytes' ∧
      loadBinary bytes' dt [(X : Int), Y, n] = .ok w ∧ (∀ i : Nat, i < n ↔ i * f < Z) ∧ w.shape = [X, Y, n] ∧
      ∀ x y i : Nat, x < X → y < Y → i < n → w.get [x, y, i] = v.get [x, y, i * f] := by
  have hs := (C02_size_check bytes dt X Y Z hX hY hZ hl).1.1 ⟨v, hv⟩
  have hvi := (C01_voxel_order bytes dt X Y Z v hX hY hZ hl hv).2
  have hle := loadBinary_item bytes dt X Y Z v hX hY hZ hl hv
  obtain ⟨l, hl1, hl2, hl3⟩ := loadParts_ok bytes dt X Y Z hs
  have hf0 : 0 < f := by omega
  have hiff : ∀ i : Nat, i < (Z + (f - 1)) / f ↔ i * f < Z := by
    intro i
    rw [← Nat.succ_le_iff, Nat.le_div_iff_mul_le hf0, Nat.succ_mul]; omega
  have hnZ : (Z + (f - 1)) / f ≤ Z := by
    apply Nat.le_of_lt_succ
    rw [Nat.div_lt_iff_lt_mul hf0, Nat.succ_mul]
    have := Nat.mul_le_mul_left Z (show 1 ≤ f by omega)
    omega
  obtain ⟨g1, g2⟩ := filterMap_get l (pyRange 0 l.length f) (pyRange_lt l.length f hf0)
  have hev : everyNth l (f : Int) = .ok ((pyRange 0 l.length f).filterMap (fun i => l[i]?)) := by
    unfold everyNth
    rw [if_neg (by omega), if_pos (by omega)]
    simp
  have hlen : ((pyRange 0 l.length f).filterMap (fun i => l[i]?)).length = (Z + (f - 1)) / f := by
    rw [g1]; simp [pyRange, hl2]
  obtain ⟨w, hw1, hw2, hw3⟩ := load_stacked bytes dt X Y ((Z + (f - 1)) / f) _ (fun i => i * f) hlen hX hY (by omega)
    (Nat.lt_of_le_of_lt (Nat.le_trans (Nat.mul_le_mul_right _ (Nat.mul_le_mul_left _ hnZ)) hle) hl) (by
      intro i hi
      obtain ⟨a, ha, -, hg⟩ := hl3 (i * f) ((hiff i).1 hi)
      refine ⟨a, ?_, hg⟩
      rw [g2, pyRange_get _ _ _ (by rw [hl2]; exact hi), Option.bind_some, ha])
  refine ⟨_, w, _, reduceScript_eq bytes X Y Z bits dt f (by omega) hb l _ hl1 hev ?_ isDir output ho, hw1, hiff, hw2, ?_⟩
  · intro h
    rw [h] at hlen
    have := (hiff 0).2 (by omega)
    simp at hlen; omega
  · intro x y i hx hy hi
    rw [hw3 x y i hx hy hi, hvi x y (i * f) hx hy ((hiff i).1 hi)]

example : reduceScript [1, 2, 3, 4, 5] "8bit" 1 1 5 2 (fun _ => false) "out/a.raw".toList = .ok [1, 3, 5] := by
  decide +kernel

/-- **C71, refuted** for negative factors, which are accepted although the message for the factor one asks for factors
greater than one: with the factor -1 the slices are reversed. -/
theorem C71_negative_refuted (bytes : List UInt8) (X Y Z : Nat) (bits : String) (dt : DType)
    (hb : (bits, dt) ∈ documentedBits)
    (hX : X < 2 ^ 63) (hY : Y < 2 ^ 63) (hZ : Z < 2 ^ 63) (hZ0 : 0 < Z) (hl : bytes.length < 2 ^ 63)
    (v : NDArray Nat) (hv : loadBinary bytes dt [(X : Int), Y, Z] = .ok v) (isDir : Txt → Bool) (output : Txt)
    (ho : dirname output ≠ []) :
    ∃ (bytes' : List UInt8) (w : NDArray Nat), reduceScript bytes bits X Y Z (-1) isDir output = .ok bytes' ∧
      loadBinary bytes' dt [(X : Int), Y, Z] = .ok w ∧
      ∀ x y i : Nat, x < X → y < Y → i < Z → w.get [x, y, i] = v.get [x, y, Z - 1 - i] := by
  have hs := (C02_size_check bytes dt X Y Z hX hY hZ hl).1.1 ⟨v, hv⟩
  have hvi := (C01_voxel_order bytes dt X Y Z v hX hY hZ hl hv).2
  have hle := loadBinary_item bytes dt X Y Z v hX hY hZ hl hv
  obtain ⟨l, hl1, hl2, hl3⟩ := loadParts_ok bytes dt X Y Z hs
  have hev : everyNth l (-1) = .ok ((pyRange 0 l.length 1).filterMap (fun i => l[l.length - 1 - i]?)) := rfl
  have hre : (pyRange 0 l.length 1).filterMap (fun i => l[l.length - 1 - i]?) =
      ((List.range l.length).map (fun i => l.length - 1 - i)).filterMap (fun i => l[i]?) := by
    rw [List.filterMap_map]
    simp [pyRange, Function.comp_def]
  rw [hre] at hev
  obtain ⟨g1, g2⟩ := filterMap_get l ((List.range l.length).map (fun i => l.length - 1 - i)) (by
    intro i hi
    simp only [List.mem_map, List.mem_range] at hi
    omega)
  obtain ⟨w, hw1, hw2, hw3⟩ := load_stacked bytes dt X Y Z _ (fun i => Z - 1 - i) (by rw [g1]; simp [hl2]) hX hY hZ
    (Nat.lt_of_le_of_lt hle hl) (by
      intro i hi
      obtain ⟨a, ha, -, hg⟩ := hl3 (Z - 1 - i) (by omega)
      refine ⟨a, ?_, hg⟩
      rw [g2, List.getElem?_map, List.getElem?_range (by omega)]
      simp [hl2, ha])
  refine ⟨_, w, reduceScript_eq bytes X Y Z bits dt (-1) (by omega) hb l _ hl1 hev ?_ isDir output ho, hw1, ?_⟩
  · intro h
    rw [h] at g1
    simp at g1; rw [← g1] at hl2; omega
  · intro x y i hx hy hi
    rw [hw3 x y i hx hy hi, hvi x y _ hx hy (by omega)]

/-- The factors zero and one are refused. -/
theorem C71_refused (X Y : Nat) (l : List (NDArray Nat)) (factor : Int) (h : factor = 0 ∨ factor = 1) :
    ∃ m, reduceParts X Y l factor = .error (.valueError m) := by
  rcases h with rfl | rfl
  · exact ⟨_, rfl⟩
  · exact ⟨_, rfl⟩

example : ∃ m, reduceParts 1 1 [⟨[1, 1], fun _ => 5⟩] 0 = .error (.valueError m) := C71_refused _ _ _ _ (.inl rfl)

/-! ### C104 -/

theorem dropWhile_ne_slash (p : Txt) (h : '/' ∉ p) : p.dropWhile (· ≠ '/') = [] := by
  induction p with
  | nil => rfl
  | cons c p ih =>
    have hc : c ≠ '/' := fun e => h (by simp [e])
    rw [List.dropWhile_cons, if_pos (by simpa using hc)]
    exact ih (fun hp => h (by simp [hp]))

/-- **C104, refuted** for every output path that is only a name: whatever the directory contains, the file that should be
written into the current directory is not written. -/
theorem C104_refuted (bytes : List UInt8) (bits : String) (X Y Z : Nat) (factor : Int) (isDir : Txt → Bool) (output : Txt)
    (h : '/' ∉ output) : ∃ e, reduceScript bytes bits X Y Z factor isDir output = .error e := by
  have hd : dirname output = [] := by
    unfold dirname
    rw [dropWhile_ne_slash _ (by simpa using h)]
    rfl
  have he : ensureFolder isDir [] = .error .fileNotFound := by simp [ensureFolder]
  unfold reduceScript
  rw [hd, he]
  cases parseBitdepth bits with
  | error e => exact ⟨e, rfl⟩
  | ok dt =>
    simp only
    cases loadParts bytes dt X Y Z with
    | error e => exact ⟨e, rfl⟩
    | ok l =>
      simp only
      cases reduceParts X Y l factor with
      | error e => exact ⟨e, rfl⟩
      | ok v => exact ⟨_, rfl⟩

/-- **C104, partial.** If the output path contains a slash, the directory is no obstacle: every file that can be loaded and
reduced is written. -/
theorem C104_written_partial (bytes : List UInt8) (bits : String) (X Y Z : Nat) (dt : DType) (factor : Int) (isDir : Txt → Bool)
    (l : List (NDArray Nat)) (v : NDArray Nat) (output : Txt) (h : '/' ∈ output) (hb : parseBitdepth bits = .ok dt)
    (hl : loadParts bytes dt X Y Z = .ok l) (hr : reduceParts X Y l factor = .ok v) :
    reduceScript bytes bits X Y Z factor isDir output = .ok (tofile dt.itemsize v) := by
  have hd : dirname output ≠ [] := by
    have key : ∀ p : Txt, '/' ∈ p → ∃ q, p.dropWhile (· ≠ '/') = '/' :: q := by
      intro p
      induction p with
      | nil => simp
      | cons c p ih =>
        intro hp
        by_cases hc : c = '/'
        · subst hc; exact ⟨p, by simp⟩
        · obtain ⟨q, hq⟩ := ih (by simpa [Ne.symm hc] using hp)
          exact ⟨q, by rw [List.dropWhile_cons, if_pos (by simpa using hc)]; exact hq⟩
    obtain ⟨q, hq⟩ := key output.reverse (by simpa using h)
    unfold dirname
    rw [hq]
    simp only
    split
    · simp
    · rename_i hall
      intro hcon
      apply hall
      have hcon : (('/' :: q).reverse.reverse.dropWhile (· = '/')) = [] := by simpa using hcon
      rw [List.reverse_reverse] at hcon
      rw [List.all_reverse, List.all_eq_true]
      have key2 : ∀ p : Txt, p.dropWhile (· = '/') = [] → ∀ c ∈ p, decide (c = '/') = true := by
        intro p
        induction p with
        | nil => simp
        | cons c p ih =>
          intro hp
          rw [List.dropWhile_cons] at hp
          by_cases hc : c = '/'
          · rw [if_pos (by simpa using hc)] at hp
            intro d hd
            rcases List.mem_cons.1 hd with rfl | hd
            · simpa using hc
            · exact ih hp d hd
          · rw [if_neg (by simpa using hc)] at hp
            cases hp
      exact key2 _ hcon
  unfold reduceScript
  rw [hb]
  simp only [hl, hr, ensureFolder_ok isDir _ hd]

example : reduceScript [1, 2, 3, 4] "8bit" 1 1 4 2 (fun _ => true) "a.raw".toList = .error .fileNotFound ∧
    reduceScript [1, 2, 3, 4] "8bit" 1 1 4 2 (fun _ => true) "./a.raw".toList = .ok [1, 3] := by decide +kernel

/-! ### C72 -/

theorem mapM_ok {α β} (f : α → Py β) (P : α → β → Prop) (l : List α) (h : ∀ a ∈ l, ∃ b, f a = .ok b ∧ P a b) :
    ∃ l', l.mapM f = .ok l' ∧ l'.length = l.length ∧
      ∀ (i : Nat) (a : α), l[i]? = some a → ∃ b, l'[i]? = some b ∧ f a = .ok b ∧ P a b := by
  induction l with
  | nil => exact ⟨[], rfl, rfl, by simp⟩
  | cons a l ih =>
    obtain ⟨b, hb, hP⟩ := h a (by simp)
    obtain ⟨l', h1, h2, h3⟩ := ih (fun a ha => h a (by simp [ha]))
    refine ⟨b :: l', by rw [List.mapM_cons, hb, h1]; rfl, by simp [h2], ?_⟩
    intro i a' ha'
    cases i with
    | zero => simp at ha'; subst ha'; exact ⟨b, rfl, hb, hP⟩
    | succ i => exact h3 i a' (by simpa using ha')

theorem mapM_get {α β} (f : α → Py β) (l : List α) (l' : List β) (h : l.mapM f = .ok l') :
    l'.length = l.length ∧ ∀ (i : Nat) (a : α), l[i]? = some a → ∃ b, l'[i]? = some b ∧ f a = .ok b := by
  induction l generalizing l' with
  | nil => cases h; simp
  | cons a l ih =>
    rw [List.mapM_cons] at h
    cases hb : f a with
    | error e => rw [hb] at h; cases h
    | ok b =>
      rw [hb] at h
      cases hr : l.mapM f with
      | error e => rw [hr] at h; cases h
      | ok r =>
        rw [hr] at h
        cases h
        obtain ⟨h1, h2⟩ := ih r hr
        refine ⟨by simp [h1], ?_⟩
        intro i a' ha'
        cases i with
        | zero => simp at ha'; subst ha'; exact ⟨b, rfl, hb⟩
        | succ i => exact h2 i a' (by simpa using ha')

/-- The combined volume of images of equal size, before it is written. -/
theorem combineStack_ok (files : List (List UInt8)) (dt : DType) (X Y Z : Nat) (hf : files ≠ [])
    (hX : X < 2 ^ 63) (hY : Y < 2 ^ 63) (hZ : Z < 2 ^ 63)
    (hs : ∀ b ∈ files, b.length < 2 ^ 63 ∧ b.length / dt.itemsize = X * Y * Z) :
    ∃ v, combineStack files dt X Y Z = .ok (some v) ∧ v.shape = [files.length, X, Y, Z] ∧
      ∀ i b, files[i]? = some b → ∀ x y z, x < X → y < Y → z < Z →
        v.get [i, x, y, z] = fileItem b dt.itemsize (voxelPos X Y x y z) := by
  obtain ⟨l, h1, h2, h3⟩ := mapM_ok (fun b => loadBinary b dt [(X : Int), Y, Z])
    (fun b v => v.shape = [X, Y, Z] ∧ ∀ x y z, x < X → y < Y → z < Z →
      v.get [x, y, z] = fileItem b dt.itemsize (voxelPos X Y x y z)) files (by
      intro b hb
      obtain ⟨h1, h2⟩ := hs b hb
      obtain ⟨v, hv⟩ := (loadBinary_three b dt X Y Z hX hY hZ h1).1 h2
      exact ⟨v, hv⟩)
  refine ⟨stackArrays [X, Y, Z] l, ?_, by simp [stackArrays, h2], ?_⟩
  · unfold combineStack
    cases files with
    | nil => exact absurd rfl hf
    | cons a files => simp only [h1]
  · intro i b hb x y z hx hy hz
    obtain ⟨a, ha, -, -, hg⟩ := h3 i b hb
    simp only [stackArrays, ha, Option.map_some, Option.getD_some]
    exact hg x y z hx hy hz

theorem saveStack_name (v : NDArray Nat) (dt : DType) (bits : String) (n X Y Z : Nat) (hv : v.shape = [n, X, Y, Z]) :
    (saveStack v dt bits "raw".toList).1 = rawName "volume".toList Y X n bits.toList := by
  unfold saveStack rawName
  simp only [hv, dimsText, natText_eq, List.getD_cons_zero, List.getD_cons_succ]
  rw [show "volume_".toList = "volume".toList ++ ['_'] from rfl, show ".raw".toList = '.' :: "raw".toList from rfl]
  simp

/-- What the combine script does with single slices: the file it writes is loaded as a volume in which every image is
transposed. -/
theorem C72_transposed_refuted (files : List (List UInt8)) (bits : String) (dt : DType) (X Y : Nat) (hf : files ≠ [])
    (hb : (bits, dt) ∈ documentedBits) (hX : X < 2 ^ 63) (hY : Y < 2 ^ 63) (hn : files.length < 2 ^ 63)
    (hl : files.length * X * Y * dt.itemsize < 2 ^ 63)
    (hs : ∀ b ∈ files, b.length < 2 ^ 63 ∧ b.length / dt.itemsize = X * Y) :
    ∃ name' bytes' w, combineScript files bits X Y 1 "raw".toList = .ok (name', bytes') ∧
      (∀ fs dir, fs (pathJoin dir name') = some bytes' → loadRaw fs dir name' = .ok (dt, w)) ∧
      w.shape = [Y, X, files.length] ∧
      ∀ i b v, files[i]? = some b → loadBinary b dt [(X : Int), Y, 1] = .ok v → ∀ x y, x < X → y < Y →
        w.get [y, x, i] = v.get [x, y, 0] := by
  obtain ⟨v, hv1, hv2, hv3⟩ := combineStack_ok files dt X Y 1 hf hX hY (by omega)
    (fun b hb => ⟨(hs b hb).1, by rw [(hs b hb).2, Nat.mul_one]⟩)
  have hlen : (tofile dt.itemsize v).length = files.length * X * Y * dt.itemsize := by
    rw [length_tofile, hv2]; simp [Nat.mul_assoc]
  obtain ⟨w, hw1, hw2, hw3⟩ := (loadBinary_three (tofile dt.itemsize v) dt Y X files.length hY hX hn (by omega)).1 (by
    rw [hlen, Nat.mul_div_cancel _ dt.itemsize_pos, Nat.mul_comm Y X, Nat.mul_comm (X * Y), Nat.mul_assoc])
  refine ⟨(saveStack v dt bits "raw".toList).1, (saveStack v dt bits "raw".toList).2, w, ?_, ?_, hw2, ?_⟩
  · unfold combineScript
    rw [parseBitdepth_documented bits dt hb]
    simp only [hv1]
  · intro fs dir hfile
    have hp := C04_name_round_trip "volume".toList Y X files.length bits dt (by decide) hb
    rw [← saveStack_name v dt bits _ _ _ _ hv2] at hp
    have h2 : (saveStack v dt bits "raw".toList).2 = tofile dt.itemsize v := rfl
    rw [h2] at hfile
    rw [loadRaw_file fs dir _ _ _ dt hp hfile]
    rw [hw1]
  · intro i b u hib hu x y hx hy
    have hi : i < files.length := (List.getElem?_eq_some_iff.1 hib).1
    have hb' := hs b (List.mem_of_getElem? hib)
    have hu' := (C01_voxel_order b dt X Y 1 u hX hY (by omega) hb'.1 hu).2 x y 0 hx hy (by omega)
    have hg := hv3 i b hib x y 0 hx hy (by omega)
    rw [hw3 y x i hy hx hi, hu', ← hg, ← fileItem_tofile dt.itemsize v [i, x, y, 0]
      (by rw [hv2]; exact ⟨hi, hx, hy, by omega, trivial⟩) (by rw [hg]; exact fileItem_lt _ _ _)]
    congr 1
    rw [hv2]
    simp only [voxelPos, ravelIndex, List.prod_cons, List.prod_nil, Nat.mul_one, Nat.add_zero]
    rw [Nat.mul_add, ← Nat.mul_assoc, Nat.mul_comm Y x, Nat.mul_comm i, Nat.mul_comm Y X]; omega

namespace Spec

/-- The volume consists of the given slices, in order. -/
def IsStack (X Y : Nat) (slices : List (NDArray Nat)) (w : NDArray Nat) : Prop :=
  w.shape = [X, Y, slices.length] ∧ ∀ i v, slices[i]? = some v → ∀ x y, x < X → y < Y → w.get [x, y, i] = v.get [x, y, 0]

end Spec

/-- **C72, partial.** Combined single slices are loaded again as a volume of the same slices exactly if the slices are
square and symmetric. -/
theorem C72_same_iff_partial (files : List (List UInt8)) (bits : String) (dt : DType) (X Y : Nat) (hf : files ≠ [])
    (hb : (bits, dt) ∈ documentedBits) (hX : X < 2 ^ 63) (hY : Y < 2 ^ 63) (hn : files.length < 2 ^ 63)
    (hl : files.length * X * Y * dt.itemsize < 2 ^ 63) (slices : List (NDArray Nat))
    (hs : ∀ b ∈ files, b.length < 2 ^ 63)
    (hsl : files.mapM (fun b => loadBinary b dt [(X : Int), Y, 1]) = .ok slices) :
    ∃ name' bytes' w, combineScript files bits X Y 1 "raw".toList = .ok (name', bytes') ∧
      (∀ fs dir, fs (pathJoin dir name') = some bytes' → loadRaw fs dir name' = .ok (dt, w)) ∧
      (IsStack X Y slices w ↔ X = Y ∧ ∀ v ∈ slices, ∀ x y, x < X → y < X → v.get [x, y, 0] = v.get [y, x, 0]) := by
  obtain ⟨l, hl1, hl2, hl3⟩ : ∃ l, l = slices ∧ l.length = files.length ∧ ∀ (i : Nat) (b : List UInt8), files[i]? = some b →
      ∃ v, l[i]? = some v ∧ loadBinary b dt [(X : Int), Y, 1] = .ok v := by
    exact ⟨slices, rfl, mapM_get _ _ _ hsl⟩
  subst hl1
  have hsz : ∀ b ∈ files, b.length < 2 ^ 63 ∧ b.length / dt.itemsize = X * Y := by
    intro b hb
    obtain ⟨i, hi⟩ := List.mem_iff_getElem?.1 hb
    obtain ⟨v, -, hv⟩ := hl3 i b hi
    have := (C02_size_check b dt X Y 1 hX hY (by omega) (hs b hb)).1.1 ⟨v, hv⟩
    exact ⟨hs b hb, by rw [this, Nat.mul_one]⟩
  obtain ⟨name', bytes', w, h1, h2, h3, h4⟩ := C72_transposed_refuted files bits dt X Y hf hb hX hY hn hl hsz
  have h5 : ∀ i v, l[i]? = some v → ∀ x y, x < X → y < Y → w.get [y, x, i] = v.get [x, y, 0] := by
    intro i v hv
    have hi : i < files.length := by rw [← hl2]; exact (List.getElem?_eq_some_iff.1 hv).1
    obtain ⟨v', e, hv'⟩ := hl3 i _ (List.getElem?_eq_getElem hi)
    rw [hv] at e; cases e
    exact h4 i _ v (List.getElem?_eq_getElem hi) hv'
  refine ⟨name', bytes', w, h1, h2, ?_⟩
  constructor
  · rintro ⟨g1, g2⟩
    rw [h3] at g1
    obtain ⟨rfl, -⟩ : Y = X ∧ True := by simp at g1; exact ⟨g1.1, trivial⟩
    refine ⟨rfl, ?_⟩
    intro v hv x y hx hy
    obtain ⟨i, hi⟩ := List.mem_iff_getElem?.1 hv
    rw [← g2 i v hi x y hx hy, h5 i v hi y x hy hx]
  · rintro ⟨rfl, h⟩
    refine ⟨by rw [h3, hl2], ?_⟩
    intro i v hi x y hx hy
    rw [h5 i v hi y x hy hx]
    exact h v (List.mem_of_getElem? hi) y x hy hx

/-- Slices that are not square do not come back as they were. -/
example : ∃ name' bytes' w, combineScript [[1, 2], [3, 4]] "8bit" 1 2 1 "raw".toList = .ok (name', bytes') ∧
    (∀ fs dir, fs (pathJoin dir name') = some bytes' → loadRaw fs dir name' = .ok (.u8, w)) ∧
    ∃ slices, [[1, 2], [3, 4]].mapM (fun b => loadBinary b .u8 [1, 2, 1]) = .ok slices ∧ ¬ IsStack 1 2 slices w := by
  obtain ⟨slices, hsl⟩ : ∃ slices, [[(1 : UInt8), 2], [3, 4]].mapM (fun b => loadBinary b .u8 [((1 : Nat) : Int), (2 : Nat), 1]) = .ok slices :=
    ⟨_, rfl⟩
  obtain ⟨n, b, w, h1, h2, h3⟩ := C72_same_iff_partial [[1, 2], [3, 4]] "8bit" .u8 1 2 (by decide) (by decide) (by decide) (by decide) (by decide)
    (by decide) slices (by decide) hsl
  exact ⟨n, b, w, h1, h2, slices, hsl, fun h => absurd (h3.1 h).1 (by decide)⟩

/-- **C72, refuted** for images of more than one slice (the size in z asked for by the script): the file that is written
cannot be loaded at all. -/
theorem C72_depth_refuted (files : List (List UInt8)) (bits : String) (dt : DType) (X Y Z : Nat) (hf : files ≠ [])
    (hb : (bits, dt) ∈ documentedBits) (hX : X < 2 ^ 63) (hY : Y < 2 ^ 63) (hZ : Z < 2 ^ 63) (hn : files.length < 2 ^ 63)
    (hX0 : 0 < X) (hY0 : 0 < Y) (hZ1 : Z ≠ 1)
    (hl : files.length * X * Y * Z * dt.itemsize < 2 ^ 63)
    (hs : ∀ b ∈ files, b.length < 2 ^ 63 ∧ b.length / dt.itemsize = X * Y * Z) :
    ∃ name' bytes', combineScript files bits X Y Z "raw".toList = .ok (name', bytes') ∧
      ∀ fs dir, fs (pathJoin dir name') = some bytes' → ∃ m, loadRaw fs dir name' = .error (.valueError m) := by
  obtain ⟨v, hv1, hv2, -⟩ := combineStack_ok files dt X Y Z hf hX hY hZ hs
  have hlen : (tofile dt.itemsize v).length = files.length * X * Y * Z * dt.itemsize := by
    rw [length_tofile, hv2]; simp [Nat.mul_assoc]
  have hpos : 0 < files.length := List.length_pos_iff.2 hf
  obtain ⟨m, hm⟩ := (loadBinary_three (tofile dt.itemsize v) dt Y X files.length hY hX hn (by omega)).2 (by
    rw [hlen, Nat.mul_div_cancel _ dt.itemsize_pos, Nat.mul_comm Y X, Nat.mul_comm (X * Y), ← Nat.mul_assoc]
    intro h
    have h0 : 0 < files.length * X * Y := Nat.mul_pos (Nat.mul_pos hpos hX0) hY0
    exact hZ1 (Nat.eq_of_mul_eq_mul_left h0 (by rw [h, Nat.mul_one])))
  refine ⟨(saveStack v dt bits "raw".toList).1, (saveStack v dt bits "raw".toList).2, ?_, ?_⟩
  · unfold combineScript
    rw [parseBitdepth_documented bits dt hb]
    simp only [hv1]
  · intro fs dir hfile
    have hp := C04_name_round_trip "volume".toList Y X files.length bits dt (by decide) hb
    rw [← saveStack_name v dt bits _ _ _ _ hv2] at hp
    have h2 : (saveStack v dt bits "raw".toList).2 = tofile dt.itemsize v := rfl
    rw [h2] at hfile
    rw [loadRaw_file fs dir _ _ _ dt hp hfile]
    rw [hm]
    exact ⟨m, rfl⟩

/-- Without any file the script fails with an AttributeError. -/
theorem C72_no_files (bits : String) (dt : DType) (X Y Z : Nat) (ext : Txt) (hb : (bits, dt) ∈ documentedBits) :
    combineScript [] bits X Y Z ext = .error (.attributeError "shape") := by
  unfold combineScript
  rw [parseBitdepth_documented bits dt hb]
  rfl

example : ∃ w, combineScript [[1, 2, 3, 4, 5, 6], [7, 8, 9, 10, 11, 12]] "8bit" 2 3 1 "raw".toList =
      .ok ("volume_3x2x2_8bit.raw".toList, [1, 3, 5, 2, 4, 6, 7, 9, 11, 8, 10, 12]) ∧
    loadBinary [1, 3, 5, 2, 4, 6, 7, 9, 11, 8, 10, 12] .u8 [3, 2, 2] = .ok w ∧ w.get [1, 0, 0] = 3 :=
  ⟨_, by decide +kernel, rfl, by decide +kernel⟩

end Viqa
