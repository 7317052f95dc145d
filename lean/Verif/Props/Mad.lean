import Verif.Model.Mad
import Verif.Lemmas.Rounding
import Mathlib.Tactic.Linarith
import Mathlib.Tactic.Ring
import Mathlib.Tactic.FieldSimp
import Mathlib.Tactic.NormNum
import Mathlib.Tactic.Positivity
import Mathlib.Algebra.Order.Floor.Ring
import Mathlib.Analysis.Complex.ExponentialBounds

/-! Properties of MAD: C39, C40, C45 to C48, C50, C84 to C87. -/

namespace Viqa

/-! ### C45: arguments -/

/-- Arguments are accepted exactly if the block fits into the image, has a positive size, and the
overlap lies in [0, 1); everything else raises ValueError. -/
theorem C45_accepted_iff (M N : Nat) (bs : Int) (ov : Rat) :
    ((∃ r, madArgs M N bs ov = .ok r) ↔ (0 < bs ∧ bs ≤ M ∧ bs ≤ N ∧ 0 ≤ ov ∧ ov < 1)) ∧
      ((¬ ∃ r, madArgs M N bs ov = .ok r) → ∃ msg, madArgs M N bs ov = .error (.valueError msg)) := by
  unfold madArgs
  by_cases h1 : (M : Int) < bs ∨ (N : Int) < bs
  · simp only [if_pos h1]
    exact ⟨⟨fun ⟨r, h⟩ => by simp at h, fun h => by omega⟩, fun _ => ⟨_, rfl⟩⟩
  · simp only [if_neg h1]
    by_cases h2 : 0 < bs
    · simp only [if_pos h2]
      by_cases h3 : 1 ≤ ov ∨ ov < 0
      · simp only [if_pos h3]
        refine ⟨⟨fun ⟨r, h⟩ => by simp at h, fun h => ?_⟩, fun _ => ⟨_, rfl⟩⟩
        rcases h3 with h3 | h3 <;> linarith [h.2.2.2.1, h.2.2.2.2]
      · simp only [if_neg h3]
        push Not at h3
        exact ⟨⟨fun _ => ⟨h2, by omega, by omega, h3.2, h3.1⟩, fun _ => ⟨_, rfl⟩⟩, fun h => absurd ⟨_, rfl⟩ h⟩
    · simp only [if_neg h2]
      exact ⟨⟨fun ⟨r, h⟩ => by simp at h, fun h => by omega⟩, fun _ => ⟨_, rfl⟩⟩

example : ∃ r, madArgs 64 48 48 0 = .ok r := (C45_accepted_iff 64 48 48 0).1.2 (by norm_num)

example : ¬ ∃ r, madArgs 64 48 16 (-1 / 4) = .ok r := fun h => by
  have := (C45_accepted_iff 64 48 16 (-1 / 4)).1.1 h
  norm_num at this

/-- A float64 number below one. -/
theorem below_one {ov : Rat} (hr : Representable 53 ov) (h : ov < 1) : ov ≤ 1 - 1 / 2 ^ 53 := by
  obtain ⟨m, k, hm, rfl⟩ := hr
  by_cases hk : 0 ≤ k
  · obtain ⟨n, rfl⟩ := Int.eq_ofNat_of_zero_le hk
    have h1 : m * 2 ^ n < 1 := by
      have : ((m * 2 ^ n : ℤ) : Rat) < 1 := by push_cast; simpa using h
      exact_mod_cast this
    have h2 : ((m * 2 ^ n : ℤ) : Rat) ≤ 0 := by exact_mod_cast (by omega : m * 2 ^ n ≤ 0)
    push_cast at h2
    rw [zpow_natCast]
    have : (0 : Rat) ≤ 1 - 1 / 2 ^ 53 := by norm_num
    linarith
  · obtain ⟨n, hn⟩ := Int.eq_ofNat_of_zero_le (show 0 ≤ -k by omega)
    have hk' : k = -(n : ℤ) := by omega
    subst hk'
    rw [zpow_neg, zpow_natCast, ← div_eq_mul_inv] at h ⊢
    have hp : (0 : Rat) < 2 ^ n := by positivity
    by_cases h53 : n ≤ 53
    · rw [div_lt_one hp] at h
      have h1 : m < 2 ^ n := by exact_mod_cast h
      have h2 : ((m : ℤ) : Rat) ≤ 2 ^ n - 1 := by exact_mod_cast (by omega : m ≤ 2 ^ n - 1)
      have h3 : (1 : Rat) / 2 ^ 53 ≤ 1 / 2 ^ n :=
        one_div_le_one_div_of_le hp (pow_le_pow_right₀ (by norm_num) h53)
      calc (m : Rat) / 2 ^ n ≤ (2 ^ n - 1) / 2 ^ n := div_le_div_of_nonneg_right h2 hp.le
        _ = 1 - 1 / 2 ^ n := by field_simp
        _ ≤ 1 - 1 / 2 ^ 53 := by linarith
    · have h1 : (m : Rat) ≤ 2 ^ 53 := by
        have : ((|m| : ℤ) : Rat) ≤ 2 ^ 53 := by exact_mod_cast hm
        exact le_trans (by exact_mod_cast le_abs_self m) this
      have h2 : (2 : Rat) ^ 54 ≤ 2 ^ n := pow_le_pow_right₀ (by norm_num) (by omega)
      have h3 : (m : Rat) / 2 ^ n ≤ 1 / 2 := by
        rw [div_le_div_iff₀ hp (by norm_num)]
        norm_num at h1 h2 ⊢
        linarith
      have : (1 : Rat) / 2 ≤ 1 - 1 / 2 ^ 53 := by norm_num
      linarith

/-- A fraction of a whole number is below the number after rounding, too. -/
theorem fl_fraction_lt {ov b : Rat} (hr : Representable 53 ov) (h0 : 0 ≤ ov) (h : ov < 1) (hb : 0 < b) :
    fl 53 (ov * b) < b := by
  have h1 := below_one hr h
  have h2 := fl_le_mul 53 (mul_nonneg h0 hb.le)
  have h3 : ov * b * (1 + 1 / 2 ^ 53) ≤ (1 - 1 / 2 ^ 53) * b * (1 + 1 / 2 ^ 53) :=
    mul_le_mul_of_nonneg_right (mul_le_mul_of_nonneg_right h1 hb.le) (by positivity)
  have h4 : (1 - 1 / 2 ^ 53 : Rat) * b * (1 + 1 / 2 ^ 53) = b - b * (1 / 2 ^ 53) ^ 2 := by ring
  have h5 : 0 < b * (1 / 2 ^ 53 : Rat) ^ 2 := by positivity
  linarith

/-- The block size is used as given; the stride lies between one and the block size, and the blocks
overlap by the largest whole number of pixels not exceeding the fraction, up to one part in 2^53. The overlap is a
float64 number and the product of overlap and block size is rounded. -/
theorem C45_stride {M N : Nat} {bs : Int} {ov : Rat} {b s : Nat} (hr : Representable 53 ov) (hbs : bs ≤ 2 ^ 53)
    (h : madArgs M N bs ov = .ok (b, s)) :
    (b : Int) = bs ∧ 1 ≤ s ∧ s ≤ b ∧ ((b - s : Nat) : Rat) ≤ ov * b * (1 + 1 / 2 ^ 53) ∧
      ov * b < ((b - s : Nat) : Rat) + 1 := by
  have hacc := (C45_accepted_iff M N bs ov).1.1 ⟨_, h⟩
  obtain ⟨h0, h1, h2, h3, h4⟩ := hacc
  unfold madArgs at h
  rw [if_neg (by omega), if_pos h0, if_neg (by push Not; exact ⟨h4, h3⟩)] at h
  simp only [Except.ok.injEq, Prod.mk.injEq] at h
  obtain ⟨rfl, rfl⟩ := h
  have hb : ((bs.toNat : Nat) : Int) = bs := Int.toNat_of_nonneg (by omega)
  have hbr : ((bs.toNat : Nat) : Rat) = (bs : Rat) := by exact_mod_cast hb
  have hbs0 : (0 : Rat) < bs := by exact_mod_cast h0
  set x : Rat := ov * (bs : Rat) with hx
  have hx0 : 0 ≤ x := mul_nonneg h3 hbs0.le
  have hlt : fl 53 x < bs := fl_fraction_lt hr h3 h4 hbs0
  have hf0 : 0 ≤ ⌊fl 53 x⌋ := Int.floor_nonneg.2 (fl_nonneg (by norm_num) hx0)
  have hf1 : ⌊fl 53 x⌋ < bs := by rw [Int.floor_lt]; exact hlt
  have hfx : ⌊x⌋ ≤ ⌊fl 53 x⌋ := by
    rw [Int.le_floor]
    have hxb : ⌊x⌋ < bs := by rw [Int.floor_lt, hx]; nlinarith
    have h0x : 0 ≤ ⌊x⌋ := Int.floor_nonneg.2 hx0
    rw [← fl_int (p := 53) (by norm_num) ⌊x⌋ (by rw [abs_of_nonneg h0x]; omega)]
    exact fl_mono (by norm_num) (Int.floor_le x)
  have hs : (((bs - ⌊fl 53 x⌋).toNat : Nat) : Int) = bs - ⌊fl 53 x⌋ :=
    Int.toNat_of_nonneg (by omega)
  have hd : (((bs.toNat - (bs - ⌊fl 53 x⌋).toNat : Nat) : Nat) : Int) = ⌊fl 53 x⌋ := by omega
  have hdr : (((bs.toNat - (bs - ⌊fl 53 x⌋).toNat : Nat) : Nat) : Rat) = (⌊fl 53 x⌋ : Rat) := by
    exact_mod_cast hd
  refine ⟨hb, by omega, by omega, ?_, ?_⟩
  · rw [hdr, hbr, ← hx]
    exact le_trans (Int.floor_le _) (fl_le_mul 53 hx0)
  · rw [hdr, hbr, ← hx]
    have : x < (⌊x⌋ : Rat) + 1 := Int.lt_floor_add_one _
    have h' : ((⌊x⌋ : ℤ) : Rat) ≤ ⌊fl 53 x⌋ := by exact_mod_cast hfx
    linarith

/-- An overlap of 0.7 as a float64 number is below 7/10, yet blocks of 10 pixels overlap by 7. -/
example : madArgs 64 48 10 (6305039478318694 / 2 ^ 53) = .ok (10, 3) ∧ (6305039478318694 / 2 ^ 53 : Rat) * 10 < 7 := by
  constructor <;> decide +kernel

example : madArgs 64 48 16 (3 / 4) = .ok (16, 4) := by decide +kernel

example : madArgs 64 8 16 (3 / 4) =
    .error (.valueError "block_size must be smaller than the image dimensions.") := by decide +kernel

example : madArgs 64 48 16 1 = .error (.valueError "block_overlap must be between 0 and smaller than 1.") := by
  decide +kernel

/-! ### C39: combination -/

theorem madAlpha_range {b1 b2 d : ℝ} (h1 : 0 ≤ b1) (hd : 0 ≤ d) :
    0 ≤ madAlpha b1 b2 d ∧ madAlpha b1 b2 d ≤ 1 := by
  have h := mul_nonneg h1 (Real.rpow_nonneg hd b2)
  unfold madAlpha
  split
  · norm_num
  · exact ⟨by positivity, by rw [div_le_one (by linarith)]; linarith⟩

theorem rpow_split {x t : ℝ} (hx : 0 ≤ x) (h0 : 0 ≤ t) (h1 : t ≤ 1) : x ^ t * x ^ (1 - t) = x := by
  rw [← Real.rpow_add_of_nonneg hx h0 (by linarith)]
  simp

/-- The combined index lies between the two components. -/
theorem C39_between {b1 b2 d a : ℝ} (h1 : 0 ≤ b1) (hd : 0 ≤ d) (ha : 0 ≤ a) :
    min d a ≤ madCombine b1 b2 d a ∧ madCombine b1 b2 d a ≤ max d a := by
  obtain ⟨hp, hq⟩ := madAlpha_range (b2 := b2) h1 hd
  unfold madCombine
  set t := madAlpha b1 b2 d
  have hm : 0 ≤ min d a := le_min hd ha
  have hM : 0 ≤ max d a := le_trans hd (le_max_left _ _)
  constructor
  · rw [← rpow_split hm hp hq]
    exact mul_le_mul (Real.rpow_le_rpow hm (min_le_left _ _) hp)
      (Real.rpow_le_rpow hm (min_le_right _ _) (by linarith)) (Real.rpow_nonneg hm _) (Real.rpow_nonneg hd _)
  · conv_rhs => rw [← rpow_split hM hp hq]
    exact mul_le_mul (Real.rpow_le_rpow hd (le_max_left _ _) hp)
      (Real.rpow_le_rpow ha (le_max_right _ _) (by linarith)) (Real.rpow_nonneg ha _) (Real.rpow_nonneg hM _)

/-- Components that agree are returned; in particular zero if both are zero. -/
theorem C39_agree {b1 b2 d : ℝ} (h1 : 0 ≤ b1) (hd : 0 ≤ d) : madCombine b1 b2 d d = d := by
  have h := C39_between (b2 := b2) h1 hd hd
  rw [min_self, max_self] at h
  exact le_antisymm h.2 h.1

/-- A smaller share of the detection index is used the larger it is (for a positive exponent). -/
theorem C39_alpha_antitone {b1 b2 d d' : ℝ} (h1 : 0 ≤ b1) (h2 : 0 ≤ b2) (hd : 0 ≤ d) (h : d ≤ d') :
    madAlpha b1 b2 d' ≤ madAlpha b1 b2 d := by
  unfold madAlpha
  rw [if_neg (fun h => absurd h.2 (not_lt.2 h2)), if_neg (fun h => absurd h.2 (not_lt.2 h2))]
  have h' := Real.rpow_le_rpow hd h h2
  have hp := mul_nonneg h1 (Real.rpow_nonneg hd b2)
  exact one_div_le_one_div_of_le (by linarith) (by nlinarith)

example : madAlpha 0.467 0.130 5 ≤ madAlpha 0.467 0.130 2 := C39_alpha_antitone (by norm_num) (by norm_num) (by norm_num) (by norm_num)

/-- If nothing is detected the index is zero, whatever the appearance (for a positive exponent). -/
theorem C39_zero {b1 b2 a : ℝ} (h2 : 0 < b2) : madCombine b1 b2 0 a = 0 := by
  unfold madCombine madAlpha
  rw [if_neg (fun h => absurd h.2 (not_lt.2 h2.le)), Real.zero_rpow h2.ne']
  simp

example : madCombine 1 1 4 4 = 4 := C39_agree (by norm_num) (by norm_num)

example : (2 : ℝ) ≤ madCombine 0.467 0.130 2 5 ∧ madCombine 0.467 0.130 2 5 ≤ 5 := by
  have h := C39_between (b1 := 0.467) (b2 := 0.130) (d := 2) (a := 5) (by norm_num) (by norm_num) (by norm_num)
  norm_num at h ⊢
  exact h

/-! ### C47: blocks -/

theorem pyRange_zero_getElem? {stop s k : Nat} (hs : 0 < s) :
    (pyRange 0 stop s)[k]? = if k * s < stop then some (k * s) else none := by
  unfold pyRange
  simp only [Nat.sub_zero, Nat.zero_add, List.getElem?_map]
  by_cases h : k < (stop + (s - 1)) / s
  · rw [List.getElem?_range h]
    have : k * s < stop := by
      have := (Nat.le_div_iff_mul_le hs).1 (show k + 1 ≤ (stop + (s - 1)) / s from h)
      rw [Nat.add_mul] at this
      omega
    simp [this]
  · have hn : ¬ k * s < stop := by
      intro h'
      apply h
      have : k + 1 ≤ (stop + (s - 1)) / s := by
        rw [Nat.le_div_iff_mul_le hs, Nat.add_mul]; omega
      exact this
    rw [List.getElem?_eq_none (by simpa using h)]
    simp [hn]

theorem pyRange_zero_length {stop s : Nat} : (pyRange 0 stop s).length = (stop + (s - 1)) / s := by
  simp [pyRange]

theorem mem_pyRange_zero {stop s i : Nat} (hs : 0 < s) : i ∈ pyRange 0 stop s ↔ s ∣ i ∧ i < stop := by
  rw [List.mem_iff_getElem?]
  constructor
  · rintro ⟨k, hk⟩
    rw [pyRange_zero_getElem? hs] at hk
    split at hk
    · simp only [Option.some.injEq] at hk
      subst hk
      exact ⟨Dvd.intro_left k rfl, by assumption⟩
    · simp at hk
  · rintro ⟨⟨k, rfl⟩, h⟩
    exact ⟨k, by rw [pyRange_zero_getElem? hs, if_pos (by rw [Nat.mul_comm]; exact h), Nat.mul_comm]⟩

/-- Element of the product of two lists in row-major order. -/
theorem flatMap_map_getElem? {α β γ} (f : α → β → γ) (m : List β) :
    ∀ (l : List α) (q r : Nat) (a : α) (b : β), l[q]? = some a → m[r]? = some b →
      (l.flatMap (fun x => m.map (f x)))[q * m.length + r]? = some (f a b)
  | [], _, _, _, _, h, _ => by simp at h
  | x :: l, 0, r, a, b, h, hb => by
    simp only [List.getElem?_cons_zero, Option.some.injEq] at h
    subst h
    have hr : r < (m.map (f x)).length := by
      simp only [List.length_map]
      exact (List.getElem?_eq_some_iff.1 hb).1
    rw [List.flatMap_cons, Nat.zero_mul, Nat.zero_add, List.getElem?_append_left hr, List.getElem?_map, hb]
    rfl
  | x :: l, q + 1, r, a, b, h, hb => by
    rw [List.flatMap_cons, List.getElem?_append_right (by rw [List.length_map, Nat.add_mul]; omega)]
    have he : (q + 1) * m.length + r - (m.map (f x)).length = q * m.length + r := by
      rw [List.length_map, Nat.add_mul]; omega
    rw [he]
    exact flatMap_map_getElem? f m l q r a b (by simpa using h) hb

theorem flatMap_map_length {α β γ} (f : α → β → γ) (l : List α) (m : List β) :
    (l.flatMap (fun x => m.map (f x))).length = l.length * m.length := by
  induction l with
  | nil => simp
  | cons x l ih => rw [List.flatMap_cons, List.length_append, ih, List.length_map, List.length_cons, Nat.add_mul]; omega

/-- The blocks are the square sub-images at multiples of the stride that fit into the image. -/
theorem C47_blocks {α} (img : NDArray α) {M N bs s : Nat} (hsh : img.shape = [M, N]) (hs : 0 < s) (b : NDArray α) :
    b ∈ extractBlocks img bs s ↔
      ∃ i j, s ∣ i ∧ s ∣ j ∧ i + bs ≤ M ∧ j + bs ≤ N ∧ b = blockAt img bs i j := by
  unfold extractBlocks blockStarts
  simp only [hsh, List.mem_flatMap, List.mem_map, mem_pyRange_zero hs, List.getD_cons_zero, List.getD_cons_succ]
  constructor
  · rintro ⟨i, ⟨hi, hi'⟩, j, ⟨hj, hj'⟩, rfl⟩
    exact ⟨i, j, hi, hj, by omega, by omega, rfl⟩
  · rintro ⟨i, j, hi, hj, hi', hj', rfl⟩
    exact ⟨i, ⟨hi, by omega⟩, j, ⟨hj, by omega⟩, rfl⟩

example : blockAt (⟨[4, 5], fun i => i⟩ : NDArray (List Nat)) 2 2 0 ∈ extractBlocks ⟨[4, 5], fun i => i⟩ 2 2 :=
  (C47_blocks _ rfl (by decide) _).2 ⟨2, 0, by decide, by decide, by decide, by decide, rfl⟩

/-- Number of blocks along an axis. -/
theorem blockStarts_length {len bs s : Nat} (hs : 0 < s) (h : bs ≤ len) :
    (blockStarts len bs s).length = (len - bs) / s + 1 := by
  rw [blockStarts, pyRange_zero_length]
  have : len + 1 - bs + (s - 1) = (len - bs) + s := by omega
  rw [this, Nat.add_div_right _ hs]

/-- The blocks come in row-major order: the block number `q * columns + r` starts at row `q * stride`,
column `r * stride`, and its pixel [x, y] is the pixel of the image at that offset. -/
theorem C47_order {α} (img : NDArray α) {M N bs s q r : Nat} (hsh : img.shape = [M, N]) (hs : 0 < s)
    (hq : q * s + bs ≤ M) (hr : r * s + bs ≤ N) :
    ∃ b, (extractBlocks img bs s)[q * ((N - bs) / s + 1) + r]? = some b ∧ b.shape = [bs, bs] ∧
      ∀ x y, b.get [x, y] = img.get [q * s + x, r * s + y] := by
  have hl : (blockStarts N bs s).length = (N - bs) / s + 1 := blockStarts_length hs (by omega)
  refine ⟨blockAt img bs (q * s) (r * s), ?_, rfl, fun x y => rfl⟩
  unfold extractBlocks
  simp only [hsh, List.getD_cons_zero, List.getD_cons_succ]
  rw [← hl]
  apply flatMap_map_getElem? (fun i j => blockAt img bs i j)
  · rw [blockStarts, pyRange_zero_getElem? hs, if_pos (by omega)]
  · rw [blockStarts, pyRange_zero_getElem? hs, if_pos (by omega)]

/-- The fourth of the blocks of a 4 by 5 image begins at (2, 2). -/
example : ∃ b, (extractBlocks (⟨[4, 5], fun i => i⟩ : NDArray (List Nat)) 2 2)[3]? = some b ∧ b.get [1, 0] = [3, 2] := by
  obtain ⟨b, h, -, h'⟩ := C47_order (⟨[4, 5], fun i => i⟩ : NDArray (List Nat)) (bs := 2) (s := 2) (q := 1) (r := 1) rfl
    (by decide) (by decide) (by decide)
  exact ⟨b, h, h' 1 0⟩

/-- Number of blocks. -/
theorem C47_count {α} (img : NDArray α) {M N bs s : Nat} (hsh : img.shape = [M, N]) (hs : 0 < s)
    (hM : bs ≤ M) (hN : bs ≤ N) :
    (extractBlocks img bs s).length = ((M - bs) / s + 1) * ((N - bs) / s + 1) := by
  unfold extractBlocks
  simp only [hsh, List.getD_cons_zero, List.getD_cons_succ]
  rw [flatMap_map_length (fun i j => blockAt img bs i j), blockStarts_length hs hM, blockStarts_length hs hN]

example : (extractBlocks (⟨[4, 5], fun i => i.getD 0 0 * 10 + i.getD 1 0⟩ : NDArray Nat) 2 2).map
    (fun b => b.get [1, 1]) = [11, 13, 31, 33] := by decide

/-! ### C40: assignment of the statistics -/

def Covers (s u w : Nat) (p : Nat × Nat) : Prop := p.1 ≤ u ∧ u < p.1 + s ∧ p.2 ≤ w ∧ w < p.2 + s

theorem assignLoop_error {β} {s : Nat} {vals : List β} :
    ∀ {l : List (Nat × Nat)} {n : Nat} {a : Nat → Nat → β}, l ≠ [] → vals.length < n + l.length →
      assignLoop s vals l n a = .error .indexError
  | [], _, _, h, _ => absurd rfl h
  | (x, y) :: l, n, a, _, h => by
    unfold assignLoop
    cases hv : vals[n]? with
    | none => rfl
    | some v =>
      have hn := (List.getElem?_eq_some_iff.1 hv).1
      simp only [List.length_cons] at h
      refine assignLoop_error ?_ (by omega)
      rintro rfl
      simp only [List.length_nil] at h
      omega

theorem assignLoop_ok {β} {s : Nat} {vals : List β} :
    ∀ {l : List (Nat × Nat)} {n : Nat} {a : Nat → Nat → β}, n + l.length ≤ vals.length →
      ∃ a', assignLoop s vals l n a = .ok a' ∧
        (∀ u w, (∀ p ∈ l, ¬ Covers s u w p) → a' u w = a u w) ∧
        (∀ u w k, (∃ p, l[k]? = some p ∧ Covers s u w p) →
          (∀ k' p, k < k' → l[k']? = some p → ¬ Covers s u w p) → some (a' u w) = vals[n + k]?)
  | [], n, a, _ => ⟨a, rfl, fun _ _ _ => rfl, fun _ _ _ ⟨p, h, _⟩ => by simp at h⟩
  | (x, y) :: l, n, a, h => by
    simp only [List.length_cons] at h
    have hn : n < vals.length := by omega
    obtain ⟨a', h1, h2, h3⟩ := assignLoop_ok (s := s) (l := l) (n := n + 1) (a := writeSlab s a x y vals[n]) (vals := vals) (by omega)
    refine ⟨a', ?_, ?_, ?_⟩
    · rw [assignLoop, List.getElem?_eq_getElem hn]; exact h1
    · intro u w hc
      rw [h2 u w (fun p hp => hc p (List.mem_cons_of_mem _ hp))]
      have := hc (x, y) (List.mem_cons_self ..)
      exact if_neg (fun h => this h)
    · rintro u w (_ | k) ⟨p, hp, hpc⟩ hlast
      · simp only [List.getElem?_cons_zero, Option.some.injEq] at hp
        subst hp
        rw [h2 u w ?_]
        · rw [Nat.add_zero, List.getElem?_eq_getElem hn]
          exact congrArg some (if_pos hpc)
        · intro p hp
          obtain ⟨k', hk'⟩ := List.mem_iff_getElem?.1 hp
          exact hlast (k' + 1) p (by omega) (by simpa using hk')
      · rw [h3 u w k ⟨p, by simpa using hp, hpc⟩
          (fun k' p hk hp => hlast (k' + 1) p (by omega) (by simpa using hp))]
        congr 1
        omega

theorem assignPositions_length (M N s : Nat) :
    (assignPositions M N s).length = (M - 3 * s + (s - 1)) / s * ((N - 3 * s + (s - 1)) / s) := by
  unfold assignPositions
  rw [flatMap_map_length (fun x y => (x, y)), pyRange_zero_length, pyRange_zero_length]

theorem assignPositions_get {M N s q r : Nat} (hs : 0 < s) (hq : q * s < M - 3 * s) (hr : r * s < N - 3 * s) :
    (assignPositions M N s)[q * ((N - 3 * s + (s - 1)) / s) + r]? = some (q * s, r * s) := by
  unfold assignPositions
  have := flatMap_map_getElem? (fun x y : Nat => (x, y)) (pyRange 0 (N - 3 * s) s) (pyRange 0 (M - 3 * s) s) q r (q * s) (r * s)
    (by rw [pyRange_zero_getElem? hs, if_pos hq]) (by rw [pyRange_zero_getElem? hs, if_pos hr])
  rw [pyRange_zero_length] at this
  exact this

theorem covers_unique {s u w q r : Nat} (hs : 0 < s) (h : Covers s u w (q * s, r * s)) : q = u / s ∧ r = w / s := by
  obtain ⟨h1, h2, h3, h4⟩ := h
  simp only at h1 h2 h3 h4
  constructor
  · symm; rw [Nat.div_eq_iff hs]; constructor
    · omega
    · omega
  · symm; rw [Nat.div_eq_iff hs]; constructor
    · omega
    · omega

/-- Every position is `(q * s, r * s)` at the number `q * columns + r`. -/
theorem assignPositions_inv {M N s k : Nat} {p : Nat × Nat} (hs : 0 < s) (h : (assignPositions M N s)[k]? = some p) :
    ∃ q r, p = (q * s, r * s) ∧ k = q * ((N - 3 * s + (s - 1)) / s) + r ∧ r < (N - 3 * s + (s - 1)) / s := by
  have hk := (List.getElem?_eq_some_iff.1 h).1
  rw [assignPositions_length] at hk
  set c := (N - 3 * s + (s - 1)) / s with hc
  set R := (M - 3 * s + (s - 1)) / s with hR
  have hc0 : 0 < c := Nat.pos_of_ne_zero (fun h0 => by rw [h0] at hk; omega)
  have hq : k / c < R := by rw [Nat.div_lt_iff_lt_mul hc0]; exact hk
  have hr : k % c < c := Nat.mod_lt _ hc0
  have hq' : k / c * s < M - 3 * s := by
    have := (Nat.le_div_iff_mul_le hs).1 (show k / c + 1 ≤ R from hq)
    rw [Nat.add_mul] at this; omega
  have hr' : k % c * s < N - 3 * s := by
    have := (Nat.le_div_iff_mul_le hs).1 (show k % c + 1 ≤ c from hr)
    rw [Nat.add_mul] at this; omega
  have := assignPositions_get hs hq' hr'
  rw [← hc, Nat.div_add_mod' k c, h, Option.some.injEq] at this
  exact ⟨k / c, k % c, this, (Nat.div_add_mod' k c).symm, hr⟩

/-- The map of a statistic is computed without error exactly if there are enough blocks; then the
square of `s × s` pixels number (q, r) holds the statistic of the block number
`q * (squares per row) + r`. -/
theorem assignBlocks_spec {β} (zero : β) {M N s : Nat} (hs : 0 < s) (vals : List β) :
    (vals.length < (M - 3 * s + (s - 1)) / s * ((N - 3 * s + (s - 1)) / s) →
      assignBlocks zero M N s vals = .error .indexError) ∧
    ((M - 3 * s + (s - 1)) / s * ((N - 3 * s + (s - 1)) / s) ≤ vals.length →
      ∃ a, assignBlocks zero M N s vals = .ok a ∧
        ∀ u w, u / s * s < M - 3 * s → w / s * s < N - 3 * s →
          some (a u w) = vals[u / s * ((N - 3 * s + (s - 1)) / s) + w / s]?) := by
  constructor
  · intro h
    refine assignLoop_error ?_ (by rw [assignPositions_length]; omega)
    intro h0
    have := assignPositions_length M N s
    rw [h0] at this
    simp only [List.length_nil] at this
    omega
  · intro h
    obtain ⟨a, h1, _, h3⟩ := assignLoop_ok (s := s) (vals := vals) (l := assignPositions M N s) (n := 0)
      (a := fun _ _ => zero) (by rw [assignPositions_length]; omega)
    refine ⟨a, h1, fun u w hu hw => ?_⟩
    have hcov : Covers s u w (u / s * s, w / s * s) := by
      have e1 := Nat.div_add_mod' u s
      have e2 := Nat.div_add_mod' w s
      have e3 := Nat.mod_lt u hs
      have e4 := Nat.mod_lt w hs
      refine ⟨?_, ?_, ?_, ?_⟩ <;> simp only <;> omega
    rw [h3 u w _ ⟨_, assignPositions_get hs hu hw, hcov⟩, Nat.zero_add]
    intro k' p hk hp hc
    obtain ⟨q, r, rfl, rfl, _⟩ := assignPositions_inv hs hp
    obtain ⟨rfl, rfl⟩ := covers_unique hs hc
    omega

/-- What a map of a block statistic should be: it exists, and the `s × s` pixels at the corner of every
block hold the statistic of that block. -/
def Spec.BlockMap {α β} (img : NDArray α) (bs s : Nat) (stat : NDArray α → β) (r : Py (Nat → Nat → β)) : Prop :=
  ∃ a, r = .ok a ∧ ∀ i j, s ∣ i → s ∣ j → i + bs ≤ img.shape.getD 0 0 → j + bs ≤ img.shape.getD 1 0 →
    ∀ u w, i ≤ u → u < i + s → j ≤ w → w < j + s → a u w = stat (blockAt img bs i j)

theorem div_of_bounds {s i u : Nat} (hs : 0 < s) (hi : s ∣ i) (h1 : i ≤ u) (h2 : u < i + s) : u / s * s = i := by
  obtain ⟨k, rfl⟩ := hi
  have : u / s = k := by rw [Nat.div_eq_iff hs]; rw [Nat.mul_comm] at h1 h2; exact ⟨by omega, by omega⟩
  rw [this, Nat.mul_comm]

/-- Blocks of four strides (overlap 0.75, the default): every statistic is assigned to its block if both
sides of the image are multiples of the stride. The full claim is C40 without the assumptions on `bs`,
`M` and `N`. -/
theorem C40_partial {α β} (zero : β) (img : NDArray α) (stat : NDArray α → β) {M N s : Nat} (hs : 0 < s)
    (hsh : img.shape = [M, N]) (hM : 4 * s ≤ M) (hN : 4 * s ≤ N) (dM : s ∣ M) (dN : s ∣ N) :
    Spec.BlockMap img (4 * s) s stat (statMap zero img (4 * s) s stat) := by
  obtain ⟨a, rfl⟩ := dM
  obtain ⟨b, rfl⟩ := dN
  have ha : 4 ≤ a := by
    rw [Nat.mul_comm] at hM; exact Nat.le_of_mul_le_mul_left hM hs
  have hb : 4 ≤ b := by
    rw [Nat.mul_comm] at hN; exact Nat.le_of_mul_le_mul_left hN hs
  have key : ∀ c, 4 ≤ c → (s * c - 3 * s + (s - 1)) / s = c - 3 ∧ (s * c - 4 * s) / s + 1 = c - 3 := by
    intro c hc
    have e : s * c = s * (c - 4) + 4 * s := by
      conv_lhs => rw [show c = c - 4 + 4 by omega]
      rw [Nat.mul_add, Nat.mul_comm s 4]
    constructor
    · rw [e, show s * (c - 4) + 4 * s - 3 * s + (s - 1) = (s - 1) + s * (c - 4 + 1) by
        rw [Nat.mul_add]; omega, Nat.add_mul_div_left _ _ hs, Nat.div_eq_of_lt (by omega)]
      omega
    · rw [e, Nat.add_sub_cancel, Nat.mul_div_cancel_left _ hs]; omega
  have hcount := C47_count (bs := 4 * s) (s := s) img hsh hs hM hN
  rw [(key a ha).2, (key b hb).2] at hcount
  unfold statMap
  simp only [hsh, List.getD_cons_zero, List.getD_cons_succ]
  obtain ⟨m, hm, hmv⟩ := (assignBlocks_spec zero (M := s * a) (N := s * b) hs
    ((extractBlocks img (4 * s) s).map stat)).2 (by
      rw [List.length_map, hcount, (key a ha).1, (key b hb).1])
  refine ⟨m, hm, fun i j di dj hi hj u w hu hu' hw hw' => ?_⟩
  simp only [hsh, List.getD_cons_zero, List.getD_cons_succ] at hi hj
  have e1 := div_of_bounds hs di hu hu'
  have e2 := div_of_bounds hs dj hw hw'
  have hv := hmv u w (by rw [e1]; omega) (by rw [e2]; omega)
  obtain ⟨bl, hbl, -, -⟩ := C47_order (q := u / s) (r := w / s) (bs := 4 * s) img hsh hs (by omega) (by omega)
  rw [(key b hb).1, List.getElem?_map] at hv
  rw [(key b hb).2] at hbl
  have hbl' : (extractBlocks img (4 * s) s)[u / s * (b - 3) + w / s]? = some (blockAt img (4 * s) i j) := by
    have hl : (blockStarts (s * b) (4 * s) s).length = b - 3 := by rw [blockStarts_length hs hN, (key b hb).2]
    unfold extractBlocks
    simp only [hsh, List.getD_cons_zero, List.getD_cons_succ]
    rw [← hl]
    apply flatMap_map_getElem? (fun i j => blockAt img (4 * s) i j)
    · rw [blockStarts, pyRange_zero_getElem? hs, if_pos (by omega), e1]
    · rw [blockStarts, pyRange_zero_getElem? hs, if_pos (by omega), e2]
  rw [hbl'] at hv
  simpa using hv

/-- With the default overlap every image with a side that is not a multiple of the stride raises
IndexError: for the default block size of 16 that is every side not divisible by four. -/
theorem C40_index_error {α β} (zero : β) (img : NDArray α) (stat : NDArray α → β) {M N s : Nat} (hs : 0 < s)
    (hsh : img.shape = [M, N]) (hM : 4 * s ≤ M) (hN : 4 * s ≤ N) (h : ¬ (s ∣ M ∧ s ∣ N)) :
    statMap zero img (4 * s) s stat = .error .indexError := by
  unfold statMap
  simp only [hsh, List.getD_cons_zero, List.getD_cons_succ]
  apply (assignBlocks_spec zero hs _).1
  rw [List.length_map, C47_count img hsh hs hM hN]
  have key : ∀ L, 4 * s ≤ L → (L - 4 * s) / s + 1 ≤ (L - 3 * s + (s - 1)) / s ∧
      (¬ s ∣ L → (L - 4 * s) / s + 1 < (L - 3 * s + (s - 1)) / s) := by
    intro L hL
    have e : L = 4 * s + s * ((L - 4 * s) / s) + (L - 4 * s) % s := by
      have := Nat.div_add_mod (L - 4 * s) s; omega
    set q := (L - 4 * s) / s
    set r := (L - 4 * s) % s with hr
    have hr' : r < s := Nat.mod_lt _ hs
    have e2 : L - 3 * s + (s - 1) = (r + (s - 1)) + s * (q + 1) := by rw [Nat.mul_add]; omega
    rw [e2, Nat.add_mul_div_left _ _ hs]
    refine ⟨Nat.le_add_left _ _, fun hd => ?_⟩
    have hr0 : r ≠ 0 := by
      intro h0
      apply hd
      rw [e, h0, Nat.add_zero]
      exact Nat.dvd_add (Dvd.intro_left 4 rfl) (Dvd.intro _ rfl)
    have : 1 ≤ (r + (s - 1)) / s := by rw [Nat.le_div_iff_mul_le hs]; omega
    omega
  have h1 := key M hM
  have h2 := key N hN
  by_cases hdM : s ∣ M
  · have := h2.2 (fun hdN => h ⟨hdM, hdN⟩)
    calc ((M - 4 * s) / s + 1) * ((N - 4 * s) / s + 1) < ((M - 4 * s) / s + 1) * ((N - 3 * s + (s - 1)) / s) :=
          Nat.mul_lt_mul_of_pos_left this (Nat.succ_pos _)
      _ ≤ _ := Nat.mul_le_mul_right _ h1.1
  · calc ((M - 4 * s) / s + 1) * ((N - 4 * s) / s + 1) < ((M - 3 * s + (s - 1)) / s) * ((N - 4 * s) / s + 1) :=
          Nat.mul_lt_mul_of_pos_right (h1.2 hdM) (Nat.succ_pos _)
      _ ≤ _ := Nat.mul_le_mul_left _ h2.1

example : statMap 0 (⟨[17, 16], fun i => i.getD 0 0⟩ : NDArray Nat) 16 4 (fun b => b.get [0, 0]) = .error .indexError :=
  C40_index_error (s := 4) 0 _ _ (by decide) rfl (by decide) (by decide) (by decide)

/-- With an overlap of one half (blocks of two strides) nothing is raised, but the statistics are
assigned to wrong positions: the square in the second row, first column gets the statistic of a block
of the first row. -/
theorem C40_misplaced {α β} (zero : β) (img : NDArray α) (stat : NDArray α → β) {a b s : Nat} (hs : 0 < s)
    (hsh : img.shape = [s * a, s * b]) (ha : 5 ≤ a) (hb : 4 ≤ b) :
    ∃ m, statMap zero img (2 * s) s stat = .ok m ∧ m s 0 = stat (blockAt img (2 * s) 0 ((b - 3) * s)) := by
  have hM : 2 * s ≤ s * a := by rw [Nat.mul_comm]; exact Nat.mul_le_mul_left _ (by omega)
  have hN : 2 * s ≤ s * b := by rw [Nat.mul_comm]; exact Nat.mul_le_mul_left _ (by omega)
  have key : ∀ c, 4 ≤ c → (s * c - 3 * s + (s - 1)) / s = c - 3 ∧ (s * c - 2 * s) / s + 1 = c - 1 ∧
      s * c - 3 * s = (c - 3) * s ∧ s * c = c * s := by
    intro c hc
    have e : s * c = s * (c - 4) + 4 * s := by
      conv_lhs => rw [show c = c - 4 + 4 by omega]
      rw [Nat.mul_add, Nat.mul_comm s 4]
    refine ⟨?_, ?_, ?_, Nat.mul_comm _ _⟩
    · rw [e, show s * (c - 4) + 4 * s - 3 * s + (s - 1) = (s - 1) + s * (c - 4 + 1) by
        rw [Nat.mul_add]; omega, Nat.add_mul_div_left _ _ hs, Nat.div_eq_of_lt (by omega)]
      omega
    · rw [e, show s * (c - 4) + 4 * s - 2 * s = s * (c - 4 + 2) by rw [Nat.mul_add]; omega,
        Nat.mul_div_cancel_left _ hs]; omega
    · rw [e, show c - 3 = c - 4 + 1 by omega, Nat.add_mul, Nat.mul_comm (c - 4)]; omega
  have hcount := C47_count (bs := 2 * s) (s := s) img hsh hs hM hN
  rw [(key a (by omega)).2.1, (key b hb).2.1] at hcount
  unfold statMap
  simp only [hsh, List.getD_cons_zero, List.getD_cons_succ]
  obtain ⟨m, hm, hmv⟩ := (assignBlocks_spec zero (M := s * a) (N := s * b) hs
    ((extractBlocks img (2 * s) s).map stat)).2 (by
      rw [List.length_map, hcount, (key a (by omega)).1, (key b hb).1]
      exact Nat.mul_le_mul (by omega) (by omega))
  refine ⟨m, hm, ?_⟩
  have hv := hmv s 0 (by
      rw [Nat.div_self hs, (key a (by omega)).2.2.1, Nat.mul_comm, Nat.mul_comm (a - 3)]
      exact Nat.mul_lt_mul_of_pos_left (by omega) hs) (by
      rw [(key b hb).2.2.1, Nat.zero_div, Nat.zero_mul]; exact Nat.mul_pos (by omega) hs)
  have hbl' : (extractBlocks img (2 * s) s)[0 * (b - 1) + (b - 3)]? = some (blockAt img (2 * s) 0 ((b - 3) * s)) := by
    have hl : (blockStarts (s * b) (2 * s) s).length = b - 1 := by rw [blockStarts_length hs hN, (key b hb).2.1]
    unfold extractBlocks
    simp only [hsh, List.getD_cons_zero, List.getD_cons_succ]
    rw [← hl]
    apply flatMap_map_getElem? (fun i j => blockAt img (2 * s) i j)
    · rw [blockStarts, pyRange_zero_getElem? hs, if_pos (by omega), Nat.zero_mul]
    · rw [blockStarts, pyRange_zero_getElem? hs, if_pos]
      rw [← (key b hb).2.2.1]
      have := (key b hb).2.2.1
      omega
  rw [Nat.div_self hs, Nat.zero_div, (key b hb).1, List.getElem?_map, Nat.one_mul, Nat.add_zero] at hv
  rw [Nat.zero_mul, Nat.zero_add] at hbl'
  rw [hbl'] at hv
  simpa using hv

/-- Half overlapping blocks of size 8: the value at (4, 0) is that of the block at (0, 8). -/
example : ∃ m, statMap [] (⟨[20, 20], fun i => i⟩ : NDArray (List Nat)) 8 4 (fun b => b.get [0, 0]) = .ok m ∧ m 4 0 = [0, 8] := by
  obtain ⟨m, h, h'⟩ := C40_misplaced (a := 5) (b := 5) (s := 4) [] (⟨[20, 20], fun i => i⟩ : NDArray (List Nat)) (fun b => b.get [0, 0])
    (by decide) rfl (by decide) (by decide)
  exact ⟨m, h, h'.trans rfl⟩

/-- The claim fails for the default block size and an image of 64 rows and 65 columns. -/
theorem C40_refuted : ¬ ∀ (img : NDArray ℝ) (M N bs s : Nat) (ov : Rat), img.shape = [M, N] →
    madArgs M N bs ov = .ok (bs, s) → Spec.BlockMap img bs s blockMean (statMap 0 img bs s blockMean) := by
  intro h
  obtain ⟨a, ha, _⟩ := h ⟨[64, 65], fun _ => 0⟩ 64 65 16 4 (3 / 4) rfl (by decide +kernel)
  rw [C40_index_error (s := 4) 0 _ blockMean (by omega) rfl (by omega) (by omega) (by decide)] at ha
  simp at ha

example : Spec.BlockMap (⟨[8, 12], fun i => i.getD 0 0⟩ : NDArray Nat) 4 1 (fun b => b.get [0, 0])
    (statMap 0 ⟨[8, 12], fun i => i.getD 0 0⟩ 4 1 (fun b => b.get [0, 0])) :=
  C40_partial (s := 1) 0 _ _ (by omega) rfl (by omega) (by omega) (by omega) (by omega)

/-! ### C48: lightness -/

/-- Integer pixels in the data range get the value of the formula. -/
theorem C48_table {b k g : ℝ} {dr : Nat} {v : Int} (h0 : 0 ≤ v) (h1 : v ≤ dr) :
    lightnessInt b k g dr v = .ok (lightness b k g v) := by
  have hp : pyIndex (dr + 1) v = .ok v.toNat := by
    unfold pyIndex; rw [if_pos ⟨h0, by push_cast; omega⟩]
  unfold lightnessInt
  rw [hp]
  simp only
  unfold lightnessTable
  rw [List.getD_eq_getElem?_getD, List.getElem?_map, List.getElem?_range (by omega)]
  simp only [Option.map_some, Option.getD_some]
  congr 1
  unfold lightness
  have : ((v.toNat : Nat) : ℝ) = (v : ℝ) := by exact_mod_cast Int.toNat_of_nonneg h0
  rw [this]

/-- Larger values raise IndexError. -/
theorem C48_too_large {b k g : ℝ} {dr : Nat} {v : Int} (h : (dr : Int) < v) :
    lightnessInt b k g dr v = .error .indexError := by
  unfold lightnessInt pyIndex
  rw [if_neg (by push_cast; omega), if_neg (by omega)]

example : lightnessInt 0 0.02874 2.2 255 256 = .error .indexError := C48_too_large (by decide)

/-- Negative values of a signed image are not rejected: they get the lightness of a bright pixel. -/
theorem C48_negative {b k g : ℝ} {dr : Nat} {v : Int} (h0 : v < 0) (h1 : -(dr + 1 : Int) ≤ v) :
    lightnessInt b k g dr v = .ok (lightness b k g (v + dr + 1 : Int)) := by
  have hp : pyIndex (dr + 1) v = pyIndex (dr + 1) (v + dr + 1) := by
    unfold pyIndex
    rw [if_neg (by omega), if_pos ⟨h0, by push_cast; omega⟩, if_pos ⟨by omega, by push_cast; omega⟩]
    congr 2
    push_cast; ring
  have := C48_table (b := b) (k := k) (g := g) (dr := dr) (v := v + dr + 1) (by omega) (by omega)
  unfold lightnessInt at this ⊢
  rw [hp]
  exact this

example : lightnessInt 0 1 3 255 255 = .ok 255 := by
  rw [C48_table (by norm_num) (by norm_num)]
  norm_num [lightness]

example : lightnessInt 0 1 3 255 (-1) = .ok 255 := by
  rw [C48_negative (by norm_num) (by norm_num)]
  norm_num [lightness]

/-! ### C50: weights -/

/-- A list of weights is left as it is. The full claim is about every argument. -/
theorem C50_partial (l : List ℝ) : (normalizeWeights (.list l)).2 = .list l := rfl

example : (normalizeWeights (.list [1, 3])).2 = .list [1, 3] := C50_partial _

/-- An array of weights is left as it is exactly if the weights are all zero or sum to one. -/
theorem C50_array (l : List ℝ) (h : l.sum ≠ 0) : (normalizeWeights (.array l)).2 = .array l ↔ l.sum = 1 := by
  simp only [normalizeWeights, WeightArg.array.injEq]
  constructor
  · intro e
    have h2 := congrArg List.sum e
    have h3 : (l.map (· / l.sum)).sum = 1 := by
      have : ∀ (m : List ℝ) (c : ℝ), (m.map (· / c)).sum = m.sum / c := by
        intro m c
        induction m with
        | nil => simp
        | cons x m ih => simp only [List.map_cons, List.sum_cons, ih]; ring
      rw [this, div_self h]
    rw [← h2, h3]
  · intro e
    rw [e]
    simp

example : (normalizeWeights (.array [1 / 4, 3 / 4])).2 = .array [1 / 4, 3 / 4] :=
  (C50_array _ (by norm_num)).2 (by norm_num)

/-- The claim fails for arrays. -/
theorem C50_refuted : ¬ ∀ w : WeightArg, (normalizeWeights w).2 = w := by
  intro h
  have := (C50_array [1, 1] (by norm_num)).1 (h (.array [1, 1]))
  norm_num at this

/-- The weights that are used sum to one. -/
theorem C50_weights_sum (l : List ℝ) (h : l.sum ≠ 0) (w : WeightArg) (hw : w = .list l ∨ w = .array l) :
    (normalizeWeights w).1.sum = 1 := by
  have : ∀ (m : List ℝ) (c : ℝ), (m.map (· / c)).sum = m.sum / c := by
    intro m c
    induction m with
    | nil => simp
    | cons x m ih => simp only [List.map_cons, List.sum_cons, ih]; ring
  rcases hw with rfl | rfl <;> simp only [normalizeWeights] <;> rw [this, div_self h]

example : (normalizeWeights (.array [1, 3])).2 = .array [1 / 4, 3 / 4] := by
  norm_num [normalizeWeights]

/-! ### C46: globals -/

/-- What a computation reads when it is alone: its own parameters. -/
def Spec.SeesOwn {P} (r : MadRun P) (s : Progress P) : Prop := ∀ g ∈ s.seen, g = some r.params

/-- Two computations with different parameters: if the second one starts after the first one stored its
parameters, the first one continues with the parameters of the second. -/
theorem C46_interference {P} (a b : MadRun P) (ha : 1 ≤ a.reads) (g : Option P) :
    (execute a b [true, false, true] g ⟨false, []⟩ ⟨false, []⟩).2.1.seen = [some b.params] := by
  have : 0 < a.reads := ha
  simp [execute, MadRun.step, this]

example : (execute (⟨16, 2⟩ : MadRun Nat) ⟨8, 1⟩ [true, false, true] none ⟨false, []⟩ ⟨false, []⟩).2.1.seen = [some 8] :=
  C46_interference _ _ (by decide) _

theorem C46_refuted : ¬ ∀ (a b : MadRun Nat) (sched : List Bool) (g : Option Nat),
    Spec.SeesOwn a (execute a b sched g ⟨false, []⟩ ⟨false, []⟩).2.1 := by
  intro h
  have h1 := h ⟨16, 1⟩ ⟨8, 1⟩ [true, false, true] none
  have h2 := C46_interference (⟨16, 1⟩ : MadRun Nat) ⟨8, 1⟩ (by decide) none
  rw [Spec.SeesOwn, h2] at h1
  have := h1 (some 8) (by simp)
  simp at this

/-- Computations with the same parameters do not disturb each other, whatever the schedule. -/
theorem C46_same_partial {P} (a b : MadRun P) (hp : a.params = b.params) :
    ∀ (sched : List Bool) (g : Option P) (sa sb : Progress P),
      (sa.stored = true ∨ sb.stored = true → g = some a.params) →
      (sa.stored = false → sa.seen = []) → Spec.SeesOwn a sa →
      Spec.SeesOwn a (execute a b sched g sa sb).2.1
  | [], _, _, _, _, _, h => h
  | true :: l, g, sa, sb, hg, hs, h => by
    rw [execute]
    unfold MadRun.step
    by_cases h1 : sa.stored = false
    · simp only [if_pos h1]
      exact C46_same_partial a b hp l _ _ _ (fun _ => rfl) (fun h => by simp at h) h
    · simp only [if_neg h1]
      have hst : sa.stored = true := by simpa using h1
      by_cases h2 : sa.seen.length < a.reads
      · simp only [if_pos h2]
        refine C46_same_partial a b hp l _ _ _ (fun _ => hg (Or.inl hst)) (fun h => by simp at h) ?_
        intro x hx
        simp only [List.mem_append, List.mem_singleton] at hx
        rcases hx with hx | rfl
        · exact h x hx
        · exact hg (Or.inl hst)
      · simp only [if_neg h2]
        exact C46_same_partial a b hp l _ _ _ hg hs h
  | false :: l, g, sa, sb, hg, hs, h => by
    rw [execute]
    refine C46_same_partial a b hp l _ _ _ ?_ hs h
    intro hst
    unfold MadRun.step
    by_cases h1 : sb.stored = false
    · simp only [if_pos h1]
      rw [hp]
    · simp only [if_neg h1]
      have : sb.stored = true := by simpa using h1
      by_cases h2 : sb.seen.length < b.reads
      · simp only [if_pos h2]; exact hg (Or.inr this)
      · simp only [if_neg h2]; exact hg (Or.inr this)

example : Spec.SeesOwn (⟨16, 2⟩ : MadRun Nat) (execute ⟨16, 2⟩ ⟨16, 1⟩ [true, false, true, false, true] none ⟨false, []⟩ ⟨false, []⟩).2.1 :=
  C46_same_partial (⟨16, 2⟩ : MadRun Nat) ⟨16, 1⟩ rfl _ none ⟨false, []⟩ ⟨false, []⟩ (by simp) (by simp) (by simp [Spec.SeesOwn])

theorem execute_append {P} (a b : MadRun P) : ∀ (l1 l2 : List Bool) (g : Option P) (sa sb : Progress P),
    execute a b (l1 ++ l2) g sa sb =
      execute a b l2 (execute a b l1 g sa sb).1 (execute a b l1 g sa sb).2.1 (execute a b l1 g sa sb).2.2
  | [], _, _, _, _ => rfl
  | true :: l, l2, g, sa, sb => by rw [List.cons_append, execute, execute, execute_append a b l l2]
  | false :: l, l2, g, sa, sb => by rw [List.cons_append, execute, execute, execute_append a b l l2]

theorem execute_true {P} (a b : MadRun P) : ∀ (n : Nat) (g : Option P) (sa sb : Progress P),
    (sa.stored = true → g = some a.params) → (sa.stored = false → sa.seen = []) → Spec.SeesOwn a sa →
    Spec.SeesOwn a (execute a b (List.replicate n true) g sa sb).2.1 ∧
      (execute a b (List.replicate n true) g sa sb).2.2 = sb
  | 0, _, _, _, _, _, h => ⟨h, rfl⟩
  | n + 1, g, sa, sb, hg, hs, h => by
    rw [List.replicate_succ, execute]
    unfold MadRun.step
    by_cases h1 : sa.stored = false
    · simp only [if_pos h1]
      exact execute_true a b n _ _ _ (fun _ => rfl) (fun h => by simp at h) h
    · simp only [if_neg h1]
      have hst : sa.stored = true := by simpa using h1
      by_cases h2 : sa.seen.length < a.reads
      · simp only [if_pos h2]
        refine execute_true a b n _ _ _ (fun _ => hg hst) (fun h => by simp at h) ?_
        intro x hx
        simp only [List.mem_append, List.mem_singleton] at hx
        rcases hx with hx | rfl
        · exact h x hx
        · exact hg hst
      · simp only [if_neg h2]
        exact execute_true a b n _ _ _ hg hs h

theorem execute_false {P} (a b : MadRun P) : ∀ (n : Nat) (g : Option P) (sa sb : Progress P),
    (sb.stored = true → g = some b.params) → (sb.stored = false → sb.seen = []) → Spec.SeesOwn b sb →
    Spec.SeesOwn b (execute a b (List.replicate n false) g sa sb).2.2 ∧
      (execute a b (List.replicate n false) g sa sb).2.1 = sa
  | 0, _, _, _, _, _, h => ⟨h, rfl⟩
  | n + 1, g, sa, sb, hg, hs, h => by
    rw [List.replicate_succ, execute]
    unfold MadRun.step
    by_cases h1 : sb.stored = false
    · simp only [if_pos h1]
      exact execute_false a b n _ _ _ (fun _ => rfl) (fun h => by simp at h) h
    · simp only [if_neg h1]
      have hst : sb.stored = true := by simpa using h1
      by_cases h2 : sb.seen.length < b.reads
      · simp only [if_pos h2]
        refine execute_false a b n _ _ _ (fun _ => hg hst) (fun h => by simp at h) ?_
        intro x hx
        simp only [List.mem_append, List.mem_singleton] at hx
        rcases hx with hx | rfl
        · exact h x hx
        · exact hg hst
      · simp only [if_neg h2]
        exact execute_false a b n _ _ _ hg hs h

/-- Computations run one after the other read their own parameters, whatever the globals were before. -/
theorem C46_sequential_partial {P} (a b : MadRun P) (n m : Nat) (g : Option P) :
    Spec.SeesOwn a (execute a b (List.replicate n true ++ List.replicate m false) g ⟨false, []⟩ ⟨false, []⟩).2.1 ∧
      Spec.SeesOwn b (execute a b (List.replicate n true ++ List.replicate m false) g ⟨false, []⟩ ⟨false, []⟩).2.2 := by
  have h1 := execute_true a b n g ⟨false, []⟩ ⟨false, []⟩ (fun h => by simp at h) (fun _ => rfl) (fun x hx => by simp at hx)
  rw [execute_append]
  have h2 := execute_false a b m (execute a b (List.replicate n true) g ⟨false, []⟩ ⟨false, []⟩).1
    (execute a b (List.replicate n true) g ⟨false, []⟩ ⟨false, []⟩).2.1
    (execute a b (List.replicate n true) g ⟨false, []⟩ ⟨false, []⟩).2.2
    (by rw [h1.2]; intro h; simp at h) (by rw [h1.2]; intro _; rfl) (by rw [h1.2]; intro x hx; simp at hx)
  exact ⟨by rw [h2.2]; exact h1.1, h2.1⟩

example : (execute (⟨16, 2⟩ : MadRun Nat) ⟨8, 1⟩ [true, true, true, false, false] none ⟨false, []⟩ ⟨false, []⟩).2.1.seen =
    [some 16, some 16] := by decide

/-! ### C84: identical images -/

theorem innerRange_nil_iff {L bs : Nat} : innerRange L bs = [] ↔ L ≤ 2 * bs := by
  unfold innerRange
  simp only [List.map_eq_nil_iff, List.range_eq_nil]
  omega

/-- The root mean square exists exactly if pixels are left after the border of one block is removed. -/
theorem innerRms_defined {M N bs : Nat} (a : Nat → Nat → ℝ) :
    (2 * bs < M ∧ 2 * bs < N → ∃ r, innerRms M N bs a = .ok r) ∧
      (M ≤ 2 * bs ∨ N ≤ 2 * bs → innerRms M N bs a = .error .notANumber) := by
  unfold innerRms
  simp only
  constructor
  · rintro ⟨h1, h2⟩
    rw [if_neg]
    · exact ⟨_, rfl⟩
    · intro h
      rw [List.flatMap_eq_nil_iff] at h
      have hM : bs ∈ innerRange M bs := by
        unfold innerRange; exact List.mem_map.2 ⟨0, List.mem_range.2 (by omega), by omega⟩
      have := h bs hM
      rw [List.map_eq_nil_iff, innerRange_nil_iff] at this
      omega
  · intro h
    rw [if_pos]
    rw [List.flatMap_eq_nil_iff]
    intro u hu
    rcases h with h | h
    · rw [innerRange_nil_iff.2 h] at hu
      simp at hu
    · rw [innerRange_nil_iff.2 h]; rfl

theorem innerRms_zero {M N bs : Nat} {a : Nat → Nat → ℝ} (h : ∀ u v, a u v = 0) (hM : 2 * bs < M) (hN : 2 * bs < N) :
    innerRms M N bs a = .ok 0 := by
  obtain ⟨r, hr⟩ := (innerRms_defined a).1 ⟨hM, hN⟩
  rw [hr]
  unfold innerRms at hr
  simp only at hr
  split at hr
  · simp at hr
  · simp only [Except.ok.injEq] at hr
    rw [← hr]
    have : ((innerRange M bs).flatMap (fun u => (innerRange N bs).map (fun v => a u v ^ 2))).sum = 0 := by
      apply List.sum_eq_zero
      intro x hx
      simp only [List.mem_flatMap, List.mem_map] at hx
      obtain ⟨u, _, v, _, rfl⟩ := hx
      rw [h]; norm_num
    rw [this]
    simp

/-- For identical images the local squared error vanishes, and with the same filter bands both
components and the index are zero, provided that both sides are larger than two blocks.
The full claim is the same for every accepted image. -/
theorem C84_identical_partial {M N bs : Nat} (hM : 2 * bs < M) (hN : 2 * bs < N) (x : NDArray ℝ)
    (window : Nat → Nat → List (Nat × Nat)) (msk : Nat → Nat → ℝ)
    (bands : List (ℝ × (Nat → Nat → ℝ × ℝ × ℝ))) (b1 b2 : ℝ) (h1 : 0 ≤ b1) :
    ∃ d a, detectIndex M N bs msk (localMse bs window x x) = .ok d ∧
      appearIndex M N bs (bands.map (fun b => (b.1, b.2, b.2))) = .ok a ∧ madCombine b1 b2 d a = 0 := by
  have e1 : detectIndex M N bs msk (localMse bs window x x) = .ok 0 := by
    unfold detectIndex
    rw [innerRms_zero (fun u v => ?_) hM hN]
    · norm_num
    · have : localMse bs window x x u v = 0 := by
        unfold localMse
        apply List.sum_eq_zero
        intro y hy
        obtain ⟨q, _, rfl⟩ := List.mem_map.1 hy
        simp
      rw [this, mul_zero]
  have e2 : appearIndex M N bs (bands.map (fun b => (b.1, b.2, b.2))) = .ok 0 := by
    unfold appearIndex
    rw [innerRms_zero (fun u v => ?_) hM hN]
    apply List.sum_eq_zero
    intro y hy
    simp only [List.map_map, List.mem_map, Function.comp_apply] at hy
    obtain ⟨b, _, rfl⟩ := hy
    simp
  exact ⟨0, 0, e1, e2, C39_agree h1 le_rfl⟩

example : ∃ d a, detectIndex 5 5 2 (fun _ _ => 1) (localMse 2 (fun i j => [(i, j)]) ⟨[5, 5], fun i => i.sum⟩ ⟨[5, 5], fun i => i.sum⟩) = .ok d ∧
    appearIndex 5 5 2 [(1, (fun i j => ((i : ℝ), (j : ℝ), 2)), fun i j => ((i : ℝ), (j : ℝ), 2))] = .ok a ∧ madCombine 0.467 0.130 d a = 0 :=
  C84_identical_partial (by decide) (by decide) _ _ _ [(1, fun i j => ((i : ℝ), (j : ℝ), 2))] _ _ (by norm_num)

/-- For every image with a side of at most two blocks that is accepted, the index is not a number. -/
theorem C84_small_image {M N bs : Nat} (h : M ≤ 2 * bs ∨ N ≤ 2 * bs) (msk lum : Nat → Nat → ℝ) :
    detectIndex M N bs msk lum = .error .notANumber := by
  unfold detectIndex
  rw [(innerRms_defined _).2 h]

example : detectIndex 32 64 16 (fun _ _ => 1) (fun _ _ => 1) = .error .notANumber := C84_small_image (.inl (by decide)) _ _

theorem C84_refuted : ¬ ∀ (M N bs s : Nat) (ov : Rat), madArgs M N bs ov = .ok (bs, s) →
    ∀ msk lum, ∃ d, detectIndex M N bs msk lum = .ok d := by
  intro h
  obtain ⟨d, hd⟩ := h 32 100 16 4 (3 / 4) (by decide +kernel) (fun _ _ => 0) (fun _ _ => 0)
  rw [C84_small_image (Or.inl (by decide))] at hd
  simp at hd

example : detectIndex 3 3 1 (fun _ _ => 2) (fun _ _ => 3) = .ok 1200 := by
  have : Real.sqrt 36 = 6 := by
    rw [show (36 : ℝ) = 6 ^ 2 by norm_num]; exact Real.sqrt_sq (by norm_num)
  norm_num [detectIndex, innerRms, innerRange, List.range_succ, this]

/-! ### C85: thresholds -/

/-- Thresholds are documented to give the warning about ignored parameters only together with
`beta_1` or `beta_2`; without any threshold the parameters are used as given and nothing is warned. -/
theorem C85_partial (b1 b2 : ℝ) : madBetas b1 b2 none none = ([], b1, b2) := by
  simp [madBetas]

example : madBetas 0.467 0.130 none none = ([], 0.467, 0.130) := C85_partial _ _

/-- Exactly one threshold: a warning, and the parameters are used as given. -/
theorem C85_one_threshold (b1 b2 t : ℝ) (ht : t ≠ 0) :
    (∃ w, madBetas b1 b2 (some t) none = ([w], b1, b2)) ∧ ∃ w, madBetas b1 b2 none (some t) = ([w], b1, b2) := by
  constructor <;>
    exact ⟨"thresh_1 and thresh_2 must be given together. Using default values for beta_1 and beta_2.",
      by simp [madBetas, ht]⟩

/-- Two thresholds: the parameters are computed from them, whatever parameters were given, and there is
always a warning that parameters are ignored. -/
theorem C85_two_thresholds (b1 b2 t1 t2 : ℝ) (h1 : t1 ≠ 0) (h2 : t2 ≠ 0) :
    madBetas b1 b2 (some t1) (some t2) = (["thresh_1 and thresh_2 are given. Ignoring beta_1 and beta_2."],
      Real.exp (-t1 / t2), 1 / (Real.log 10 * t2)) := by
  simp [madBetas, h1, h2]

example : (madBetas 0.467 0.130 (some 2.55) (some 3.35)).2 = (Real.exp (-2.55 / 3.35), 1 / (Real.log 10 * 3.35)) := by
  rw [C85_two_thresholds _ _ _ _ (by norm_num) (by norm_num)]

/-- So a caller who gives thresholds and leaves the parameters at their defaults is warned. -/
theorem C85_refuted : ¬ ∀ t1 t2 : ℝ, (madBetas 0.467 0.130 (some t1) (some t2)).1 = [] := by
  intro h
  have := h 1 1
  rw [C85_two_thresholds _ _ _ _ one_ne_zero one_ne_zero] at this
  simp at this

/-- A threshold of zero is taken for a missing one. -/
theorem C85_zero_threshold (b1 b2 t : ℝ) (ht : t ≠ 0) :
    (madBetas b1 b2 (some 0) (some t)).2 = (b1, b2) ∧ (madBetas b1 b2 (some 0) (some t)).1 ≠ [] := by
  simp [madBetas, ht]

example : (madBetas 0.467 0.130 (some 0) (some 3.35)).2 = (0.467, 0.130) := (C85_zero_threshold _ _ _ (by norm_num)).1

/-- The documented thresholds 2.55 and 3.35 give the default parameters, to the documented digits. -/
theorem C85_documented (b1 b2 : ℝ) :
    |(madBetas b1 b2 (some 2.55) (some 3.35)).2.1 - 0.467| < 0.0005 ∧
      |(madBetas b1 b2 (some 2.55) (some 3.35)).2.2 - 0.130| < 0.0005 := by
  rw [C85_two_thresholds _ _ _ _ (by norm_num) (by norm_num)]
  simp only
  constructor
  · have hx : (-2.55 / 3.35 : ℝ) = -(51 / 67) := by norm_num
    have hl := Real.sum_le_exp_of_nonneg (x := 51 / 67) (by norm_num) 7
    have hu := Real.exp_bound' (x := 51 / 67) (by norm_num) (by norm_num) (n := 7) (by norm_num)
    norm_num [Finset.sum_range_succ, Nat.factorial] at hl hu
    rw [hx, Real.exp_neg, abs_lt]
    have hp := Real.exp_pos (51 / 67)
    constructor
    · have : (0.4665 : ℝ) < (Real.exp (51 / 67))⁻¹ := by
        rw [lt_inv_comm₀ (by norm_num) hp]
        refine lt_of_le_of_lt hu ?_
        norm_num
      linarith
    · have : (Real.exp (51 / 67))⁻¹ < (0.4675 : ℝ) := by
        rw [inv_lt_comm₀ hp (by norm_num)]
        refine lt_of_lt_of_le ?_ hl
        norm_num
      linarith
  · have h1 := Real.log_two_gt_d9
    have h2 := Real.log_two_lt_d9
    have h3 := Real.log_five_gt_d9
    have h4 := Real.log_five_lt_d9
    rw [Real.log_ten_eq, abs_lt]
    have hp : 0 < (Real.log 2 + Real.log 5) * 3.35 := by nlinarith
    constructor
    · have : (0.1295 : ℝ) < 1 / ((Real.log 2 + Real.log 5) * 3.35) := by
        rw [lt_div_iff₀ hp]; nlinarith
      linarith
    · have : 1 / ((Real.log 2 + Real.log 5) * 3.35) < (0.1305 : ℝ) := by
        rw [div_lt_iff₀ hp]; nlinarith
      linarith

example : (madBetas 1 2 none (some 3)).2 = (1, 2) := by
  obtain ⟨w, h⟩ := (C85_one_threshold 1 2 3 (by norm_num)).2
  rw [h]

/-! ### C87: the mask -/

theorem nfLog_fin {x : NF} {v : ℝ} (h : nfLog x = .fin v) : ∃ y, x = .fin y ∧ 0 < y ∧ v = Real.log y := by
  cases x with
  | fin y =>
    simp only [nfLog] at h
    by_cases h0 : y = 0
    · simp [h0] at h
    · by_cases h1 : y < 0
      · simp [h0, h1] at h
      · simp only [if_neg h0, if_neg h1, NF.fin.injEq] at h
        exact ⟨y, rfl, lt_of_le_of_ne (not_lt.1 h1) (Ne.symm h0), h.symm⟩
  | nan => simp [nfLog] at h
  | pinf => simp [nfLog] at h
  | ninf => simp [nfLog] at h

/-- The logarithm of the contrast of the error is never positive infinite for a finite deviation. -/
theorem logErr_ne_pinf {mu : ℝ} {se : NF} (h : se ≠ .pinf) (h' : se ≠ .ninf) : logErr mu se ≠ .pinf := by
  unfold logErr
  by_cases hm : 1 / 2 < mu
  · have hm0 : mu ≠ 0 := by intro h0; rw [h0] at hm; norm_num at hm
    rw [if_pos hm]
    cases se with
    | fin v =>
      simp only [nfDiv, npDiv, if_neg hm0, nfLog]
      split
      · simp
      · split <;> simp
    | nan => simp [nfDiv, nfLog]
    | pinf => exact absurd rfl h
    | ninf => exact absurd rfl h'
  · rw [if_neg hm]
    simp [nfLog]

/-- The mask is a finite, non-negative number at every pixel, for all statistics of the blocks
(including the ones that are not numbers) and every positive scale. -/
theorem C87_mask (so : NF) (mu : ℝ) (se : NF) (ms : ℝ) (h : se ≠ .pinf) (h' : se ≠ .ninf) (hms : 0 < ms) :
    ∃ v, maskAt so mu se ms = some v ∧ 0 ≤ v := by
  have hE := logErr_ne_pinf (mu := mu) h h'
  unfold maskAt maskOf
  generalize nfLog (nfDiv so mu) = o
  generalize logErr mu se = e at hE ⊢
  split
  · rename_i hc
    cases e with
    | fin v =>
      have : (-5 : ℝ) < v := hc.1
      exact ⟨(v - -5) / ms, rfl, div_nonneg (by linarith) hms.le⟩
    | nan => exact absurd hc.1 id
    | pinf => exact absurd rfl hE
    | ninf => exact absurd hc.1 id
  · split
    · rename_i hc
      cases e with
      | fin v =>
        cases o with
        | fin w =>
          have : w < v := hc.1
          exact ⟨(v - w) / ms, rfl, div_nonneg (by linarith) hms.le⟩
        | nan => exact absurd hc.1 id
        | pinf => exact absurd hc.1 id
        | ninf => exact absurd hc.2 id
      | nan => exact absurd hc.1 id
      | pinf => exact absurd rfl hE
      | ninf => exact absurd hc.1 id
    · exact ⟨0 / ms, rfl, by simp⟩

example : ∃ v, maskAt .nan 2 (.fin 3) 4 = some v ∧ 0 ≤ v := C87_mask _ _ _ _ (by simp) (by simp) (by norm_num)

theorem maskOf_zero {o e : NF} {ms : ℝ} (h : e = .nan ∨ e = .ninf) : maskOf o e ms = some 0 := by
  have : ∀ x, ¬ nfGt e x := by rcases h with rfl | rfl <;> exact fun x hx => hx
  unfold maskOf
  rw [if_neg (fun h => this _ h.1), if_neg (fun h => this _ h.1)]
  simp

/-- Where the error image does not vary, nothing is visible. -/
theorem C87_no_error (so : NF) (mu ms : ℝ) : maskAt so mu (.fin 0) ms = some 0 := by
  apply maskOf_zero
  right
  unfold logErr
  by_cases hm : 1 / 2 < mu
  · have hm0 : mu ≠ 0 := by intro h0; rw [h0] at hm; norm_num at hm
    rw [if_pos hm]
    simp [nfDiv, npDiv, hm0, nfLog]
  · rw [if_neg hm]; simp [nfLog]

example : maskAt (.fin 3) 2 (.fin 0) 4 = some 0 := C87_no_error _ _ _

/-- A larger deviation of the error does not lower the mask. -/
theorem C87_monotone (so : NF) (mu s1 s2 ms : ℝ) (h0 : 0 ≤ s1) (h : s1 ≤ s2) (hms : 0 < ms) :
    ∃ v1 v2, maskAt so mu (.fin s1) ms = some v1 ∧ maskAt so mu (.fin s2) ms = some v2 ∧ v1 ≤ v2 := by
  rcases h0.eq_or_lt with rfl | hs1
  · obtain ⟨v, hv, hv0⟩ := C87_mask so mu (.fin s2) ms (by simp) (by simp) hms
    exact ⟨0, v, C87_no_error so mu ms, hv, hv0⟩
  by_cases hm : 1 / 2 < mu
  · have hmp : 0 < mu := by linarith
    have e : ∀ x, 0 < x → logErr mu (.fin x) = .fin (Real.log (x / mu)) := by
      intro x hx
      have hp : 0 < x / mu := div_pos hx hmp
      unfold logErr
      rw [if_pos hm]
      simp only [nfDiv, npDiv, if_neg hmp.ne', nfLog, if_neg hp.ne', if_neg (not_lt.2 hp.le)]
    have hle : Real.log (s1 / mu) ≤ Real.log (s2 / mu) :=
      Real.log_le_log (div_pos hs1 hmp) (div_le_div_of_nonneg_right h hmp.le)
    obtain ⟨v1, hv1, h1⟩ := C87_mask so mu (.fin s1) ms (by simp) (by simp) hms
    obtain ⟨v2, hv2, h2⟩ := C87_mask so mu (.fin s2) ms (by simp) (by simp) hms
    refine ⟨v1, v2, hv1, hv2, ?_⟩
    unfold maskAt at hv1 hv2
    rw [e s1 hs1] at hv1
    rw [e s2 (lt_of_lt_of_le hs1 h)] at hv2
    generalize nfLog (nfDiv so mu) = o at hv1 hv2
    generalize Real.log (s1 / mu) = a at hv1 hle
    generalize Real.log (s2 / mu) = b at hv2 hle
    unfold maskOf at hv1 hv2
    by_cases c1 : nfGt (.fin a) (.fin (-5)) ∧ (nfGt (.fin (-5)) o ∨ o = .fin (-5))
    · have c1' : nfGt (.fin b) (.fin (-5)) ∧ (nfGt (.fin (-5)) o ∨ o = .fin (-5)) := ⟨lt_of_lt_of_le c1.1 hle, c1.2⟩
      rw [if_pos c1] at hv1
      rw [if_pos c1'] at hv2
      simp only [nfSub, Option.map_some, Option.some.injEq] at hv1 hv2
      rw [← hv1, ← hv2]
      exact div_le_div_of_nonneg_right (by linarith) hms.le
    · rw [if_neg c1] at hv1
      by_cases c2 : nfGt (.fin a) o ∧ nfGt o (.fin (-5))
      · have c2' : nfGt (.fin b) o ∧ nfGt o (.fin (-5)) := by
          refine ⟨?_, c2.2⟩
          cases o with
          | fin w => exact lt_of_lt_of_le c2.1 hle
          | nan => exact c2.1
          | pinf => exact c2.1
          | ninf => trivial
        have n1 : ¬ (nfGt (.fin b) (.fin (-5)) ∧ (nfGt (.fin (-5)) o ∨ o = .fin (-5))) := by
          rintro ⟨_, h3⟩
          cases o with
          | fin w =>
            have h4 : (-5 : ℝ) < w := c2.2
            rcases h3 with h3 | h3
            · exact lt_asymm h3 h4
            · simp only [NF.fin.injEq] at h3; linarith
          | nan => exact c2.1
          | pinf => exact c2.1
          | ninf => exact c2.2
        rw [if_pos c2] at hv1
        rw [if_neg n1, if_pos c2'] at hv2
        cases o with
        | fin w =>
          simp only [nfSub, Option.map_some, Option.some.injEq] at hv1 hv2
          rw [← hv1, ← hv2]
          exact div_le_div_of_nonneg_right (by linarith) hms.le
        | nan => exact absurd c2.1 id
        | pinf => exact absurd c2.1 id
        | ninf => exact absurd c2.2 id
      · rw [if_neg c2] at hv1
        simp only [Option.map_some, Option.some.injEq, zero_div] at hv1
        rw [← hv1]
        exact h2
  · have e : ∀ x, maskAt so mu (.fin x) ms = maskAt so mu (.fin 0) ms := by
      intro x
      unfold maskAt logErr
      rw [if_neg hm, if_neg hm]
    exact ⟨0, 0, by rw [e, C87_no_error], by rw [e, C87_no_error], le_rfl⟩

example : maskAt (.fin 0) 1 (.fin 1) 1 = some 5 := by
  have h1 : nfLog (nfDiv (.fin 0) 1) = .ninf := by simp [nfDiv, npDiv, nfLog]
  have h2 : logErr 1 (.fin 1) = .fin 0 := by
    unfold logErr
    rw [if_pos (by norm_num)]; simp [nfDiv, npDiv, nfLog]
  unfold maskAt maskOf
  rw [h1, h2, if_pos ⟨by norm_num [nfGt], Or.inl trivial⟩]
  norm_num [nfSub]

/-! ### C86: block size one -/

theorem assignLoop_mem {β} {s : Nat} {vals : List β} :
    ∀ {l : List (Nat × Nat)} {n : Nat} {a a' : Nat → Nat → β}, assignLoop s vals l n a = .ok a' →
      ∀ u w, a' u w = a u w ∨ a' u w ∈ vals
  | [], n, a, a', h, u, w => by
    simp only [assignLoop, Except.ok.injEq] at h
    exact Or.inl (by rw [h])
  | (x, y) :: l, n, a, a', h, u, w => by
    rw [assignLoop] at h
    cases hv : vals[n]? with
    | none => rw [hv] at h; simp at h
    | some v =>
      rw [hv] at h
      rcases assignLoop_mem h u w with h1 | h1
      · rw [h1]
        unfold writeSlab
        split
        · exact Or.inr (List.mem_of_getElem? hv)
        · exact Or.inl rfl
      · exact Or.inr h1

/-- Block size one, documented as "no blocks": the deviation of a single pixel is not a number, the mask
is zero everywhere, nothing is ever detected, and MAD is zero for every pair of images whatever the
appearance index is. -/
theorem C86_block_size_one {M N : Nat} (hM : 2 < M) (hN : 2 < N) (iOrg iErr : NDArray ℝ)
    (h1 : iOrg.shape = [M, N]) (h2 : iErr.shape = [M, N]) (so : Nat → Nat → NF) (lum : Nat → Nat → ℝ) (ms : ℝ) :
    highQuality iOrg iErr so lum 1 1 ms = .ok 0 ∧
      ∀ b1 b2 a, 0 < b2 → madCombineNF b1 b2 0 a = .fin 0 := by
  constructor
  · have hle : (M - 3 * 1 + (1 - 1)) / 1 * ((N - 3 * 1 + (1 - 1)) / 1) ≤ M * N := by
      simp only [Nat.div_one]; exact Nat.mul_le_mul (by omega) (by omega)
    have hc : ∀ img : NDArray ℝ, img.shape = [M, N] → (extractBlocks img 1 1).length = M * N := by
      intro img h
      rw [C47_count img h Nat.one_pos (by omega) (by omega), Nat.div_one, Nat.div_one]
      congr 1 <;> omega
    obtain ⟨mu, hmu, -⟩ := (assignBlocks_spec (0 : ℝ) (M := M) (N := N) Nat.one_pos
      ((extractBlocks iOrg 1 1).map blockMean)).2 (by rw [List.length_map, hc _ h1]; exact hle)
    obtain ⟨se, hse, -⟩ := (assignBlocks_spec (NF.fin 0) (M := M) (N := N) Nat.one_pos
      ((extractBlocks iErr 1 1).map blockStd)).2 (by rw [List.length_map, hc _ h2]; exact hle)
    have hvals : ∀ u w, se u w = .fin 0 ∨ se u w = .nan := by
      intro u w
      rcases assignLoop_mem hse u w with h | h
      · exact Or.inl h
      · right
        obtain ⟨b, hb, hb'⟩ := List.mem_map.1 h
        obtain ⟨i, j, -, -, -, -, rfl⟩ := (C47_blocks iErr h2 Nat.one_pos b).1 hb
        rw [← hb', blockStd, if_pos]
        simp [NDArray.toList, blockAt, indices]
    have hmask : ∀ u w, (maskAt (so u w) (mu u w) (se u w) ms).getD 0 = 0 := by
      intro u w
      rcases hvals u w with h | h
      · rw [h, C87_no_error]; rfl
      · rw [h, maskAt, maskOf_zero]
        · rfl
        · unfold logErr
          by_cases hm : 1 / 2 < mu u w
          · rw [if_pos hm]; exact Or.inl rfl
          · rw [if_neg hm]; exact Or.inr (by simp [nfLog])
    unfold highQuality statMap
    simp only [h1, h2, List.getD_cons_zero, List.getD_cons_succ, hmu, hse]
    unfold detectIndex
    rw [innerRms_zero (fun u v => by simp only [hmask, zero_mul]) (by omega) (by omega)]
    norm_num
  · intro b1 b2 a hb
    have ha : madAlpha b1 b2 0 = 1 := by
      unfold madAlpha; rw [if_neg (fun h => absurd h.2 (not_lt.2 hb.le)), Real.zero_rpow hb.ne']; simp
    cases a with
    | fin v => simp only [madCombineNF, C39_zero hb]
    | nan => simp [madCombineNF, ha]
    | pinf => simp [madCombineNF, ha]
    | ninf => simp [madCombineNF, ha]

/-- So with block size one no difference between two images is ever detected. -/
theorem C86_refuted : ¬ ∃ (iOrg iErr : NDArray ℝ) (so : Nat → Nat → NF) (lum : Nat → Nat → ℝ) (M N : Nat) (d : ℝ),
    2 < M ∧ 2 < N ∧ iOrg.shape = [M, N] ∧ iErr.shape = [M, N] ∧ highQuality iOrg iErr so lum 1 1 1 = .ok d ∧ d ≠ 0 := by
  rintro ⟨iOrg, iErr, so, lum, M, N, d, hM, hN, h1, h2, h, hd⟩
  rw [(C86_block_size_one hM hN iOrg iErr h1 h2 so lum 1).1] at h
  simp only [Except.ok.injEq] at h
  exact hd h.symm

example : madCombineNF 0.467 0.130 0 .nan = .fin 0 :=
  (C86_block_size_one (M := 3) (N := 3) (by omega) (by omega) ⟨[3, 3], fun _ => 0⟩ ⟨[3, 3], fun _ => 0⟩ rfl rfl
    (fun _ _ => .nan) (fun _ _ => 0) 1).2 _ _ _ (by norm_num)

theorem mem_innerRange {L bs u : Nat} : u ∈ innerRange L bs ↔ bs ≤ u ∧ u + bs < L := by
  unfold innerRange
  simp only [List.mem_map, List.mem_range]
  constructor
  · rintro ⟨k, hk, rfl⟩; omega
  · rintro ⟨h1, h2⟩; exact ⟨u - bs, by omega, by omega⟩

/-- In general something is detected exactly if at some pixel that is at least one block away from the
border the mask and the local error are both nonzero. -/
theorem C86_partial {M N bs : Nat} {msk lum : Nat → Nat → ℝ} {d : ℝ} (h : detectIndex M N bs msk lum = .ok d) :
    0 ≤ d ∧ (d ≠ 0 ↔ ∃ u v, bs ≤ u ∧ u + bs < M ∧ bs ≤ v ∧ v + bs < N ∧ msk u v ≠ 0 ∧ lum u v ≠ 0) := by
  unfold detectIndex innerRms at h
  simp only at h
  by_cases hl : (innerRange M bs).flatMap (fun u => (innerRange N bs).map (fun v => (msk u v * lum u v) ^ 2)) = []
  · rw [if_pos hl] at h; simp at h
  · rw [if_neg hl] at h
    simp only [Except.ok.injEq] at h
    set l := (innerRange M bs).flatMap (fun u => (innerRange N bs).map (fun v => (msk u v * lum u v) ^ 2)) with hdef
    have hlen : (0 : ℝ) < Real.sqrt l.length := by
      apply Real.sqrt_pos.2
      exact_mod_cast List.length_pos_of_ne_nil hl
    have hnn : ∀ x ∈ l, (0 : ℝ) ≤ x := by
      intro x hx
      simp only [hdef, List.mem_flatMap, List.mem_map] at hx
      obtain ⟨u, _, v, _, rfl⟩ := hx
      positivity
    have hs0 : 0 ≤ l.sum := List.sum_nonneg hnn
    rw [← h]
    refine ⟨by positivity, ?_⟩
    have e1 : Real.sqrt l.sum / Real.sqrt l.length * 200 ≠ 0 ↔ l.sum ≠ 0 := by
      constructor
      · intro hne h0
        apply hne
        rw [h0]; simp
      · intro hne
        have : 0 < Real.sqrt l.sum := Real.sqrt_pos.2 (lt_of_le_of_ne hs0 (Ne.symm hne))
        positivity
    rw [e1]
    constructor
    · intro hne
      refine Classical.byContradiction (fun hn => hne ?_)
      apply List.sum_eq_zero
      intro x hx
      simp only [hdef, List.mem_flatMap, List.mem_map] at hx
      obtain ⟨u, hu, v, hv, rfl⟩ := hx
      rw [mem_innerRange] at hu hv
      refine Classical.byContradiction (fun h0 => hn ⟨u, v, hu.1, hu.2, hv.1, hv.2, ?_, ?_⟩)
      · intro h1; apply h0; rw [h1]; ring
      · intro h1; apply h0; rw [h1]; ring
    · rintro ⟨u, v, h1, h2, h3, h4, h5, h6⟩ h0
      have hmem : (msk u v * lum u v) ^ 2 ∈ l := by
        simp only [hdef, List.mem_flatMap, List.mem_map]
        exact ⟨u, mem_innerRange.2 ⟨h1, h2⟩, v, mem_innerRange.2 ⟨h3, h4⟩, rfl⟩
      have hle := List.single_le_sum hnn _ hmem
      rw [h0] at hle
      have : 0 < (msk u v * lum u v) ^ 2 := by
        have := mul_ne_zero h5 h6
        positivity
      linarith

example : ∃ d, detectIndex 3 3 1 (fun _ _ => 2) (fun _ _ => 3) = .ok d ∧ d ≠ 0 := by
  have e : detectIndex 3 3 1 (fun _ _ => 2) (fun _ _ => 3) = .ok 1200 := by
    have : Real.sqrt 36 = 6 := by
      rw [show (36 : ℝ) = 6 ^ 2 by norm_num]; exact Real.sqrt_sq (by norm_num)
    norm_num [detectIndex, innerRms, innerRange, List.range_succ, this]
  exact ⟨_, e, (C86_partial e).2.2 ⟨1, 1, by decide, by decide, by decide, by decide, by norm_num, by norm_num⟩⟩

end Viqa
