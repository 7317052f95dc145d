import Verif.Model.Normalize
import Verif.Spec.Image
import Mathlib.Tactic.Linarith
import Mathlib.Tactic.FieldSimp
import Mathlib.Tactic.Positivity
import Mathlib.Tactic.Ring

set_option linter.unusedSimpArgs false

/-! Helper lemmas about `normalize_data`. -/

namespace Viqa
open Spec

theorem mem_indices (sh idx : List Nat) : idx ∈ indices sh ↔ InShape sh idx := by
  induction sh generalizing idx with
  | nil => cases idx <;> simp [indices, InShape]
  | cons n sh ih =>
    cases idx with
    | nil => simp [indices, InShape]
    | cons i idx => simp [indices, InShape, ih]

theorem mem_toList {α} (a : NDArray α) (p : α) : p ∈ a.toList ↔ p ∈ pixels a := by
  simp [NDArray.toList, pixels, mem_indices]

theorem foldl_min_isLeast (x : Rat) (xs : List Rat) :
    IsLeast {p | p ∈ x :: xs} (xs.foldl min x) := by
  induction xs generalizing x with
  | nil => simp [IsLeast, lowerBounds]
  | cons y ys ih =>
    obtain ⟨h1, h2⟩ := ih (min x y)
    rw [List.foldl_cons]
    simp only [Set.mem_ofPred_eq, List.mem_cons] at h1 h2
    simp only [IsLeast, lowerBounds, Set.mem_ofPred_eq, List.mem_cons] at *
    constructor
    · rcases h1 with h1 | h1
      · rw [h1]; rcases min_choice x y with h | h <;> rw [h] <;> simp
      · exact Or.inr (Or.inr h1)
    · intro a ha
      rcases ha with ha | ha | ha
      · subst ha; exact le_trans (h2 (Or.inl rfl)) (min_le_left _ _)
      · subst ha; exact le_trans (h2 (Or.inl rfl)) (min_le_right _ _)
      · exact h2 (Or.inr ha)

theorem foldl_max_isGreatest (x : Rat) (xs : List Rat) :
    IsGreatest {p | p ∈ x :: xs} (xs.foldl max x) := by
  induction xs generalizing x with
  | nil => simp [IsGreatest, upperBounds]
  | cons y ys ih =>
    obtain ⟨h1, h2⟩ := ih (max x y)
    rw [List.foldl_cons]
    simp only [IsGreatest, upperBounds, Set.mem_ofPred_eq, List.mem_cons] at *
    constructor
    · rcases h1 with h1 | h1
      · rw [h1]; rcases max_choice x y with h | h <;> rw [h] <;> simp
      · exact Or.inr (Or.inr h1)
    · intro a ha
      rcases ha with ha | ha | ha
      · subst ha; exact le_trans (le_max_left _ _) (h2 (Or.inl rfl))
      · subst ha; exact le_trans (le_max_right _ _) (h2 (Or.inl rfl))
      · exact h2 (Or.inr ha)

theorem toList_set {α} (a : NDArray α) : {p | p ∈ a.toList} = pixels a := by
  ext p; exact mem_toList a p

theorem arrMin_iff (a : NDArray Rat) (m : Rat) : arrMin a = .ok m ↔ IsLeast (pixels a) m := by
  rw [← toList_set]
  unfold arrMin
  cases a.toList with
  | nil => simp [IsLeast]
  | cons x xs =>
    have h := foldl_min_isLeast x xs
    simp only [Except.ok.injEq]
    constructor
    · intro e; rw [← e]; exact h
    · intro h'; exact h.unique h'

theorem arrMax_iff (a : NDArray Rat) (m : Rat) : arrMax a = .ok m ↔ IsGreatest (pixels a) m := by
  rw [← toList_set]
  unfold arrMax
  cases a.toList with
  | nil => simp [IsGreatest]
  | cons x xs =>
    have h := foldl_max_isGreatest x xs
    simp only [Except.ok.injEq]
    constructor
    · intro e; rw [← e]; exact h
    · intro h'; exact h.unique h'

theorem castUnsigned_of_mem (b : Nat) (v : Rat) (h0 : 0 ≤ v) (h1 : v < 2 ^ b) :
    castUnsigned b v = (⌊v⌋ : Int) := by
  unfold castUnsigned
  rw [if_pos h0]
  congr 1
  apply Int.emod_eq_of_lt
  · exact Int.floor_nonneg.2 h0
  · rw [Int.floor_lt]; push_cast; exact h1

theorem castUnsigned_int (b : Nat) (n : Int) (h0 : 0 ≤ n) (h1 : n < 2 ^ b) :
    castUnsigned b n = (n : Rat) := by
  rw [castUnsigned_of_mem b n (by exact_mod_cast h0) (by exact_mod_cast h1), Int.floor_intCast]

theorem wrapInt_unsigned (dt : DType) (h : dt.isUnsigned = true) (x : Int) :
    wrapInt dt x = x % 2 ^ dt.bits := by
  simp [wrapInt, DType.intMin, h]

theorem store_int (dt : DType) (n : Int) : store (some dt) n = (wrapInt dt n : Int) := by
  simp [store]

theorem pyw_lift_val {α} (x : Py α) : (PyW.lift x).val = x := rfl

/-- Only float16 arithmetic overflows. -/
theorem halfOverflow_of_ne {dt : DType} (h : dt ≠ .f16) (l : List Rat) : halfOverflow dt l = false := by
  simp [halfOverflow, h]

theorem floatType_ne_half {dt : DType} (h : dt ≠ .f16) (k : Int) : floatType dt k ≠ .f16 := by
  unfold floatType
  cases dt <;> simp_all
  split <;> simp

theorem no_overflow_of_ne {dt : DType} (h : dt ≠ .f16) (k : Int) (l l' : List Rat) :
    (halfOverflow dt l || halfOverflow (floatType dt k) l') = false := by
  rw [halfOverflow_of_ne h, halfOverflow_of_ne (floatType_ne_half h k), Bool.or_self]

/-- The automatic range, unfolded. -/
theorem normalize_auto (ident : Bool) (img : Image Rat) (out : Int × Int)
    (inp : Option (Int × Int)) (m M : Rat)
    (hm : IsLeast (pixels img.arr) m) (hM : IsGreatest (pixels img.arr) M)
    (hdt : (img.dtype.isInteger || img.dtype.isFloating) = true)
    (hn : alreadyNormalized ident img.dtype out = false)
    (hof : (halfOverflow img.dtype [M - m] ||
      halfOverflow (floatType img.dtype (out.2 - out.1)) [(M - m) * ((out.2 - out.1 : Int) : Rat)]) = false) :
    normalizeData ident img out inp true = PyW.lift (do
      let r ← rescale img.arr (if img.dtype.isInteger then some img.dtype else none) m
        (store (if img.dtype.isInteger then some img.dtype else none) (M - m)) out
      castOutput out r) := by
  unfold normalizeData
  rw [if_neg (by simp [hdt]), hn]
  simp only [Bool.false_eq_true, if_false, if_true, (arrMin_iff _ _).2 hm, (arrMax_iff _ _).2 hM]
  simp only [bind, Except.bind]
  rw [if_neg (by rw [hof]; decide)]

/-- Data type of the result for the supported output ranges `(0, hi)`. -/
def outType (hi : Int) : DType := if hi = 255 then .u8 else if hi = 65535 then .u16 else .f32

/-- Last step: integer part for the integer ranges. -/
def outCast (hi : Int) (v : Rat) : Rat :=
  if hi = 255 then castUnsigned 8 v else if hi = 65535 then castUnsigned 16 v else v

theorem castOutput_supported (hi : Int) (h : hi = 1 ∨ hi = 255 ∨ hi = 65535) (a : NDArray Rat) :
    castOutput (0, hi) a = .ok ⟨outType hi, a.map (outCast hi)⟩ := by
  rcases h with h | h | h <;> subst h <;> simp [castOutput, outType, outCast, NDArray.map]

theorem floor_of_den (a b : Int) (hb : 0 < b) : ⌊(a : Rat) / b⌋ = a / b := by
  rw [Int.floor_eq_iff]
  have hb' : (0 : Rat) < b := by exact_mod_cast hb
  have h1 := Int.emod_add_mul_ediv a b
  have h2 := Int.emod_nonneg a (ne_of_gt hb)
  have h3 := Int.emod_lt_of_pos a hb
  have h1' : (a : Rat) = (a % b : Int) + b * (a / b : Int) := by exact_mod_cast h1.symm
  constructor
  · rw [le_div_iff₀ hb', h1']
    have : (0 : Rat) ≤ (a % b : Int) := by exact_mod_cast h2
    nlinarith
  · rw [div_lt_iff₀ hb', h1']
    have : ((a % b : Int) : Rat) < b := by exact_mod_cast h3
    nlinarith

theorem linearTo_bounds {hi : Int} {m M p : Rat} (hhi : 0 ≤ hi) (hlt : m < M) (h1 : m ≤ p) (h2 : p ≤ M) :
    0 ≤ linearTo hi m M p ∧ linearTo hi m M p ≤ hi := by
  have hd : 0 < M - m := by linarith
  have hh : (0 : Rat) ≤ hi := by exact_mod_cast hhi
  unfold linearTo
  constructor
  · apply div_nonneg (mul_nonneg (by linarith) hh) hd.le
  · rw [div_le_iff₀ hd]; nlinarith

theorem outCast_eq (hi : Int) (h : Supported hi) (v : Rat) (h0 : 0 ≤ v) (h1 : v ≤ hi) :
    outCast hi v = quantize hi v := by
  rcases h with h | h | h <;> subst h
  · simp [outCast, quantize]
  · simp only [outCast, quantize, if_true]
    rw [castUnsigned_of_mem 8 v h0 (by push_cast at h1; norm_num; linarith)]; simp
  · simp only [outCast, quantize]
    rw [if_neg (by norm_num), if_pos trivial,
      castUnsigned_of_mem 16 v h0 (by push_cast at h1; norm_num; linarith)]; simp

theorem outType_eq (hi : Int) (h : Supported hi) : outType hi = rangeType hi := by
  rcases h with h | h | h <;> subst h <;> rfl

theorem quantize_mono {hi : Int} {v w : Rat} (h : v ≤ w) : quantize hi v ≤ quantize hi w := by
  unfold quantize; split
  · exact h
  · exact_mod_cast Int.floor_le_floor h


theorem emod_le_self' (x d : Int) (hx : 0 ≤ x) (hd : 0 < d) : x % d ≤ x := by
  rcases lt_or_ge x d with h | h
  · rw [Int.emod_eq_of_lt hx h]
  · exact le_trans (Int.emod_lt_of_pos x hd).le h

end Viqa
