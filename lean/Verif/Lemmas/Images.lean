import Verif.Model.Images
import Verif.Spec.Region
import Mathlib.Tactic.Linarith

set_option linter.unusedSimpArgs false

/-! Helper lemmas about images: slicing and the warning monad. -/

namespace Viqa
open Spec

theorem sliceRange_inside (n : Nat) (r : Int × Int) (h : InsideAxis n r) :
    sliceRange n r.1 r.2 = (r.1.toNat, (r.2 - r.1).toNat) := by
  obtain ⟨h1, h2, h3⟩ := h
  unfold sliceRange sliceBound
  rw [if_neg (by omega), if_neg (by omega)]
  congr 1 <;> omega

theorem sliceArray_two {α} (a : NDArray α) (n0 n1 : Nat) (hs : a.shape = [n0, n1]) (x y : Int × Int)
    (hx : InsideAxis n0 x) (hy : InsideAxis n1 y) : IsRegion2 a (sliceArray a [x, y]) x y := by
  have e1 := sliceRange_inside n0 x hx
  have e2 := sliceRange_inside n1 y hy
  unfold IsRegion2 sliceArray
  simp only [hs, List.zipWith_cons_cons, List.zipWith_nil_left, List.zipWith_nil_right, List.map_cons, List.map_nil, e1, e2]
  refine ⟨by simp, ?_⟩
  intro i j hi hj
  simp only [List.zipWith_cons_cons, List.zipWith_nil_right, List.zipWith_nil_left, List.length_cons, List.length_nil,
    List.drop, List.append_nil]
  obtain ⟨h1, -, -⟩ := hx
  obtain ⟨h2, -, -⟩ := hy
  congr 2
  · omega
  · congr 1; omega

theorem sliceArray_three {α} (a : NDArray α) (n0 n1 n2 : Nat) (hs : a.shape = [n0, n1, n2])
    (x y z : Int × Int) (hx : InsideAxis n0 x) (hy : InsideAxis n1 y) (hz : InsideAxis n2 z) :
    IsRegion3 a (sliceArray a [x, y, z]) x y z := by
  have e1 := sliceRange_inside n0 x hx
  have e2 := sliceRange_inside n1 y hy
  have e3 := sliceRange_inside n2 z hz
  unfold IsRegion3 sliceArray
  simp only [hs, List.zipWith_cons_cons, List.zipWith_nil_left, List.zipWith_nil_right, List.map_cons, List.map_nil, e1, e2, e3]
  refine ⟨by simp, ?_⟩
  intro i j k hi hj hk
  simp only [List.zipWith_cons_cons, List.zipWith_nil_right, List.zipWith_nil_left, List.length_cons, List.length_nil,
    List.drop, List.append_nil]
  obtain ⟨h1, -, -⟩ := hx
  obtain ⟨h2, -, -⟩ := hy
  obtain ⟨h3, -, -⟩ := hz
  congr 2
  · omega
  · congr 1
    · omega
    · congr 1; omega

namespace PyW

variable {α β : Type}

theorem bind_val (x : PyW α) (f : α → PyW β) :
    (x >>= f).val = match x.val with | .error e => .error e | .ok a => (f a).val := by
  show (PyW.bind x f).val = _
  unfold PyW.bind; split <;> simp_all

theorem bind_val_ok {x : PyW α} {f : α → PyW β} {a : α} (h : x.val = .ok a) :
    (x >>= f).val = (f a).val := by rw [bind_val, h]

theorem bind_val_error {x : PyW α} {f : α → PyW β} {e : Exc} (h : x.val = .error e) :
    (x >>= f).val = .error e := by rw [bind_val, h]

theorem bind_val_ok_iff {x : PyW α} {f : α → PyW β} {b : β} :
    (x >>= f).val = .ok b ↔ ∃ a, x.val = .ok a ∧ (f a).val = .ok b := by
  rw [bind_val]
  cases x.val <;> simp

theorem bind_warns (x : PyW α) (f : α → PyW β) :
    (x >>= f).warns = x.warns ++ (match x.val with | .error _ => [] | .ok a => (f a).warns) := by
  show (PyW.bind x f).warns = _
  unfold PyW.bind; split <;> simp_all

@[simp] theorem pure_val (a : α) : (Pure.pure a : PyW α).val = .ok a := rfl
@[simp] theorem pure_warns (a : α) : (Pure.pure a : PyW α).warns = [] := rfl
@[simp] theorem raise_val (e : Exc) : (PyW.raise e : PyW α).val = .error e := rfl
@[simp] theorem raise_warns (e : Exc) : (PyW.raise e : PyW α).warns = [] := rfl
@[simp] theorem warn_val (w : String) : (PyW.warn w).val = .ok () := rfl
@[simp] theorem warn_warns (w : String) : (PyW.warn w).warns = [w] := rfl
@[simp] theorem lift_val (x : Py α) : (PyW.lift x).val = x := rfl
@[simp] theorem lift_warns (x : Py α) : (PyW.lift x).warns = [] := rfl

theorem ext' {x y : PyW α} (h1 : x.warns = y.warns) (h2 : x.val = y.val) : x = y := by
  cases x; cases y; simp_all

theorem not_mem_bind {w : String} {x : PyW α} {f : α → PyW β} (h1 : w ∉ x.warns)
    (h2 : ∀ a, w ∉ (f a).warns) : w ∉ (x >>= f).warns := by
  rw [bind_warns]
  cases x.val with
  | error e => simpa using h1
  | ok a => simp [h1, h2 a]

end PyW

theorem loadBody_no_range_warning (disk : Txt → Py (Image Rat)) (inp : Input) (args : LoadArgs) :
    "Parameter data_range is set but normalize is False." ∉ (loadBody disk inp args).warns := by
  unfold loadBody
  apply PyW.not_mem_bind
  · unfold loadSource; split <;> simp [PyW.bind_warns]
    split <;> simp
  · rintro ⟨b, img⟩
    apply PyW.not_mem_bind
    · unfold ndimStep; split <;> simp
    · intro _
      apply PyW.not_mem_bind
      · unfold normalizeStep
        split
        · split
          · unfold normalizeData
            split
            · simp
            · split
              · simp [PyW.bind_warns]
              · simp
          · simp
        · simp
      · intro img
        apply PyW.not_mem_bind
        · unfold cropStep
          split
          · apply PyW.not_mem_bind
            · unfold cropImage
              simp only
              repeat' split
              all_goals simp [PyW.bind_warns]
            · intro _; simp
          · simp
        · intro _; simp

theorem loadData_val (disk : Txt → Py (Image Rat)) (inp : Input) (args : LoadArgs)
    (h0 : args.batch = false) (h1 : ¬ (args.normalize = true ∧ args.dataRange = none)) :
    (loadData disk inp args).val = (loadBody disk inp args).val := by
  unfold loadData
  rw [if_neg (by simp [h0]), if_neg h1]
  split
  · exact PyW.bind_val_ok (a := ()) rfl
  · rfl

end Viqa
