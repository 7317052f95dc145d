import Verif.Model.Border
import Verif.Model.Filters
import Verif.Lemmas.Ssim
import Verif.Lemmas.Orientation
import Verif.Props.Filters

/-!
Property C140: how images are continued beyond their border; and convolution (C51).
-/

namespace Viqa

/-- Where the value at `i` is taken from when an axis of length `n` is continued by each rule.
* constant: only pixels inside are read;
* nearest: the closest pixel;
* wrap: the axis is repeated;
* reflect: the axis is mirrored at the outer edge of the last pixel, which is repeated;
* mirror: the axis is mirrored at the centre of the last pixel. -/
def Spec.ContinuedFrom : BorderMode → (n : Nat) → Int → Nat → Prop
  | .constant, _, i, j => (j : Int) = i
  | .nearest, n, i, j => ∀ k : Nat, k < n → |i - j| ≤ |i - k|
  | .wrap, n, i, j => (n : Int) ∣ i - j
  | .reflect, n, i, j => 2 * (n : Int) ∣ i - j ∨ 2 * (n : Int) ∣ i + j + 1
  | .mirror, n, i, j => 2 ≤ n → 2 * ((n : Int) - 1) ∣ i - j ∨ 2 * ((n : Int) - 1) ∣ i + j

/-- **C140.** Every rule reads exactly the pixel it is named for, at any distance from the border. -/
theorem C140_rules (m : BorderMode) (n : Nat) (hn : 0 < n) (i : Int) (j : Nat) :
    extendIndex m n i = some j ↔ j < n ∧ Spec.ContinuedFrom m n i j := by
  have fwd : ∀ j, extendIndex m n i = some j → j < n ∧ Spec.ContinuedFrom m n i j := by
    intro j h
    refine ⟨extendIndex_lt m n i j hn h, ?_⟩
    unfold extendIndex at h
    by_cases hin : 0 ≤ i ∧ i < n
    · rw [if_pos hin] at h
      cases h
      have e : ((i.toNat : Nat) : Int) = i := Int.toNat_of_nonneg hin.1
      cases m <;> simp [Spec.ContinuedFrom, e]
    · rw [if_neg hin] at h
      cases m with
      | constant => simp at h
      | nearest =>
        simp only [Option.some.injEq] at h
        intro k hk
        split at h
        · subst h
          simp only [Nat.cast_zero, sub_zero]
          rw [abs_of_nonpos (by omega), abs_of_nonpos (by omega)]
          omega
        · subst h
          rw [abs_of_nonneg (by omega), abs_of_nonneg (by omega)]
          omega
      | wrap =>
        simp only [Option.some.injEq] at h
        subst h
        have := Int.emod_nonneg i (by omega : (n : Int) ≠ 0)
        show (n : Int) ∣ _
        rw [Int.toNat_of_nonneg this]
        exact Int.dvd_self_sub_emod
      | reflect =>
        simp only [Option.some.injEq] at h
        have h0 := Int.emod_nonneg i (by omega : 2 * (n : Int) ≠ 0)
        have h1 := Int.emod_lt_of_pos i (by omega : (0 : Int) < 2 * n)
        have hd : 2 * (n : Int) ∣ i - i % (2 * n) := Int.dvd_self_sub_emod
        split at h
        · left
          subst h
          rw [Int.toNat_of_nonneg h0]
          exact hd
        · right
          subst h
          rw [Int.toNat_of_nonneg (by omega)]
          have : i + (2 * (n : Int) - 1 - i % (2 * n)) + 1 = (i - i % (2 * n)) + 2 * n := by ring
          rw [this]
          exact Int.dvd_add hd (Int.dvd_refl _)
      | mirror =>
        intro h2
        simp only at h
        rw [if_neg (by omega)] at h
        simp only [Option.some.injEq] at h
        have e : 2 * (n : Int) - 2 = 2 * (n - 1) := by ring
        rw [e] at h
        have h0 := Int.emod_nonneg i (by omega : 2 * ((n : Int) - 1) ≠ 0)
        have h1 := Int.emod_lt_of_pos i (by omega : (0 : Int) < 2 * (n - 1))
        have hd : 2 * ((n : Int) - 1) ∣ i - i % (2 * (n - 1)) := Int.dvd_self_sub_emod
        split at h
        · left
          subst h
          rw [Int.toNat_of_nonneg h0]
          exact hd
        · right
          subst h
          rw [Int.toNat_of_nonneg (by omega)]
          have : i + (2 * ((n : Int) - 1) - i % (2 * (n - 1))) = (i - i % (2 * (n - 1))) + 2 * (n - 1) := by ring
          rw [this]
          exact Int.dvd_add hd (Int.dvd_refl _)
  refine ⟨fwd j, ?_⟩
  rintro ⟨hj, hs⟩
  by_cases hm : m = .constant
  · subst hm
    have : (j : Int) = i := hs
    subst this
    unfold extendIndex
    rw [if_pos ⟨by omega, by omega⟩]
    simp
  · obtain ⟨j', h', hj'⟩ := extendIndex_spec m n i hn hm
    rw [h']
    have hs' := (fwd j' h').2
    congr 1
    cases m with
    | constant => exact absurd rfl hm
    | nearest =>
      simp only [Spec.ContinuedFrom] at hs hs'
      have key : ∀ l : Nat, l < n → (∀ k : Nat, k < n → |i - l| ≤ |i - k|) →
          (i < 0 → l = 0) ∧ (0 ≤ i → i < n → (l : Int) = i) ∧ ((n : Int) ≤ i → l = n - 1) := by
        intro l hl h
        refine ⟨fun hi => ?_, fun h0 h1 => ?_, fun hi => ?_⟩
        · have := h 0 hn
          rw [abs_of_nonpos (by omega), abs_of_nonpos (by omega)] at this
          omega
        · have := h i.toNat (by omega)
          rw [Int.toNat_of_nonneg h0, sub_self, abs_zero, abs_nonpos_iff] at this
          omega
        · have := h (n - 1) (by omega)
          rw [abs_of_nonneg (by omega), abs_of_nonneg (by omega)] at this
          omega
      have k1 := key j hj hs
      have k2 := key j' hj' hs'
      omega
    | wrap =>
      have h1 := Int.dvd_sub hs hs'
      have e : i - j - (i - j') = (j' : Int) - j := by ring
      rw [e] at h1
      obtain ⟨c, hc⟩ := h1
      have : c = 0 := by
        by_contra hne
        rcases lt_or_gt_of_ne hne with h | h <;> nlinarith
      rw [this] at hc
      omega
    | reflect =>
      have close : ∀ c : Int, (j' : Int) - j = 2 * n * c → j' = j := by
        intro c hc
        have : c = 0 := by
          by_contra hne
          rcases lt_or_gt_of_ne hne with h | h <;> nlinarith
        rw [this] at hc
        omega
      have far : ∀ c : Int, (j : Int) + j' + 1 = 2 * n * c → False := by
        intro c hc
        have h1 : 0 < c := by
          by_contra hne
          nlinarith
        have h2 : c < 1 := by
          by_contra hne
          nlinarith
        omega
      rcases hs with ⟨c, hc⟩ | ⟨c, hc⟩ <;> rcases hs' with ⟨c', hc'⟩ | ⟨c', hc'⟩
      · exact close (c - c') (by linear_combination hc - hc')
      · exact (far (c' - c) (by linear_combination hc' - hc)).elim
      · exact (far (c - c') (by linear_combination hc - hc')).elim
      · exact close (c' - c) (by linear_combination hc' - hc)
    | mirror =>
      rcases Nat.lt_or_ge n 2 with h2 | h2
      · omega
      · have close : ∀ c : Int, (j' : Int) - j = 2 * ((n : Int) - 1) * c → j' = j := by
          intro c hc
          have : c = 0 := by
            by_contra hne
            rcases lt_or_gt_of_ne hne with h | h <;> nlinarith
          rw [this] at hc
          omega
        have far : ∀ c : Int, (j : Int) + j' = 2 * ((n : Int) - 1) * c → j' = j := by
          intro c hc
          have h1 : 0 ≤ c := by
            by_contra hne
            nlinarith
          have h3 : c ≤ 1 := by
            by_contra hne
            nlinarith
          rcases (by omega : c = 0 ∨ c = 1) with rfl | rfl <;> omega
        rcases hs h2 with ⟨c, hc⟩ | ⟨c, hc⟩ <;> rcases hs' h2 with ⟨c', hc'⟩ | ⟨c', hc'⟩
        · exact close (c - c') (by linear_combination hc - hc')
        · exact far (c' - c) (by linear_combination hc' - hc)
        · exact far (c - c') (by linear_combination hc - hc')
        · exact close (c' - c) (by linear_combination hc' - hc)

/-- Continuing three pixels to the left and right. -/
example : (List.range 9).map (fun i => extendIndex .reflect 3 ((i : Int) - 3)) = [some 2, some 1, some 0, some 0, some 1, some 2, some 2, some 1, some 0] := by
  decide
example : (List.range 9).map (fun i => extendIndex .mirror 3 ((i : Int) - 3)) = [some 1, some 2, some 1, some 0, some 1, some 2, some 1, some 0, some 1] := by
  decide

/-- **C140**, the names of `correlate_convolve_abs`: constant, nearest and wrap are the rules of these names. The
full claim is that every name stands for the rule SciPy calls by it, as it does for SSIM and GSM. -/
theorem C140_names_partial (name : String) (h : name = "constant" ∨ name = "nearest" ∨ name = "wrap") :
    padMode name = borderMode name := by
  rcases h with rfl | rfl | rfl <;> decide

/-- The other two names are exchanged: `reflect` is the rule `mirror` and vice versa. -/
theorem C140_exchanged : padMode "reflect" = borderMode "mirror" ∧ padMode "mirror" = borderMode "reflect" := by
  constructor <;> decide

/-- **C140 refuted:** with `reflect` the pixel before the border is read by SSIM and GSM, and the one before it by
`correlate_convolve_abs`, for every length of at least two pixels. -/
theorem C140_refuted (n : Nat) (hn : 2 ≤ n) :
    ∃ a b, padMode "reflect" = .ok a ∧ borderMode "reflect" = .ok b ∧ extendIndex a n (-1) = some 1 ∧
      extendIndex b n (-1) = some 0 := by
  refine ⟨.mirror, .reflect, by decide, by decide, ?_, ?_⟩
  · rw [C140_rules _ _ (by omega)]
    exact ⟨by omega, fun _ => Or.inr ⟨0, by norm_num⟩⟩
  · rw [C140_rules _ _ (by omega)]
    exact ⟨by omega, Or.inr ⟨0, by norm_num⟩⟩

/-- The index turned by 180 degrees. -/
def Spec.turned (shape o : List Nat) : List Nat := List.zipWith (fun n i => n - 1 - i) shape o

theorem turned_inShape : ∀ (shape o : List Nat), InShape shape o → InShape shape (Spec.turned shape o)
  | [], [], _ => trivial
  | n :: sh, i :: o, h => ⟨by have := h.1; show n - 1 - i < n; omega, turned_inShape sh o h.2⟩
  | [], _ :: _, h => h.elim
  | _ :: _, [], h => h.elim

theorem turned_turned : ∀ (shape o : List Nat), InShape shape o → Spec.turned shape (Spec.turned shape o) = o
  | [], [], _ => rfl
  | n :: sh, i :: o, h => by
    have := h.1
    have ih := turned_turned sh o h.2
    unfold Spec.turned at ih ⊢
    simp only [List.zipWith_cons_cons]
    rw [ih]
    congr 1
    omega
  | [], _ :: _, h => h.elim
  | _ :: _, [], h => h.elim

/-- **C51**, convolution: convolving is correlating with the kernel turned by 180 degrees. -/
theorem C51_convolve (img w w' : NDArray Rat) (hs : w'.shape = w.shape)
    (hw : ∀ o, InShape w.shape o → w'.get (Spec.turned w.shape o) = w.get o) (mode border : String) (hm : mode ≠ "convolve") (value : Rat) :
    (correlateConvolveAbs img w "convolve" border value).map (fun r => (r.shape, (indices r.shape).map r.get)) =
    (correlateConvolveAbs img w' mode border value).map (fun r => (r.shape, (indices r.shape).map r.get)) := by
  unfold correlateConvolveAbs
  simp only [if_neg hm, if_true]
  cases padMode border with
  | error e => rfl
  | ok b =>
    simp only
    have key : correlateAbsAt b value img (flipAll w) = correlateAbsAt b value img w' := by
      funext p
      unfold correlateAbsAt
      have hf : (flipAll w).shape = w.shape := rfl
      rw [hf, hs]
      congr 2
      apply List.map_congr_left
      intro o ho
      have ho' := inShape_of_mem_indices _ _ ho
      have e : (flipAll w).get o = w'.get o := by
        have := hw _ (turned_inShape _ _ ho')
        rw [turned_turned _ _ ho'] at this
        rw [this]
        rfl
      rw [e]
    rw [key]

/-- A kernel and the turned one. -/
example : (correlateConvolveAbs ⟨[4, 4], fun i => (i.sum : Nat)⟩ ⟨[2, 2], fun i => if i = [0, 1] then 4 else 0⟩ "convolve" "nearest" 0).map
      (fun r => (r.shape, (indices r.shape).map r.get)) =
    (correlateConvolveAbs ⟨[4, 4], fun i => (i.sum : Nat)⟩ ⟨[2, 2], fun i => if i = [1, 0] then 4 else 0⟩ "correlate" "nearest" 0).map
      (fun r => (r.shape, (indices r.shape).map r.get)) :=
  C51_convolve ⟨[4, 4], fun i => (i.sum : Nat)⟩ ⟨[2, 2], fun i => if i = [0, 1] then 4 else 0⟩
    ⟨[2, 2], fun i => if i = [1, 0] then 4 else 0⟩ rfl (fun o ho => by
    have h := mem_indices_of_inShape _ _ ho
    have h2 : o ∈ [[0, 0], [0, 1], [1, 0], [1, 1]] := h
    simp only [List.mem_cons, List.not_mem_nil, or_false] at h2
    rcases h2 with rfl | rfl | rfl | rfl <;> simp [Spec.turned]) "correlate" "nearest" (by decide) 0

example : padMode "wrap" = borderMode "wrap" := C140_names_partial _ (.inr (.inr rfl))

/-- The same name means different rules in SSIM and in the local correlation. -/
example : padMode "reflect" = borderMode "mirror" := C140_exchanged.1

end Viqa
