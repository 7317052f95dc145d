import Verif.Model.Filters
import Verif.Props.Gsm
import Mathlib.Tactic.FieldSimp

/-! Properties of the local correlation and the frequency filters: C49 and C51. -/

namespace Viqa

/-! ### C49: frequencies -/

/-- Shifting to the centre and back is the identity, in both orders, for even and odd lengths. -/
theorem C49_round_trip {n k : Nat} (hk : k < n) :
    fftshiftSource n (ifftshiftSource n k) = k ∧ ifftshiftSource n (fftshiftSource n k) = k := by
  unfold fftshiftSource ifftshiftSource
  constructor
  · rw [Nat.mod_add_mod, show k + n / 2 + (n - n / 2) = k + n by omega, Nat.add_mod_right, Nat.mod_eq_of_lt hk]
  · rw [Nat.mod_add_mod, show k + (n - n / 2) + n / 2 = k + n by omega, Nat.add_mod_right, Nat.mod_eq_of_lt hk]

example : fftshiftSource 5 (ifftshiftSource 5 4) = 4 := (C49_round_trip (by decide)).1

/-- The shifted spectrum has the zero frequency at index `n // 2`. -/
theorem C49_centre {n k : Nat} (hk : k < n) : fftshiftSource n k = 0 ↔ k = n / 2 := by
  unfold fftshiftSource
  constructor
  · intro h
    rcases Nat.lt_or_ge (k + (n - n / 2)) n with h1 | h1
    · rw [Nat.mod_eq_of_lt h1] at h; omega
    · rw [Nat.mod_eq_sub_mod h1, Nat.mod_eq_of_lt (by omega)] at h; omega
  · rintro rfl
    rw [show n / 2 + (n - n / 2) = n by omega, Nat.mod_self]

example : fftshiftSource 5 2 = 0 ∧ fftshiftSource 5 3 ≠ 0 := ⟨(C49_centre (by decide)).2 rfl, fun h => absurd ((C49_centre (by decide)).1 h) (by decide)⟩

/-- The gain of the zero frequency is zero for all sizes. -/
theorem C49_zero_gain {β : Type} [Zero β] (rows cols : Nat) (g : Rat → Rat → β) : gaborFilter rows cols g 0 0 = 0 := by
  simp [gaborFilter]

example : gaborFilter 5 4 (fun a b => 10 * a + b + 7) 0 0 = 0 := C49_zero_gain _ _ _

/-- Even sizes: every other frequency gets the gain of its own coordinates (the frequency divided by half
the size). The full claim is the same for every size. -/
theorem C49_even_partial {β : Type} [Zero β] {rows cols k l : Nat} (g : Rat → Rat → β) (hr : rows % 2 = 0) (hc : cols % 2 = 0)
    (hk : k < rows) (hl : l < cols) (h : ¬ (k = 0 ∧ l = 0)) :
    gaborFilter rows cols g k l = g (trueFreq rows k / ((rows : Rat) / 2)) (trueFreq cols l / ((cols : Rat) / 2)) := by
  have key : ∀ n k, n % 2 = 0 → k < n → gaborCoord n (fftshiftSource n k) = (trueFreq n k : Rat) / ((n : Rat) / 2) ∧
      (fftshiftSource n k = n / 2 → k = 0) := by
    intro n k hn hk
    obtain ⟨h, rfl⟩ : ∃ h, n = 2 * h := ⟨n / 2, by omega⟩
    have hd : 2 * h / 2 = h := by omega
    have h1 : ((2 * h : Nat) : Rat) - 1 ≠ 0 := by
      push_cast
      intro h0
      have : (2 : Rat) * h = 1 := by linarith
      have : 2 * h = 1 := by exact_mod_cast this
      omega
    have hh : ((2 * h : Nat) : Rat) / 2 = h := by push_cast; ring
    have e : ∀ i : Nat, gaborCoord (2 * h) i = (-(h : Rat) + i) / h := by
      intro i
      unfold gaborCoord
      rw [if_pos hn, hh]
      have : ((i : Rat) * ((((2 * h : Nat) : Rat) - 2) / 2 + h) / (((2 * h : Nat) : Rat) - 1)) = i := by
        rw [div_eq_iff h1]
        push_cast
        ring
      rw [this]
      congr 2
      push_cast
      ring
    rw [e, hh]
    unfold fftshiftSource trueFreq
    rw [hd]
    by_cases hlt : k < h
    · rw [Nat.mod_eq_of_lt (by omega), if_pos (by omega)]
      refine ⟨?_, fun _ => by omega⟩
      congr 1
      have : 2 * h - h = h := by omega
      rw [this]
      push_cast
      ring
    · have h3 : (k + (2 * h - h)) % (2 * h) = k - h := by
        rw [Nat.mod_eq_sub_mod (by omega), Nat.mod_eq_of_lt (by omega)]
        omega
      rw [h3, if_neg (by omega)]
      refine ⟨?_, fun _ => by omega⟩
      congr 1
      rw [Nat.cast_sub (by omega)]
      push_cast
      ring
  unfold gaborFilter
  rw [if_neg h]
  simp only
  rw [if_neg (fun hh => h ⟨(key rows k hr hk).2 hh.1, (key cols l hc hl).2 hh.2⟩), (key rows k hr hk).1, (key cols l hc hl).1]

example : gaborFilter 4 6 (fun a b => 10 * a + b) 1 5 = 10 * (trueFreq 4 1 / (4 / 2)) + trueFreq 6 5 / (6 / 2) :=
  C49_even_partial _ (by decide) (by decide) (by decide) (by decide) (by decide)

/-- Odd sizes: the coordinate used for the zero frequency is not zero but `2 / (n - 1)`, and the centre of
the filter is applied to the frequency -1. -/
theorem C49_odd {n : Nat} (hn : n % 2 = 1) (h3 : 3 ≤ n) :
    gaborFilterCoord n 0 = 2 / ((n : Rat) - 1) ∧ fftshiftSource n (n - 1) = n / 2 ∧ trueFreq n (n - 1) = -1 := by
  obtain ⟨h, rfl⟩ : ∃ h, n = 2 * h + 1 := ⟨n / 2, by omega⟩
  have hd : (2 * h + 1) / 2 = h := by omega
  have hpos : (0 : Rat) < h := by
    have : 1 ≤ h := by omega
    exact_mod_cast this
  refine ⟨?_, ?_, ?_⟩
  · unfold gaborFilterCoord fftshiftSource gaborCoord
    rw [hd, if_neg (by omega), Nat.zero_add, show 2 * h + 1 - h = h + 1 by omega, Nat.mod_eq_of_lt (by omega)]
    have e1 : ((2 * h + 1 : Nat) : Rat) = 2 * h + 1 := by push_cast; rfl
    rw [e1]
    have e2 : (2 * (h : Rat) + 1) ≠ 0 := by positivity
    have e3 : (2 * (h : Rat) + 1 - 1) ≠ 0 := by
      have : (2 * (h : Rat) + 1 - 1) = 2 * h := by ring
      rw [this]; positivity
    push_cast
    field_simp
    ring
  · unfold fftshiftSource
    rw [hd, show 2 * h + 1 - 1 + (2 * h + 1 - h) = h + (2 * h + 1) by omega, Nat.add_mod_right, Nat.mod_eq_of_lt (by omega)]
  · unfold trueFreq
    rw [if_neg (by omega)]
    omega

example : gaborFilterCoord 257 0 = 2 / (257 - 1) := (C49_odd (by decide) (by decide)).1

/-- So for odd sizes every filter also removes a frequency that is not zero. -/
theorem C49_odd_removed {rows cols : Nat} (g : Rat → Rat → Rat) (hr : rows % 2 = 1) (hc : cols % 2 = 1)
    (h3 : 3 ≤ rows) (h3' : 3 ≤ cols) : gaborFilter rows cols g (rows - 1) (cols - 1) = 0 := by
  unfold gaborFilter
  rw [if_neg (by omega)]
  simp only
  rw [if_pos ⟨(C49_odd hr h3).2.1, (C49_odd hc h3').2.1⟩]

example : gaborFilter 5 7 (fun a b => 10 * a + b + 7) 4 6 = 0 := C49_odd_removed _ (by decide) (by decide) (by decide) (by decide)

/-- The claim that the filters are centred on the zero frequency fails for every odd size. -/
theorem C49_refuted : ∀ n : Nat, n % 2 = 1 → 3 ≤ n → gaborFilterCoord n 0 ≠ 0 := by
  intro n hn h3 h
  rw [(C49_odd hn h3).1] at h
  have : (0 : Rat) < (n : Rat) - 1 := by
    have : (3 : Rat) ≤ n := by exact_mod_cast h3
    linarith
  have := div_pos (by norm_num : (0 : Rat) < 2) this
  linarith

/-- The grid of the contrast sensitivity function is centred for odd sizes, and half a cycle off for even
sizes (the shifted spectrum has the zero frequency at `n // 2`). -/
theorem C49_csf (n : Nat) : (n % 2 = 1 → csfCoord n (n / 2) = 0) ∧ (n % 2 = 0 → csfCoord n (n / 2) = 1 / 2) := by
  unfold csfCoord
  constructor
  · intro h
    obtain ⟨k, rfl⟩ : ∃ k, n = 2 * k + 1 := ⟨n / 2, by omega⟩
    rw [show (2 * k + 1) / 2 = k by omega]
    push_cast
    ring
  · intro h
    obtain ⟨k, rfl⟩ : ∃ k, n = 2 * k := ⟨n / 2, by omega⟩
    rw [show 2 * k / 2 = k by omega]
    push_cast
    ring

example : gaborFilter 4 4 (fun a b => 10 * a + b) 1 3 = 10 * (1 / 2) - 1 / 2 := by decide +kernel

example : gaborFilterCoord 5 0 = 1 / 2 := by decide +kernel

/-! ### C51: local correlation -/

/-- The centred window documented for a correlation: kernel index `o` at position `q` (which may lie
outside of the image). -/
def Spec.centredPosition (ks : Nat) : List Int → List Nat → List Int
  | a :: p, o :: os => (a + (o : Int) - ((ks / 2 : Nat) : Int)) :: Spec.centredPosition ks p os
  | _, _ => []

/-- Mean of the absolute products over the window centred at `q`. -/
def Spec.centredMean (mode : BorderMode) (value : Rat) (img w : NDArray Rat) (q : List Int) : Rat :=
  ((indices w.shape).map (fun o =>
    ratAbs (w.get o * padValue mode value img (Spec.centredPosition (w.shape.getD 0 0) q o)))).sum /
      (indices w.shape).length

theorem windowPosition_shift (ks : Nat) : ∀ p o : List Nat,
    windowPosition ks p o =
      Spec.centredPosition ks (p.map (fun a : Nat => (a : Int) - ((ks - ks / 2 : Nat) : Int))) o
  | [], _ => by simp [windowPosition, Spec.centredPosition]
  | _ :: _, [] => by simp [windowPosition, Spec.centredPosition]
  | a :: p, o :: os => by
    simp only [windowPosition, Spec.centredPosition, List.map_cons, windowPosition_shift ks p os]
    congr 1
    have : ((ks - ks / 2 : Nat) : Int) = (ks : Int) - ((ks / 2 : Nat) : Int) := by omega
    omega

/-- The value at a pixel is the one of the window centred half a kernel (rounded up) before it, along
every axis. The full claim is that it is the one of the window centred at the pixel. -/
theorem C51_shift_partial {img w r : NDArray Rat} {mode border : String} {value : Rat}
    (h : correlateConvolveAbs img w mode border value = .ok r) :
    r.shape = img.shape ∧ ∃ b, padMode border = .ok b ∧ ∀ p, r.get p =
      Spec.centredMean b value img (if mode = "convolve" then flipAll w else w)
        (p.map (fun a : Nat => (a : Int) - ((w.shape.getD 0 0 - w.shape.getD 0 0 / 2 : Nat) : Int))) := by
  unfold correlateConvolveAbs at h
  cases hb : padMode border with
  | error e => simp [hb] at h
  | ok b =>
    simp only [hb] at h
    by_cases h2 : img.ndim < 2
    · simp [h2] at h
    · by_cases h3 : img.ndim = 2 ∨ img.ndim = 3
      · rw [if_neg h2, if_pos h3] at h
        simp only [Except.ok.injEq] at h
        subst h
        refine ⟨rfl, b, rfl, fun p => ?_⟩
        have hs : (if mode = "convolve" then flipAll w else w).shape = w.shape := by split <;> rfl
        unfold Spec.centredMean
        simp only [correlateAbsAt]
        rw [hs]
        simp only [windowPosition_shift]
      · rw [if_neg h2, if_neg h3] at h
        simp at h

example : ∃ r, correlateConvolveAbs ⟨[5, 5], fun i => if i = [2, 2] then 9 else 0⟩ ⟨[3, 3], fun _ => 1⟩ "correlate" "constant" 0 = .ok r ∧
    r.get [4, 4] = Spec.centredMean .constant 0 ⟨[5, 5], fun i => if i = [2, 2] then 9 else 0⟩ ⟨[3, 3], fun _ => 1⟩ [2, 2] := by
  obtain ⟨-, b, hb, h⟩ := C51_shift_partial (img := ⟨[5, 5], fun i => if i = [2, 2] then 9 else 0⟩) (w := ⟨[3, 3], fun _ => 1⟩)
    (mode := "correlate") (border := "constant") (value := 0) rfl
  obtain rfl : b = .constant := by
    have : padMode "constant" = .ok .constant := rfl
    rw [this] at hb
    cases hb
    rfl
  exact ⟨_, rfl, (h [4, 4]).trans rfl⟩

theorem extendIndex_constant_lt {n : Nat} {i : Int} {j k : Nat} (h : extendIndex .constant n i = some j) (hi : i < k) : j < k := by
  unfold extendIndex at h
  split at h
  · simp only [Option.some.injEq] at h; omega
  · simp at h

/-- With the default border mode the pixel itself has no influence on the value at the pixel: only pixels
with smaller indices along every axis are used. -/
theorem C51_not_own_pixel {img img' w : NDArray Rat} {k m ks : Nat} (hw : w.shape = [ks, ks])
    (h1 : img'.shape = img.shape) (hd : img.ndim = 2)
    (hag : ∀ u v, u < k → v < m → img'.get [u, v] = img.get [u, v]) (value : Rat) :
    correlateAbsAt .constant value img' w [k, m] = correlateAbsAt .constant value img w [k, m] := by
  unfold correlateAbsAt
  congr 2
  apply List.map_congr_left
  intro o ho
  congr 2
  have hin := inShape_of_mem_indices _ _ ho
  rw [hw] at hin ⊢
  match o, hin with
  | [a, b], hin =>
    obtain ⟨ha, hb, _⟩ := hin
    unfold padValue
    rw [h1]
    obtain ⟨M, N, hsh⟩ : ∃ M N, img.shape = [M, N] := by
      unfold NDArray.ndim at hd
      match hh : img.shape, hd with
      | [M, N], _ => exact ⟨M, N, rfl⟩
    rw [hsh]
    simp only [windowPosition, extendIndices, List.getD_cons_zero]
    cases e1 : extendIndex .constant M ((k : Int) + (a : Int) - (ks : Int)) with
    | none => rfl
    | some u =>
      cases e2 : extendIndex .constant N ((m : Int) + (b : Int) - (ks : Int)) with
      | none => rfl
      | some v =>
        simp only
        exact hag u v (extendIndex_constant_lt e1 (by omega)) (extendIndex_constant_lt e2 (by omega))

example : correlateAbsAt .constant 0 ⟨[5, 5], fun i => if i = [2, 2] then 9 else 0⟩ ⟨[3, 3], fun _ => 1⟩ [2, 2] =
    correlateAbsAt .constant 0 ⟨[5, 5], fun _ => 0⟩ ⟨[3, 3], fun _ => 1⟩ [2, 2] :=
  C51_not_own_pixel rfl rfl rfl (fun u v hu hv => by
    have : ¬ (u = 2 ∧ v = 2) := by omega
    simp [this]) 0

/-- The claim fails: for a single bright pixel the value at this pixel is zero, while the window
centred at it contains the pixel. -/
theorem C51_refuted : ¬ ∀ (img w r : NDArray Rat), img.ndim = 2 → w.shape = [3, 3] →
    correlateConvolveAbs img w "correlate" "constant" 0 = .ok r →
    ∀ u v, u < img.shape.getD 0 0 → v < img.shape.getD 1 0 →
      r.get [u, v] = Spec.centredMean .constant 0 img w [(u : Int), (v : Int)] := by
  intro h
  have := h ⟨[5, 5], fun i => if i = [2, 2] then 9 else 0⟩ ⟨[3, 3], fun _ => 1⟩ _ rfl rfl rfl 2 2 (by decide) (by decide)
  revert this
  decide +kernel

/-- Errors: an unknown border mode raises ValueError, as do images of more than three dimensions. -/
theorem C51_errors (img w : NDArray Rat) (mode border : String) (value : Rat) :
    (∃ r, correlateConvolveAbs img w mode border value = .ok r) ↔
      (border = "constant" ∨ border = "reflect" ∨ border = "nearest" ∨ border = "mirror" ∨ border = "wrap") ∧
        (img.ndim = 2 ∨ img.ndim = 3) := by
  have hm : (∃ b, padMode border = .ok b) ↔
      (border = "constant" ∨ border = "reflect" ∨ border = "nearest" ∨ border = "mirror" ∨ border = "wrap") := by
    unfold padMode
    by_cases h1 : border = "constant"
    · simp [h1]
    by_cases h2 : border = "reflect"
    · simp [h2]
    by_cases h3 : border = "nearest"
    · simp [h3]
    by_cases h4 : border = "mirror"
    · simp [h4]
    by_cases h5 : border = "wrap"
    · simp [h5]
    · simp [h1, h2, h3, h4, h5]
  rw [← hm]
  unfold correlateConvolveAbs
  cases hb : padMode border with
  | error e => simp
  | ok b =>
    simp only
    by_cases h2 : img.ndim < 2
    · rw [if_pos h2]
      exact ⟨fun ⟨r, h⟩ => by simp at h, fun ⟨_, h⟩ => by omega⟩
    · rw [if_neg h2]
      by_cases h3 : img.ndim = 2 ∨ img.ndim = 3
      · rw [if_pos h3]
        exact ⟨fun _ => ⟨⟨b, rfl⟩, h3⟩, fun _ => ⟨_, rfl⟩⟩
      · rw [if_neg h3]
        exact ⟨fun ⟨r, h⟩ => by simp at h, fun ⟨_, h⟩ => absurd h h3⟩

example : ((correlateConvolveAbs ⟨[5, 5], fun i => if i = [2, 2] then 9 else 0⟩ ⟨[3, 3], fun _ => 1⟩
    "correlate" "constant" 0).map (fun r => (r.get [2, 2], r.get [3, 3], r.get [4, 4]))) = .ok (0, 1, 1) := by
  decide +kernel

end Viqa
