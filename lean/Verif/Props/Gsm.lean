import Verif.Model.Gsm
import Verif.Lemmas.Sums
import Mathlib.Tactic.NormNum
import Mathlib.Tactic.Ring
import Mathlib.Tactic.Linarith
import Mathlib.Tactic.FieldSimp
import Mathlib.Tactic.IntervalCases
import Mathlib.Algebra.BigOperators.Group.List.Lemmas

set_option linter.unusedSimpArgs false
set_option linter.unusedVariables false

/-! Properties C36, C37, C38, C81, C82 and C83: gradient kernels and gradient similarity. -/

namespace Viqa

/-! ### Kernels -/

/-- All kernels of `kernels.py`. -/
def allKernels : List (NDArray Int) :=
  [gsmKernelZ, gsmKernelY, gsmKernelX, gsmKernelYz1, gsmKernelYz2, gsmKernelXz1, gsmKernelXz2, gsmKernelXy1,
   gsmKernelXy2, gsmKernelXyz1, gsmKernelXyz2, gsmKernelXyz3, gsmKernelXyz4, sobelKernelZ, sobelKernelY,
   sobelKernelX, prewittKernelZ, prewittKernelY, prewittKernelX, scharrKernelZ, scharrKernelY, scharrKernelX,
   prewittKernel2dX, prewittKernel2dY, sobelKernel2dX, sobelKernel2dY, scharrKernel2dX, scharrKernel2dY,
   gsmKernel2dY, gsmKernel2dX, gsmKernel2dXy, gsmKernel2dYx]

theorem kernel_sums : ∀ w ∈ allKernels, w.toList.sum = 0 := by decide +kernel

theorem extend_reflect_some (sh : List Nat) (q : List Int) : ∃ i, extendIndices .reflect sh q = some i := by
  induction sh generalizing q with
  | nil => exact ⟨[], by simp [extendIndices]⟩
  | cons n sh ih =>
    cases q with
    | nil => exact ⟨[], by simp [extendIndices]⟩
    | cons a q =>
      obtain ⟨is, h⟩ := ih q
      have : ∃ j, extendIndex .reflect n a = some j := by
        unfold extendIndex
        split
        · exact ⟨_, rfl⟩
        · exact ⟨_, rfl⟩
      obtain ⟨j, hj⟩ := this
      exact ⟨j :: is, by simp [extendIndices, hj, h]⟩

/-- The pixel of the image that is read for kernel index `o` at position `p`. -/
def readIndex (w : NDArray Int) (sh p o : List Nat) : List Nat :=
  (extendIndices .reflect sh (kernelPosition w.shape p o)).getD []

theorem correlateAt_eq (w : NDArray Int) (x : NDArray Rat) (p : List Nat) :
    correlateAt w x p = ((indices w.shape).map (fun o => (w.get o : Rat) * x.get (readIndex w x.shape p o))).sum := by
  unfold correlateAt readIndex
  congr 1
  apply List.map_congr_left
  intro o _
  obtain ⟨i, h⟩ := extend_reflect_some x.shape (kernelPosition w.shape p o)
  simp [h]

theorem ratsum_map_add {β} (l : List β) (f g : β → Rat) :
    (l.map (fun a => f a + g a)).sum = (l.map f).sum + (l.map g).sum := by
  induction l with
  | nil => simp
  | cons a l ih => simp only [List.map_cons, List.sum_cons, ih]; ring

theorem ratsum_mul {β} (l : List β) (f : β → Rat) (c : Rat) :
    (l.map (fun a => f a * c)).sum = (l.map f).sum * c := by
  induction l with
  | nil => simp
  | cons a l ih => simp only [List.map_cons, List.sum_cons, ih]; ring

theorem intsum_cast {β} (l : List β) (f : β → Int) : (l.map (fun a => (f a : Rat))).sum = ((l.map f).sum : Int) := by
  induction l with
  | nil => simp
  | cons a l ih => simp only [List.map_cons, List.sum_cons, ih]; push_cast; ring

/-- **C38.** For every kernel of the package, every image, every position and every constant:
adding the constant to the image does not change the response of `scipy.ndimage.correlate`. -/
theorem C38_brightness (w : NDArray Int) (hw : w ∈ allKernels) (x : NDArray Rat) (c : Rat) (p : List Nat) :
    correlateAt w ⟨x.shape, fun i => x.get i + c⟩ p = correlateAt w x p := by
  rw [correlateAt_eq, correlateAt_eq]
  simp only [mul_add]
  rw [ratsum_map_add, ratsum_mul, intsum_cast]
  have : ((indices w.shape).map w.get).sum = 0 := kernel_sums w hw
  simp [this]

example : correlateAt sobelKernel2dX ⟨[4, 4], fun i => (i.getD 0 0 : Rat) * i.getD 1 0 + 50⟩ [1, 2] =
    correlateAt sobelKernel2dX ⟨[4, 4], fun i => (i.getD 0 0 : Rat) * i.getD 1 0⟩ [1, 2] :=
  C38_brightness _ (by simp [allKernels]) ⟨[4, 4], fun i => (i.getD 0 0 : Rat) * i.getD 1 0⟩ 50 _

/-- **C38.** Every kernel responds with zero everywhere on a constant image of any shape. -/
theorem C38_constant (w : NDArray Int) (hw : w ∈ allKernels) (sh : List Nat) (c : Rat) (p : List Nat) :
    correlateAt w ⟨sh, fun _ => c⟩ p = 0 := by
  rw [correlateAt_eq, ratsum_mul, intsum_cast]
  have : ((indices w.shape).map w.get).sum = 0 := kernel_sums w hw
  simp [this]

example : correlateAt gsmKernelXyz1 ⟨[6, 6, 6], fun _ => 200⟩ [0, 3, 5] = 0 := C38_constant _ (by simp [allKernels]) _ _ _

/-- **C38.** The response is not trivial: every kernel has a nonzero response to some image. -/
theorem C38_not_trivial (w : NDArray Int) (hw : w ∈ allKernels) : ∃ o ∈ indices w.shape, w.get o ≠ 0 := by
  revert w; decide +kernel

example : correlateAt gsmKernel2dX ⟨[3, 3], fun i => i.getD 1 0⟩ [1, 1] = 32 := by decide +kernel

/-! ### Directions of the kernels -/

/-- Sum of products of two lists. -/
def Spec.dot (s : List Rat) (i : List Rat) : Rat := (List.zipWith (· * ·) s i).sum

/-- An image whose brightness changes with slope `s a` along axis `a`. -/
def Spec.ramp (sh : List Nat) (c0 : Rat) (s : List Rat) : NDArray Rat :=
  ⟨sh, fun i => c0 + Spec.dot s (i.map (fun n : Nat => (n : Rat)))⟩

/-- The kernel centred at `p` does not reach over the border. -/
def Spec.Interior : List Nat → List Nat → List Nat → Prop
  | n :: sh, m :: ksh, a :: p => m / 2 ≤ a ∧ a + m / 2 < n ∧ Spec.Interior sh ksh p
  | [], [], [] => True
  | _, _, _ => False

/-- Moments of a kernel along its axes, relative to its centre. -/
def moment (w : NDArray Int) (a : Nat) : Int :=
  ((indices w.shape).map (fun o => w.get o * ((o.getD a 0 : Int) - ((w.shape.getD a 0 / 2 : Nat) : Int)))).sum

def moments (w : NDArray Int) : List Int := (List.range w.shape.length).map (moment w)

/-- All axes have odd length. -/
def OddShape (sh : List Nat) : Prop := ∀ n ∈ sh, n % 2 = 1

theorem interior_read (sh ksh p o : List Nat) (hin : Spec.Interior sh ksh p) (ho : InShape ksh o)
    (hk : OddShape ksh) :
    ∃ i, extendIndices .reflect sh (kernelPosition ksh p o) = some i ∧
      i.map (fun n : Nat => (n : Rat)) = List.zipWith (· + ·) (p.map (fun n : Nat => (n : Rat)))
        (List.zipWith (fun (a m : Nat) => (a : Rat) - ((m / 2 : Nat) : Rat)) o ksh) := by
  induction sh generalizing ksh p o with
  | nil =>
    cases ksh with
    | nil => cases p with
      | nil => exact ⟨[], by simp [extendIndices], by simp⟩
      | cons => simp [Spec.Interior] at hin
    | cons => simp [Spec.Interior] at hin
  | cons n sh ih =>
    cases ksh with
    | nil => cases p <;> simp [Spec.Interior] at hin
    | cons m ksh =>
      cases p with
      | nil => simp [Spec.Interior] at hin
      | cons a p =>
        cases o with
        | nil => simp [InShape] at ho
        | cons b o =>
          obtain ⟨h1, h2, h3⟩ := hin
          obtain ⟨hb, ho⟩ := ho
          obtain ⟨i, hi, he⟩ := ih ksh p o h3 ho (fun n hn => hk n (by simp [hn]))
          have hm := hk m (by simp)
          refine ⟨(a + b - m / 2) :: i, ?_, ?_⟩
          · have : extendIndex .reflect n ((a : Int) + (b : Int) - ((m / 2 : Nat) : Int)) = some (a + b - m / 2) := by
              unfold extendIndex
              rw [if_pos (by omega)]
              congr 1; omega
            simp only [kernelPosition, extendIndices, this, hi]
          · simp only [List.map_cons, List.zipWith_cons_cons, he]
            congr 1
            rw [Nat.cast_sub (by omega)]
            push_cast; ring

theorem dot_add (s p q : List Rat) (h1 : p.length = q.length) :
    Spec.dot s (List.zipWith (· + ·) p q) = Spec.dot s p + Spec.dot s q := by
  unfold Spec.dot
  induction s generalizing p q with
  | nil => simp
  | cons a s ih =>
    cases p with
    | nil => cases q <;> simp at h1 ⊢
    | cons b p =>
      cases q with
      | nil => simp at h1
      | cons c q =>
        simp only [List.zipWith_cons_cons, List.sum_cons, ih p q (by simpa using h1)]
        ring

theorem dot_eq_range (s q : List Rat) (d : Nat) (hs : s.length = d) (hq : q.length = d) :
    Spec.dot s q = ((List.range d).map (fun a => s.getD a 0 * q.getD a 0)).sum := by
  unfold Spec.dot
  induction d generalizing s q with
  | zero => cases s <;> simp at hs ⊢
  | succ d ih =>
    cases s with
    | nil => simp at hs
    | cons a s =>
      cases q with
      | nil => simp at hq
      | cons b q =>
        rw [List.range_succ_eq_map]
        simp only [List.zipWith_cons_cons, List.sum_cons, List.map_cons, List.getD_cons_zero, List.map_map]
        rw [ih s q (by simpa using hs) (by simpa using hq)]
        congr 1

theorem inShape_length (sh idx : List Nat) (h : InShape sh idx) : idx.length = sh.length := by
  induction sh generalizing idx with
  | nil => cases idx <;> simp_all [InShape]
  | cons n sh ih =>
    cases idx with
    | nil => simp [InShape] at h
    | cons i idx => simp [ih idx h.2]

theorem inShape_of_mem_indices (sh idx : List Nat) (h : idx ∈ indices sh) : InShape sh idx := by
  induction sh generalizing idx with
  | nil => simp [indices] at h; subst h; trivial
  | cons n sh ih =>
    simp only [indices, List.mem_flatMap, List.mem_range, List.mem_map] at h
    obtain ⟨i, hi, js, hjs, rfl⟩ := h
    exact ⟨hi, ih js hjs⟩

theorem sum_swap {β γ} (l : List β) (m : List γ) (f : β → γ → Rat) :
    (l.map (fun a => (m.map (f a)).sum)).sum = (m.map (fun b => (l.map (fun a => f a b)).sum)).sum := by
  induction l with
  | nil => simp
  | cons a l ih =>
    simp only [List.map_cons, List.sum_cons, ih]
    rw [← ratsum_map_add]

/-- Response of a kernel to a ramp away from the border. -/
theorem ramp_response (w : NDArray Int) (hw : w.toList.sum = 0) (hk : OddShape w.shape) (sh p : List Nat)
    (hin : Spec.Interior sh w.shape p) (c0 : Rat) (s : List Rat) (hs : s.length = w.shape.length) :
    correlateAt w (Spec.ramp sh c0 s) p = Spec.dot s ((moments w).map (fun n : Int => (n : Rat))) := by
  have hlen : ∀ sh ksh p, Spec.Interior sh ksh p → p.length = ksh.length := by
    intro sh
    induction sh with
    | nil => intro ksh p h; cases ksh <;> cases p <;> simp_all [Spec.Interior]
    | cons n sh ih =>
      intro ksh p h
      cases ksh <;> cases p <;> simp_all [Spec.Interior]
      exact ih _ _ h.2.2
  have hp := hlen _ _ _ hin
  rw [correlateAt_eq]
  have h1 : ∀ o ∈ indices w.shape, (w.get o : Rat) * (Spec.ramp sh c0 s).get (readIndex w (Spec.ramp sh c0 s).shape p o) =
      (w.get o : Rat) * (c0 + Spec.dot s (p.map (fun n : Nat => (n : Rat)))) +
      ((List.range w.shape.length).map (fun a => s.getD a 0 *
        ((w.get o * ((o.getD a 0 : Int) - ((w.shape.getD a 0 / 2 : Nat) : Int)) : Int) : Rat))).sum := by
    intro o ho
    have hsh := inShape_of_mem_indices _ _ ho
    have hol := inShape_length _ _ hsh
    obtain ⟨i, hi, he⟩ := interior_read sh w.shape p o hin hsh hk
    have : readIndex w (Spec.ramp sh c0 s).shape p o = i := by
      unfold readIndex; rw [show (Spec.ramp sh c0 s).shape = sh from rfl, hi]; rfl
    rw [this]
    show (w.get o : Rat) * (c0 + Spec.dot s (i.map _)) = _
    rw [he, dot_add _ _ _ (by simp [hp, hol])]
    rw [← add_assoc, mul_add]
    congr 1
    rw [dot_eq_range s (List.zipWith (fun (a m : Nat) => (a : Rat) - ((m / 2 : Nat) : Rat)) o w.shape)
      w.shape.length hs (by simp [hol]), mul_comm, ← ratsum_mul]
    congr 1
    apply List.map_congr_left
    intro a ha
    have ha := List.mem_range.1 ha
    have e : (List.zipWith (fun (a m : Nat) => (a : Rat) - ((m / 2 : Nat) : Rat)) o w.shape).getD a 0 =
        ((o.getD a 0 : Nat) : Rat) - ((w.shape.getD a 0 / 2 : Nat) : Rat) := by
      simp [List.getD, List.getElem?_zipWith, List.getElem?_eq_getElem ha,
        List.getElem?_eq_getElem (show a < o.length by omega)]
    rw [e]
    generalize w.shape.getD a 0 / 2 = hh
    push_cast
    ring
  rw [List.map_congr_left h1, ratsum_map_add, ratsum_mul, intsum_cast]
  have : ((indices w.shape).map w.get).sum = 0 := hw
  rw [this, Int.cast_zero, zero_mul, zero_add, sum_swap]
  rw [dot_eq_range s _ w.shape.length hs (by simp [moments])]
  congr 1
  apply List.map_congr_left
  intro a ha
  have ha := List.mem_range.1 ha
  have e : ((moments w).map (fun n : Int => (n : Rat))).getD a 0 = (moment w a : Rat) := by
    simp [moments, List.getD, List.getElem?_eq_getElem (show a < (List.range w.shape.length).length by simpa using ha)]
  rw [e]
  have := ratsum_mul (indices w.shape) (fun o => ((w.get o * ((o.getD a 0 : Int) - ((w.shape.getD a 0 / 2 : Nat) : Int)) : Int) : Rat)) (s.getD a 0)
  rw [intsum_cast] at this
  unfold moment
  rw [mul_comm, ← this]
  congr 1
  apply List.map_congr_left
  intro o _
  ring

/-- What the name of a kernel promises: away from the border its response to a ramp is a
combination of the slopes in which the axes of the name have the same weight up to sign and the other
axes have weight zero. -/
def Spec.Directional (w : NDArray Int) (axes : List Nat) : Prop :=
  ∃ (m : Rat) (coef : List Rat), 0 < m ∧ coef.length = w.shape.length ∧
    (∀ a, a < w.shape.length → |coef.getD a 0| = if a ∈ axes then m else 0) ∧
    ∀ (sh p : List Nat) (c0 : Rat) (s : List Rat), s.length = w.shape.length → Spec.Interior sh w.shape p →
      correlateAt w (Spec.ramp sh c0 s) p = Spec.dot s coef

/-- The kernels with the axes of their names (axis 0 is x, 1 is y, 2 is z in volumes; in planes axis
1 is x and axis 0 is y). -/
def namedKernels : List (NDArray Int × List Nat) :=
  [(gsmKernelZ, [2]), (gsmKernelY, [1]), (gsmKernelX, [0]), (gsmKernelYz1, [1, 2]), (gsmKernelYz2, [1, 2]),
   (gsmKernelXz1, [0, 2]), (gsmKernelXz2, [0, 2]), (gsmKernelXy1, [0, 1]), (gsmKernelXy2, [0, 1]),
   (sobelKernelZ, [2]), (sobelKernelY, [1]), (sobelKernelX, [0]), (prewittKernelZ, [2]), (prewittKernelY, [1]),
   (prewittKernelX, [0]), (scharrKernelZ, [2]), (scharrKernelY, [1]), (scharrKernelX, [0]),
   (prewittKernel2dX, [1]), (prewittKernel2dY, [0]), (sobelKernel2dX, [1]), (sobelKernel2dY, [0]),
   (scharrKernel2dX, [1]), (scharrKernel2dY, [0]), (gsmKernel2dY, [0]), (gsmKernel2dX, [1])]

theorem named_moments : ∀ k ∈ namedKernels, ∃ m ∈ (moments k.1).map Int.natAbs, 0 < m ∧
    k.1.toList.sum = 0 ∧ (∀ n ∈ k.1.shape, n % 2 = 1) ∧
    ∀ a ∈ List.range k.1.shape.length, ((moments k.1).getD a 0).natAbs = if a ∈ k.2 then m else 0 := by
  decide +kernel

/-- **C82** for all kernels except the planar diagonal ones and the four spatial diagonal ones. -/
theorem C82_directions_partial : ∀ k ∈ namedKernels, Spec.Directional k.1 k.2 := by
  intro k hk
  obtain ⟨m, -, hm, hsum, hodd, hmom⟩ := named_moments k hk
  refine ⟨m, (moments k.1).map (fun n : Int => (n : Rat)), by exact_mod_cast hm, by simp [moments], ?_, ?_⟩
  · intro a ha
    have h := hmom a (List.mem_range.2 ha)
    have e : ((moments k.1).map (fun n : Int => (n : Rat))).getD a 0 = (((moments k.1).getD a 0 : Int) : Rat) := by
      have hl : a < (moments k.1).length := by simpa [moments] using ha
      simp [List.getD, List.getElem?_eq_getElem hl]
    rw [e]
    generalize (moments k.1).getD a 0 = z at h ⊢
    have : |(z : Rat)| = ((z.natAbs : Nat) : Rat) := by
      rw [Nat.cast_natAbs, Int.cast_abs]
    rw [this, h]
    split <;> simp
  · intro sh p c0 s hs hin
    exact ramp_response k.1 hsum hodd sh p hin c0 s hs

example : Spec.Directional sobelKernel2dX [1] := C82_directions_partial (sobelKernel2dX, [1]) (by simp [namedKernels])

/-- **C82.** What the diagonal kernels of planes and volumes respond to instead. -/
theorem C82_actual (sh p : List Nat) (c0 : Rat) :
    (∀ s0 s1, Spec.Interior sh [5, 5] p → correlateAt gsmKernel2dXy (Spec.ramp sh c0 [s0, s1]) p = 26 * s0 - 6 * s1) ∧
    (∀ s0 s1, Spec.Interior sh [5, 5] p → correlateAt gsmKernel2dYx (Spec.ramp sh c0 [s0, s1]) p = 26 * s0 + 6 * s1) ∧
    (∀ s0 s1 s2, Spec.Interior sh [5, 5, 5] p →
      correlateAt gsmKernelXyz1 (Spec.ramp sh c0 [s0, s1, s2]) p = 40 * s1 - 40 * s2 ∧
      correlateAt gsmKernelXyz2 (Spec.ramp sh c0 [s0, s1, s2]) p = 40 * s1 + 40 * s2 ∧
      correlateAt gsmKernelXyz3 (Spec.ramp sh c0 [s0, s1, s2]) p = -40 * s0 - 40 * s2 ∧
      correlateAt gsmKernelXyz4 (Spec.ramp sh c0 [s0, s1, s2]) p = 40 * s0 + 40 * s1) := by
  have h : ∀ (w : NDArray Int) (q : List Nat) (l : List Int), w.toList.sum = 0 ∧ w.shape = q ∧ moments w = l →
      (∀ n ∈ q, n % 2 = 1) → ∀ s, s.length = q.length → Spec.Interior sh q p →
      correlateAt w (Spec.ramp sh c0 s) p = Spec.dot s (l.map (fun n : Int => (n : Rat))) := by
    rintro w q l ⟨h1, rfl, rfl⟩ ho s hs hin
    exact ramp_response w h1 ho sh p hin c0 s hs
  have o2 : ∀ n ∈ ([5, 5] : List Nat), n % 2 = 1 := by decide
  have o3 : ∀ n ∈ ([5, 5, 5] : List Nat), n % 2 = 1 := by decide
  refine ⟨?_, ?_, ?_⟩
  · intro s0 s1 hin
    rw [h gsmKernel2dXy [5, 5] [26, -6] (by decide +kernel) o2 _ rfl hin]
    simp [Spec.dot]; ring
  · intro s0 s1 hin
    rw [h gsmKernel2dYx [5, 5] [26, 6] (by decide +kernel) o2 _ rfl hin]
    simp [Spec.dot]; ring
  · intro s0 s1 s2 hin
    refine ⟨?_, ?_, ?_, ?_⟩
    · rw [h gsmKernelXyz1 [5, 5, 5] [0, 40, -40] (by decide +kernel) o3 _ rfl hin]
      simp [Spec.dot]; ring
    · rw [h gsmKernelXyz2 [5, 5, 5] [0, 40, 40] (by decide +kernel) o3 _ rfl hin]
      simp [Spec.dot]; ring
    · rw [h gsmKernelXyz3 [5, 5, 5] [-40, 0, -40] (by decide +kernel) o3 _ rfl hin]
      simp [Spec.dot]; ring
    · rw [h gsmKernelXyz4 [5, 5, 5] [40, 40, 0] (by decide +kernel) o3 _ rfl hin]
      simp [Spec.dot]; ring

/-- **C82, refuted** for the diagonal kernels of planes: both respond more than four times as
strongly to changes along the first axis; and for `gsm_kernel_xyz1`, which does not respond to the
first axis at all. -/
theorem C82_refuted : ¬ Spec.Directional gsmKernel2dXy [0, 1] ∧ ¬ Spec.Directional gsmKernel2dYx [0, 1] ∧
    ¬ Spec.Directional gsmKernelXyz1 [0, 1, 2] := by
  have hin : Spec.Interior [5, 5] [5, 5] [2, 2] := by simp [Spec.Interior]
  have hin3 : Spec.Interior [5, 5, 5] [5, 5, 5] [2, 2, 2] := by simp [Spec.Interior]
  refine ⟨?_, ?_, ?_⟩
  · rintro ⟨m, coef, hm, hl, hc, h⟩
    have a0 := h [5, 5] [2, 2] 0 [1, 0] rfl hin
    have a1 := h [5, 5] [2, 2] 0 [0, 1] rfl hin
    rw [(C82_actual _ _ _).1 _ _ hin] at a0 a1
    have hl2 : coef.length = 2 := hl
    match coef, hl2 with
    | [u, v], _ =>
      have h0 := hc 0 (by decide)
      have h1 := hc 1 (by decide)
      simp [Spec.dot] at a0 a1 h0 h1
      rw [← a0] at h0; rw [← a1] at h1
      norm_num at h0 h1
      rw [← h0] at h1; norm_num at h1
  · rintro ⟨m, coef, hm, hl, hc, h⟩
    have a0 := h [5, 5] [2, 2] 0 [1, 0] rfl hin
    have a1 := h [5, 5] [2, 2] 0 [0, 1] rfl hin
    rw [(C82_actual _ _ _).2.1 _ _ hin] at a0 a1
    have hl2 : coef.length = 2 := hl
    match coef, hl2 with
    | [u, v], _ =>
      have h0 := hc 0 (by decide)
      have h1 := hc 1 (by decide)
      simp [Spec.dot] at a0 a1 h0 h1
      rw [← a0] at h0; rw [← a1] at h1
      norm_num at h0 h1
      rw [← h0] at h1; norm_num at h1
  · rintro ⟨m, coef, hm, hl, hc, h⟩
    have a0 := h [5, 5, 5] [2, 2, 2] 0 [1, 0, 0] rfl hin3
    rw [((C82_actual _ _ _).2.2 _ _ _ hin3).1] at a0
    have hl2 : coef.length = 3 := hl
    match coef, hl2 with
    | [u, v, z], _ =>
      have h0 := hc 0 (by decide)
      simp [Spec.dot] at a0 h0
      rw [← a0] at h0
      simp at h0
      exact absurd h0 (ne_of_lt hm)

/-! ### Luminance -/

/-- **C37** for floating point images: symmetric, 1 exactly for equal pixels, and strictly
decreasing with the distance of the pixels. -/
theorem C37_float_partial (dr a b c d : Rat) (hdr : dr ≠ 0) :
    lumSim floatOps dr a b = 1 - ((a - b) / dr) ^ 2 ∧ lumSim floatOps dr a b = lumSim floatOps dr b a ∧
      (lumSim floatOps dr a b = 1 ↔ a = b) ∧
      (|a - b| < |c - d| → lumSim floatOps dr c d < lumSim floatOps dr a b) := by
  have hsq : 0 < dr ^ 2 := by positivity
  refine ⟨rfl, ?_, ?_, ?_⟩
  · show 1 - ((a - b) / dr) ^ 2 = 1 - ((b - a) / dr) ^ 2
    ring
  · show 1 - ((a - b) / dr) ^ 2 = 1 ↔ _
    constructor
    · intro h
      have : ((a - b) / dr) ^ 2 = 0 := by linarith
      have := pow_eq_zero_iff (two_ne_zero) |>.1 this
      rw [div_eq_zero_iff] at this
      rcases this with h | h
      · linarith
      · exact absurd h hdr
    · rintro rfl; simp
  · intro h
    show 1 - ((c - d) / dr) ^ 2 < 1 - ((a - b) / dr) ^ 2
    have : (a - b) ^ 2 < (c - d) ^ 2 := sq_lt_sq.2 h
    rw [div_pow, div_pow]
    have := (div_lt_div_iff_of_pos_right hsq).2 this
    linarith

example : lumSim floatOps 255 100 90 < lumSim floatOps 255 100 101 :=
  (C37_float_partial 255 100 101 100 90 (by norm_num)).2.2.2 (by norm_num)

theorem floor_natCast' (n : Int) : (n : Rat).floor = n := by
  simp

/-- **C37** for unsigned images of `n` bits: with pixel values `a`, `b` the difference is taken modulo
`2^n`, so the formula is the documented one if the reference is at least as bright, and uses the
complement otherwise. -/
theorem C37_unsigned_actual (n : Nat) (dr : Rat) (a b : Nat) (ha : a < 2 ^ n) (hb : b < 2 ^ n) :
    lumSim (unsignedOps n) dr a b =
      if b ≤ a then 1 - (((a : Rat) - b) / dr) ^ 2 else 1 - ((2 ^ n - ((b : Rat) - a)) / dr) ^ 2 := by
  unfold lumSim unsignedOps
  have e : ((a : Rat) - (b : Rat)) = (((a : Int) - (b : Int) : Int) : Rat) := by push_cast; ring
  simp only [e, floor_natCast']
  have hp : ((2 ^ n : Nat) : Int) = (2 : Int) ^ n := by push_cast; ring
  split
  · rename_i h
    have : ((a : Int) - b) % (2 : Int) ^ n = (a : Int) - b := by
      rw [← hp]; apply Int.emod_eq_of_lt <;> omega
    rw [this]
  · rename_i h
    have : ((a : Int) - b) % (2 : Int) ^ n = 2 ^ n - ((b : Int) - a) := by
      rw [← hp, ← Int.add_emod_right, Int.emod_eq_of_lt] <;> omega
    rw [this]
    push_cast
    ring_nf

/-- **C37, refuted** for unsigned images of every size: one gray value darker and one gray value
brighter are rated differently, and one gray value of difference can be rated as the largest
possible one. -/
theorem C37_refuted (n : Nat) (hn : 1 < n) : let dr : Rat := 2 ^ n - 1
    lumSim (unsignedOps n) dr ((0 : Nat) : Rat) ((1 : Nat) : Rat) = 0 ∧
      lumSim (unsignedOps n) dr ((1 : Nat) : Rat) ((0 : Nat) : Rat) ≠ 0 := by
  intro dr
  have h2 : 4 ≤ 2 ^ n := by
    calc 4 = 2 ^ 2 := rfl
      _ ≤ 2 ^ n := Nat.pow_le_pow_right (by omega) hn
  have h2q : (4 : Rat) ≤ 2 ^ n := by exact_mod_cast h2
  have hd : dr ≠ 0 := by show (2 : Rat) ^ n - 1 ≠ 0; linarith
  constructor
  · rw [C37_unsigned_actual n dr 0 1 (by omega) (by omega), if_neg (by omega)]
    have : (2 : Rat) ^ n - (((1 : Nat) : Rat) - ((0 : Nat) : Rat)) = dr := by
      show (2 : Rat) ^ n - _ = 2 ^ n - 1; simp
    rw [this, div_self hd]; norm_num
  · rw [C37_unsigned_actual n dr 1 0 (by omega) (by omega), if_pos (by omega)]
    have h3 : (3 : Rat) ≤ dr := by show (3 : Rat) ≤ 2 ^ n - 1; linarith
    have : (((1 : Nat) : Rat) - ((0 : Nat) : Rat)) / dr ≤ 1 / 3 := by
      rw [div_le_div_iff₀ (by linarith) (by norm_num)]; simp; linarith
    have h0 : 0 ≤ (((1 : Nat) : Rat) - ((0 : Nat) : Rat)) / dr := by
      apply div_nonneg
      · simp
      · linarith
    nlinarith

example : lumSim floatOps 255 100 151 = 1 - (1 / 5) ^ 2 ∧ lumSim (unsignedOps 8) 255 100 151 = 1 - (205 / 255) ^ 2 := by
  decide +kernel

/-! ### Identical images -/

theorem ratAbs_eq (q : Rat) : ratAbs q = |q| := by
  unfold ratAbs
  split
  · rw [abs_of_neg (by assumption)]
  · rw [abs_of_nonneg (by linarith)]

theorem strongest_mem (g : NDArray Rat) (l : List (NDArray Rat)) : strongest g l ∈ g :: l := by
  induction l generalizing g with
  | nil => simp [strongest]
  | cons h l ih =>
    unfold strongest
    split
    · exact List.mem_cons_of_mem _ (ih h)
    · have := ih g
      simp only [List.mem_cons] at this ⊢
      rcases this with h | h
      · exact Or.inl h
      · exact Or.inr (Or.inr h)

theorem strongest_max (g : NDArray Rat) (l : List (NDArray Rat)) :
    ∀ h ∈ g :: l, meanAbs h ≤ meanAbs (strongest g l) := by
  induction l generalizing g with
  | nil => intro h hh; simp at hh; subst hh; exact le_refl _
  | cons a l ih =>
    intro h hh
    unfold strongest
    simp only [List.mem_cons] at hh
    split
    · rename_i hlt
      rcases hh with rfl | rfl | hh
      · exact le_trans (le_of_lt hlt) (ih a a (by simp))
      · exact ih h h (by simp)
      · exact ih a h (by simp [hh])
    · rename_i hlt
      rcases hh with rfl | rfl | hh
      · exact ih h h (by simp)
      · exact le_trans (not_lt.1 hlt) (ih g g (by simp))
      · exact ih g h (by simp [hh])

theorem strongest_self (g : NDArray Rat) : strongest g [g] = g := by
  simp [strongest]

theorem largest_mem (a : Rat) (l : List Rat) : largest a l ∈ a :: l := by
  induction l generalizing a with
  | nil => simp [largest]
  | cons b l ih =>
    unfold largest
    split
    · exact List.mem_cons_of_mem _ (ih b)
    · have := ih a
      simp only [List.mem_cons] at this ⊢
      rcases this with h | h
      · exact Or.inl h
      · exact Or.inr (Or.inr h)

theorem largest_le (a : Rat) (l : List Rat) : ∀ b ∈ a :: l, b ≤ largest a l := by
  induction l generalizing a with
  | nil => intro h hh; simp at hh; subst hh; exact le_refl _
  | cons c l ih =>
    intro h hh
    unfold largest
    simp only [List.mem_cons] at hh
    split
    · rename_i hlt
      rcases hh with rfl | rfl | hh
      · exact le_trans (le_of_lt hlt) (ih c c (by simp))
      · exact ih h h (by simp)
      · exact ih c h (by simp [hh])
    · rename_i hlt
      rcases hh with rfl | rfl | hh
      · exact ih h h (by simp)
      · exact le_trans (not_lt.1 hlt) (ih a a (by simp))
      · exact ih a h (by simp [hh])

/-- The gradient image that is used for an image: of all kernels the one with the largest mean
absolute response. -/
def usedGradient (ops : PixelOps) (x : NDArray Rat) : NDArray Rat :=
  if x.ndim = 3 then strongest (gradient ops gsmKernelX x) (kernels3d.tail.map (fun w => gradient ops w x))
  else strongest (gradient ops gsmKernel2dX x) (kernels2d.tail.map (fun w => gradient ops w x))

theorem usedGradient_shape (ops : PixelOps) (x : NDArray Rat) : (usedGradient ops x).shape = x.shape := by
  unfold usedGradient
  split
  all_goals
    rename_i h
    clear h
  · have := strongest_mem (gradient ops gsmKernelX x) (kernels3d.tail.map (fun w => gradient ops w x))
    simp only [List.mem_cons, List.mem_map] at this
    rcases this with h | ⟨w, -, h⟩
    · rw [h]; rfl
    · rw [← h]; rfl
  · have := strongest_mem (gradient ops gsmKernel2dX x) (kernels2d.tail.map (fun w => gradient ops w x))
    simp only [List.mem_cons, List.mem_map] at this
    rcases this with h | ⟨w, -, h⟩
    · rw [h]; rfl
    · rw [← h]; rfl

/-- The score of an image with itself in terms of the used gradient. -/
theorem gsm_self (ops : PixelOps) (dr c p : Rat) (x : NDArray Rat) (hd : x.ndim = 2 ∨ x.ndim = 3)
    (r0 : Rat) (rs : List Rat) (hg : (usedGradient ops x).toList = r0 :: rs) :
    gradientSimilarity ops dr c p x x =
      if largest r0 rs = 0 then .error .notANumber
      else nanMean ((indices x.shape).map (fun i => quality ops p (c / largest r0 rs) dr
        ((usedGradient ops x).get i) ((usedGradient ops x).get i) ((usedGradient ops x).get i) (x.get i) (x.get i))) := by
  have hl : ∀ a, largest a [a] = a := by intro a; simp [largest]
  have key : ∀ w ws, usedGradient ops x = strongest (gradient ops w x) (ws.map (fun w => gradient ops w x)) →
      gsmWith ops dr c p x x w ws = if largest r0 rs = 0 then .error .notANumber
      else nanMean ((indices x.shape).map (fun i => quality ops p (c / largest r0 rs) dr
        ((usedGradient ops x).get i) ((usedGradient ops x).get i) ((usedGradient ops x).get i) (x.get i) (x.get i))) := by
    intro w ws hu
    unfold gsmWith
    simp only [← hu, hg, hl, strongest_self]
  unfold gradientSimilarity
  rcases hd with hd | hd
  · rw [if_neg (by omega), if_pos hd]
    apply key
    unfold usedGradient; rw [if_neg (by omega)]
  · rw [if_pos hd]
    apply key
    unfold usedGradient; rw [if_pos hd]

theorem quality_self (ops : PixelOps) (hs : ∀ a, ops.sub a a = 0) (p k dr g a : Rat) :
    quality ops p k dr g g g a a = if g = 0 ∨ 2 + k = 0 then .nan else .val 1 := by
  unfold quality
  by_cases hg : g = 0
  · simp [hg]
  · have hr : ratAbs (g - g) / g = 0 := by simp [ratAbs]
    simp only [hg, if_false, hr, false_or]
    have h1 : conDen k 0 = 2 + k := by unfold conDen; ring
    have h2 : conNum k 0 = 2 + k := by unfold conNum; ring
    rw [h1, h2]
    by_cases hk : 2 + k = 0
    · simp [hk]
    · rw [if_neg hk, if_neg hk, div_self hk]
      simp [combine, lumSim, hs]

/-- **C36.** Exact result for an image with itself: with `m` the largest value of the used gradient the
score is 1 if `m` is neither 0 nor `-c/2`, and not a number otherwise. Nothing else can happen.
Holds for planes and volumes and for every data type whose difference of equal values is zero. -/
theorem C36_identical_iff (ops : PixelOps) (hs : ∀ a, ops.sub a a = 0) (dr c p : Rat) (x : NDArray Rat)
    (hd : x.ndim = 2 ∨ x.ndim = 3) (m : Rat) (hm : m ∈ (usedGradient ops x).toList)
    (hmax : ∀ v ∈ (usedGradient ops x).toList, v ≤ m) :
    gradientSimilarity ops dr c p x x = if m = 0 ∨ 2 + c / m = 0 then .error .notANumber else .ok 1 := by
  cases hg : (usedGradient ops x).toList with
  | nil => rw [hg] at hm; cases hm
  | cons r0 rs =>
    rw [gsm_self ops dr c p x hd r0 rs hg]
    have hlm : largest r0 rs = m := by
      rw [hg] at hm hmax
      exact le_antisymm (hmax _ (largest_mem r0 rs)) (largest_le r0 rs m hm)
    rw [hlm]
    by_cases h0 : m = 0
    · simp [h0]
    · simp only [h0, if_false, false_or, quality_self ops hs]
      by_cases hk : 2 + c / m = 0
      · simp only [hk, or_true, if_true]
        unfold nanMean
        rw [if_neg]
        · simp
        · intro h
          obtain ⟨i, -, hi⟩ := List.mem_map.1 h
          cases hi
      · simp only [hk, or_false, if_false]
        unfold nanMean
        rw [if_neg]
        · have hv : ∀ v ∈ ((indices x.shape).map (fun i => if (usedGradient ops x).get i = 0 then Quality.nan else .val 1)).filterMap
              (fun | .val q => some q | _ => none), v = 1 := by
            intro v hv
            simp only [List.mem_filterMap, List.mem_map] at hv
            obtain ⟨q, ⟨i, -, rfl⟩, hq⟩ := hv
            split at hq
            · rename_i h
              split at h
              · cases h
              · cases h; cases hq; rfl
            · cases hq
          have hne : ((indices x.shape).map (fun i => if (usedGradient ops x).get i = 0 then Quality.nan else .val 1)).filterMap
              (fun | .val q => some q | _ => none) ≠ [] := by
            intro h
            have hm' := hm
            unfold NDArray.toList at hm'
            rw [usedGradient_shape] at hm'
            obtain ⟨i, hi, hie⟩ := List.mem_map.1 hm'
            have : (1 : Rat) ∈ ((indices x.shape).map (fun i => if (usedGradient ops x).get i = 0 then Quality.nan else .val 1)).filterMap
              (fun | .val q => some q | _ => none) := by
              refine List.mem_filterMap.2 ⟨.val 1, List.mem_map.2 ⟨i, hi, ?_⟩, rfl⟩
              rw [if_neg (by rw [hie]; exact h0)]
            rw [h] at this; cases this
          generalize hL : ((indices x.shape).map (fun i => if (usedGradient ops x).get i = 0 then Quality.nan else .val 1)).filterMap
              (fun | .val q => some q | _ => none) = L at hv hne
          simp only [hne, if_false]
          have hrep : L = List.replicate L.length 1 := List.eq_replicate_of_mem hv
          have hlen : (L.length : Rat) ≠ 0 := by
            simpa using hne
          rw [hrep]
          simp only [List.sum_replicate, List.length_replicate, nsmul_eq_mul, mul_one]
          rw [div_self hlen]
        · intro h
          obtain ⟨i, -, hi⟩ := List.mem_map.1 h
          split at hi <;> cases hi

theorem mem_indices_of_inShape (sh idx : List Nat) (h : InShape sh idx) : idx ∈ indices sh := by
  induction sh generalizing idx with
  | nil => cases idx <;> simp_all [InShape, indices]
  | cons n sh ih =>
    cases idx with
    | nil => simp [InShape] at h
    | cons i idx =>
      simp only [indices, List.mem_flatMap, List.mem_range, List.mem_map]
      exact ⟨i, h.1, idx, ih idx h.2, rfl⟩

theorem exists_max (l : List Rat) (h : l ≠ []) : ∃ m ∈ l, ∀ v ∈ l, v ≤ m := by
  cases l with
  | nil => exact absurd rfl h
  | cons a l => exact ⟨_, largest_mem a l, largest_le a l⟩

theorem kernels3d_sub (w : NDArray Int) (hw : w ∈ gsmKernelX :: kernels3d.tail) : w ∈ allKernels := by
  simp only [kernels3d, List.tail_cons, List.mem_cons, List.not_mem_nil, or_false] at hw
  simp only [allKernels, List.mem_cons]
  rcases hw with rfl | rfl | rfl | rfl | rfl | rfl | rfl | rfl | rfl | rfl | rfl | rfl | rfl <;>
    simp only [true_or, or_true]

theorem kernels2d_sub (w : NDArray Int) (hw : w ∈ gsmKernel2dX :: kernels2d.tail) : w ∈ allKernels := by
  simp only [kernels2d, List.tail_cons, List.mem_cons, List.not_mem_nil, or_false] at hw
  simp only [allKernels, List.mem_cons]
  rcases hw with rfl | rfl | rfl | rfl <;> simp only [true_or, or_true]

/-- **C36.** A flat image (of at least one pixel) has no score. -/
theorem C36_flat (dr c p v : Rat) (sh : List Nat) (hd : sh.length = 2 ∨ sh.length = 3) (hn : indices sh ≠ []) :
    gradientSimilarity floatOps dr c p ⟨sh, fun _ => v⟩ ⟨sh, fun _ => v⟩ = .error .notANumber := by
  have hall : ∀ q ∈ (usedGradient floatOps ⟨sh, fun _ => v⟩).toList, q = 0 := by
    have key : ∀ g : NDArray Rat, (∃ w ∈ allKernels, g = gradient floatOps w ⟨sh, fun _ => v⟩) →
        ∀ q ∈ g.toList, q = 0 := by
      rintro g ⟨w, hw, rfl⟩ q hq
      obtain ⟨i, -, rfl⟩ := List.mem_map.1 hq
      exact C38_constant w hw sh v i
    have pick : ∀ w ws, (∀ u ∈ w :: ws, u ∈ allKernels) → ∃ u ∈ allKernels,
        strongest (gradient floatOps w ⟨sh, fun _ => v⟩) (ws.map (fun w => gradient floatOps w ⟨sh, fun _ => v⟩)) =
          gradient floatOps u ⟨sh, fun _ => v⟩ := by
      intro w ws hsub
      have := strongest_mem (gradient floatOps w ⟨sh, fun _ => v⟩)
        (ws.map (fun w => gradient floatOps w ⟨sh, fun _ => v⟩))
      simp only [List.mem_cons, List.mem_map] at this
      rcases this with h | ⟨u, hu, h⟩
      · exact ⟨w, hsub w (by simp), h⟩
      · exact ⟨u, hsub u (by simp [hu]), h.symm⟩
    apply key
    unfold usedGradient
    split
    · exact pick _ _ kernels3d_sub
    · exact pick _ _ kernels2d_sub
  have hne : (usedGradient floatOps ⟨sh, fun _ => v⟩).toList ≠ [] := by
    unfold NDArray.toList
    rw [usedGradient_shape]
    simpa using hn
  obtain ⟨m, hm, hmax⟩ := exists_max _ hne
  rw [C36_identical_iff floatOps (fun a => sub_self a) dr c p ⟨sh, fun _ => v⟩ hd m hm hmax, if_pos (Or.inl (hall m hm))]

example : gradientSimilarity floatOps 255 200 (1 / 10) ⟨[5, 5], fun _ => 100⟩ ⟨[5, 5], fun _ => 100⟩ = .error .notANumber :=
  C36_flat _ _ _ _ _ (.inl rfl) (by decide)

/-- Vertical smoothing with the weights 1, 3, 8, 3, 1 and reflecting borders is injective. -/
theorem smoothing_injective (n : Nat) (D : Nat → Rat) (ρ : Int → Nat)
    (hρ : ∀ i : Nat, i < n → ρ i = i) (hρr : ∀ q, ρ q < n) (hρn : ρ n = n - 1)
    (h : ∀ i : Nat, i < n → D (ρ ((i : Int) - 2)) + 3 * D (ρ ((i : Int) - 1)) + 8 * D (ρ i) + 3 * D (ρ ((i : Int) + 1)) +
      D (ρ ((i : Int) + 2)) = 0) : ∀ i, i < n → D i = 0 := by
  intro i0 hi0
  obtain ⟨i, hi, hmax⟩ : ∃ i, i < n ∧ ∀ j, j < n → |D j| ≤ |D i| := by
    have hne : (List.range n).map (fun j => |D j|) ≠ [] := by
      simp; omega
    obtain ⟨m, hm, hmx⟩ := exists_max _ hne
    obtain ⟨i, hi, rfl⟩ := List.mem_map.1 hm
    exact ⟨i, List.mem_range.1 hi, fun j hj => hmx _ (List.mem_map.2 ⟨j, List.mem_range.2 hj, rfl⟩)⟩
  suffices hz : |D i| = 0 by
    have := hmax i0 hi0
    rw [hz] at this
    exact abs_nonpos_iff.1 this
  have bd : ∀ q, -|D i| ≤ D (ρ q) ∧ D (ρ q) ≤ |D i| := fun q => abs_le.1 (hmax _ (hρr q))
  -- a point of maximal modulus forces the opposite value at its neighbours
  have key : ∀ j : Nat, j < n → |D j| = |D i| → D (ρ ((j : Int) + 1)) = - D j ∧ D (ρ ((j : Int) + 2)) = - D j ∧
      D (ρ ((j : Int) - 1)) = - D j := by
    intro j hj hjm
    have e := h j hj
    rw [hρ j hj] at e
    obtain ⟨a1, a2⟩ := bd ((j : Int) - 2)
    obtain ⟨b1, b2⟩ := bd ((j : Int) - 1)
    obtain ⟨c1, c2⟩ := bd ((j : Int) + 1)
    obtain ⟨d1, d2⟩ := bd ((j : Int) + 2)
    rcases abs_cases (D j) with ⟨hh, _⟩ | ⟨hh, _⟩
    · rw [hh] at hjm
      refine ⟨?_, ?_, ?_⟩ <;> linarith
    · rw [hh] at hjm
      refine ⟨?_, ?_, ?_⟩ <;> linarith
  obtain ⟨k1, k2, k3⟩ := key i hi rfl
  by_cases hl : i + 1 < n
  · have e1 : ρ ((i : Int) + 1) = i + 1 := by
      have := hρ (i + 1) hl; push_cast at this; exact this
    rw [e1] at k1
    have hm1 : |D (i + 1)| = |D i| := by rw [k1, abs_neg]
    obtain ⟨l1, -, -⟩ := key (i + 1) hl hm1
    have : ((i + 1 : Nat) : Int) + 1 = (i : Int) + 2 := by push_cast; ring
    rw [this, k2, k1] at l1
    have : D i = 0 := by linarith
    rw [this, abs_zero]
  · have : n = i + 1 := by omega
    have e1 : ρ ((i : Int) + 1) = i := by
      have h1 := hρn; rw [this] at h1; push_cast at h1; simpa using h1
    rw [e1] at k1
    have : D i = 0 := by linarith
    rw [this, abs_zero]

/-- Index read by the mode `reflect`. -/
def reflectIndex (n : Nat) (i : Int) : Nat := (extendIndex .reflect n i).getD 0

theorem extendIndex_reflect (n : Nat) (i : Int) : extendIndex .reflect n i = some (reflectIndex n i) := by
  unfold reflectIndex extendIndex
  split <;> rfl

theorem reflectIndex_inside (n i : Nat) (h : i < n) : reflectIndex n i = i := by
  unfold reflectIndex extendIndex
  rw [if_pos (by omega)]; simp

theorem reflectIndex_lt (n : Nat) (hn : 0 < n) (q : Int) : reflectIndex n q < n := by
  unfold reflectIndex extendIndex
  have h0 := Int.emod_nonneg q (show (2 * (n : Int)) ≠ 0 by omega)
  have h1 := Int.emod_lt_of_pos q (show 0 < 2 * (n : Int) by omega)
  split
  · simp only [Option.getD_some]; omega
  · simp only [Option.getD_some]
    split <;> omega

theorem reflectIndex_end (n : Nat) (hn : 0 < n) : reflectIndex n n = n - 1 := by
  unfold reflectIndex extendIndex
  rw [if_neg (by omega)]
  have : (n : Int) % (2 * n) = n := Int.emod_eq_of_lt (by omega) (by omega)
  simp only [this, Option.getD_some]
  rw [if_neg (by omega)]; omega

theorem reflectIndex_before (n : Nat) (hn : 0 < n) : reflectIndex n (-1) = 0 := by
  unfold reflectIndex extendIndex
  rw [if_neg (by omega)]
  have : (-1 : Int) % (2 * n) = 2 * n - 1 := by
    rw [← Int.add_emod_right]; apply Int.emod_eq_of_lt <;> omega
  simp only [this, Option.getD_some]
  rw [if_neg (by omega)]; omega

theorem correlate_2d (w : NDArray Int) (hw : w.shape = [5, 5]) (x : NDArray Rat) (n0 n1 : Nat)
    (hx : x.shape = [n0, n1]) (i j : Nat) :
    correlateAt w x [i, j] = ((List.range 5).flatMap (fun a => (List.range 5).map (fun b =>
      (w.get [a, b] : Rat) * x.get [reflectIndex n0 ((i : Int) + a - 2), reflectIndex n1 ((j : Int) + b - 2)]))).sum := by
  unfold correlateAt
  rw [hw, hx]
  simp only [indices, List.map_flatMap, List.map_map, List.map_cons, List.map_nil, List.flatMap_map,
    List.flatMap_singleton, kernelPosition, extendIndices, extendIndex_reflect, Nat.reduceDiv]
  congr 2

/-- If the horizontal and the vertical kernel have no response, the image is flat. -/
theorem flat_of_no_response (x : NDArray Rat) (n0 n1 : Nat) (hx : x.shape = [n0, n1]) (h0 : 0 < n0) (h1 : 0 < n1)
    (hX : ∀ i j, i < n0 → j < n1 → correlateAt gsmKernel2dX x [i, j] = 0)
    (hY : ∀ i j, i < n0 → j < n1 → correlateAt gsmKernel2dY x [i, j] = 0) :
    ∀ i j, i < n0 → j < n1 → x.get [i, j] = x.get [0, 0] := by
  have stepX : ∀ i j, i < n0 → j < n1 →
      x.get [i, reflectIndex n1 ((j : Int) + 1)] = x.get [i, reflectIndex n1 ((j : Int) - 1)] := by
    intro i j hi hj
    have := smoothing_injective n0
      (fun i => x.get [i, reflectIndex n1 ((j : Int) + 1)] - x.get [i, reflectIndex n1 ((j : Int) - 1)])
      (reflectIndex n0) (reflectIndex_inside n0) (reflectIndex_lt n0 h0) (reflectIndex_end n0 h0) (by
        intro i hi
        have := hX i j hi hj
        rw [correlate_2d _ rfl x n0 n1 hx] at this
        simp [List.range_succ, gsmKernel2dX, square] at this
        ring_nf at this ⊢
        exact this) i hi
    linarith
  have stepY : ∀ i j, i < n0 → j < n1 →
      x.get [reflectIndex n0 ((i : Int) + 1), j] = x.get [reflectIndex n0 ((i : Int) - 1), j] := by
    intro i j hi hj
    have := smoothing_injective n1
      (fun j => x.get [reflectIndex n0 ((i : Int) + 1), j] - x.get [reflectIndex n0 ((i : Int) - 1), j])
      (reflectIndex n1) (reflectIndex_inside n1) (reflectIndex_lt n1 h1) (reflectIndex_end n1 h1) (by
        intro j hj
        have := hY i j hi hj
        rw [correlate_2d _ rfl x n0 n1 hx] at this
        simp [List.range_succ, gsmKernel2dY, square] at this
        ring_nf at this ⊢
        exact this) j hj
    linarith
  have rowc : ∀ i j, i < n0 → j < n1 → x.get [i, j] = x.get [i, 0] := by
    intro i j hi
    induction j using Nat.strong_induction_on with
    | _ j ih =>
      intro hj
      match j with
      | 0 => rfl
      | 1 =>
        have := stepX i 0 hi (by omega)
        rw [show (((0 : Nat) : Int) + 1) = ((1 : Nat) : Int) by norm_num, reflectIndex_inside n1 1 hj,
          show (((0 : Nat) : Int) - 1) = -1 by norm_num, reflectIndex_before n1 h1] at this
        exact this
      | j + 2 =>
        have := stepX i (j + 1) hi (by omega)
        rw [show (((j + 1 : Nat) : Int) + 1) = ((j + 2 : Nat) : Int) by push_cast; ring,
          show (((j + 1 : Nat) : Int) - 1) = ((j : Nat) : Int) by push_cast; ring,
          reflectIndex_inside n1 (j + 2) hj, reflectIndex_inside n1 j (by omega)] at this
        rw [this]
        exact ih j (by omega) (by omega)
  have colc : ∀ i, i < n0 → x.get [i, 0] = x.get [0, 0] := by
    intro i
    induction i using Nat.strong_induction_on with
    | _ i ih =>
      intro hi
      match i with
      | 0 => rfl
      | 1 =>
        have := stepY 0 0 h0 h1
        rw [show (((0 : Nat) : Int) + 1) = ((1 : Nat) : Int) by norm_num, reflectIndex_inside n0 1 hi,
          show (((0 : Nat) : Int) - 1) = -1 by norm_num, reflectIndex_before n0 h0] at this
        exact this
      | i + 2 =>
        have := stepY (i + 1) 0 (by omega) h1
        rw [show (((i + 1 : Nat) : Int) + 1) = ((i + 2 : Nat) : Int) by push_cast; ring,
          show (((i + 1 : Nat) : Int) - 1) = ((i : Nat) : Int) by push_cast; ring,
          reflectIndex_inside n0 (i + 2) hi, reflectIndex_inside n0 i (by omega)] at this
        rw [this]
        exact ih i (by omega) (by omega)
  intro i j hi hj
  rw [rowc i j hi hj, colc i hi]

theorem ratsum_nonneg (l : List Rat) (h : ∀ a ∈ l, 0 ≤ a) : 0 ≤ l.sum := List.sum_nonneg h

theorem meanAbs_pos (g : NDArray Rat) (i : List Nat) (hi : i ∈ indices g.shape) (h : g.get i ≠ 0) : 0 < meanAbs g := by
  unfold meanAbs
  have hmem : g.get i ∈ g.toList := List.mem_map.2 ⟨i, hi, rfl⟩
  have hlen : 0 < g.toList.length := List.length_pos_of_mem hmem
  apply div_pos
  · have : ratAbs (g.get i) ≤ (g.toList.map ratAbs).sum := by
      apply List.single_le_sum
      · intro a ha
        obtain ⟨b, -, rfl⟩ := List.mem_map.1 ha
        rw [ratAbs_eq]; exact abs_nonneg _
      · exact List.mem_map.2 ⟨_, hmem, rfl⟩
    have h2 : 0 < ratAbs (g.get i) := by rw [ratAbs_eq]; exact abs_pos.2 h
    linarith
  · exact_mod_cast hlen

theorem nonzero_of_meanAbs (g : NDArray Rat) (h : 0 < meanAbs g) : ∃ v ∈ g.toList, v ≠ 0 := by
  refine Classical.byContradiction (fun hn => ?_)
  have hall : ∀ v ∈ g.toList, v = 0 := fun v hv => Classical.byContradiction (fun h' => hn ⟨v, hv, h'⟩)
  have : (g.toList.map ratAbs).sum = 0 := by
    apply List.sum_eq_zero
    intro a ha
    obtain ⟨b, hb, rfl⟩ := List.mem_map.1 ha
    rw [hall b hb]; simp [ratAbs]
  unfold meanAbs at h
  rw [this] at h
  simp at h

/-- The negative of an image. -/
def Spec.negative (x : NDArray Rat) : NDArray Rat := ⟨x.shape, fun i => -x.get i⟩

theorem gradient_negative (w : NDArray Int) (x : NDArray Rat) :
    gradient floatOps w (Spec.negative x) = Spec.negative (gradient floatOps w x) := by
  unfold gradient Spec.negative floatOps
  congr 1
  funext p
  simp only [id]
  rw [correlateAt_eq, correlateAt_eq]
  rw [← neg_one_mul, mul_comm, ← ratsum_mul]
  congr 1
  apply List.map_congr_left
  intro o _
  simp only
  ring

theorem meanAbs_negative (g : NDArray Rat) : meanAbs (Spec.negative g) = meanAbs g := by
  unfold meanAbs NDArray.toList Spec.negative
  simp only [List.map_map, List.length_map]
  congr 2
  apply List.map_congr_left
  intro i _
  simp [ratAbs_eq]

theorem strongest_negative (g : NDArray Rat) (l : List (NDArray Rat)) :
    strongest (Spec.negative g) (l.map Spec.negative) = Spec.negative (strongest g l) := by
  induction l generalizing g with
  | nil => rfl
  | cons h l ih =>
    simp only [List.map_cons, strongest, meanAbs_negative]
    split
    · exact ih h
    · exact ih g

theorem usedGradient_negative (x : NDArray Rat) :
    usedGradient floatOps (Spec.negative x) = Spec.negative (usedGradient floatOps x) := by
  unfold usedGradient
  have e : ∀ ws : List (NDArray Int), ws.map (fun w => gradient floatOps w (Spec.negative x)) =
      (ws.map (fun w => gradient floatOps w x)).map Spec.negative := by
    intro ws; simp [gradient_negative]
  rw [show (Spec.negative x).ndim = x.ndim from rfl, e, e, gradient_negative, gradient_negative,
    strongest_negative, strongest_negative]
  split <;> rfl

/-- **C36.** For every plane that is not flat the score of the image with itself is 1, or the score
of its negative with itself is 1: the code only looks at gradients of one sign. -/
theorem C36_image_or_negative_partial (dr c p : Rat) (hc : 0 ≤ c) (x : NDArray Rat) (n0 n1 : Nat)
    (hx : x.shape = [n0, n1]) (i j i' j' : Nat) (hi : i < n0) (hj : j < n1) (hi' : i' < n0) (hj' : j' < n1)
    (hne : x.get [i, j] ≠ x.get [i', j']) :
    gradientSimilarity floatOps dr c p x x = .ok 1 ∨
      gradientSimilarity floatOps dr c p (Spec.negative x) (Spec.negative x) = .ok 1 := by
  have hd : x.ndim = 2 := by simp [NDArray.ndim, hx]
  have main : ∀ y : NDArray Rat, y.ndim = 2 → (∃ v ∈ (usedGradient floatOps y).toList, 0 < v) →
      gradientSimilarity floatOps dr c p y y = .ok 1 := by
    rintro y hy ⟨v, hv, hpos⟩
    obtain ⟨m, hm, hmax⟩ := exists_max _ (List.ne_nil_of_mem hv)
    have hmp : 0 < m := lt_of_lt_of_le hpos (hmax v hv)
    have hk : 0 ≤ c / m := div_nonneg hc (le_of_lt hmp)
    rw [C36_identical_iff floatOps (fun a => sub_self a) dr c p y (Or.inl hy) m hm hmax, if_neg]
    rintro (h | h) <;> linarith
  have hnz : ∃ v ∈ (usedGradient floatOps x).toList, v ≠ 0 := by
    apply nonzero_of_meanAbs
    unfold usedGradient
    rw [if_neg (by omega)]
    have hst := strongest_max (gradient floatOps gsmKernel2dX x) (kernels2d.tail.map (fun w => gradient floatOps w x))
    refine Classical.byContradiction (fun hn => ?_)
    have hz : ∀ w ∈ kernels2d, ∀ a b, a < n0 → b < n1 → correlateAt w x [a, b] = 0 := by
      intro w hw a b ha hb
      refine Classical.byContradiction (fun hne => hn ?_)
      have hmem : gradient floatOps w x ∈ gradient floatOps gsmKernel2dX x :: kernels2d.tail.map (fun w => gradient floatOps w x) := by
        have : gradient floatOps w x ∈ kernels2d.map (fun w => gradient floatOps w x) := List.mem_map_of_mem hw
        exact this
      refine lt_of_lt_of_le ?_ (hst _ hmem)
      apply meanAbs_pos _ [a, b]
      · show [a, b] ∈ indices x.shape
        rw [hx]
        exact mem_indices_of_inShape _ _ ⟨ha, hb, trivial⟩
      · exact hne
    have hflat := flat_of_no_response x n0 n1 hx (by omega) (by omega)
      (hz gsmKernel2dX (by simp [kernels2d])) (hz gsmKernel2dY (by simp [kernels2d]))
    exact hne (by rw [hflat i j hi hj, hflat i' j' hi' hj'])
  obtain ⟨v, hv, hvne⟩ := hnz
  rcases lt_or_gt_of_ne hvne with hneg | hpos
  · right
    apply main (Spec.negative x) hd
    rw [usedGradient_negative]
    obtain ⟨q, hq, rfl⟩ := List.mem_map.1 hv
    exact ⟨-(usedGradient floatOps x).get q, List.mem_map.2 ⟨q, hq, rfl⟩, by linarith⟩
  · left
    exact main x hd ⟨v, hv, hpos⟩

example : gradientSimilarity floatOps 255 200 (1 / 10) ⟨[5, 5], fun i => i.getD 0 0⟩ ⟨[5, 5], fun i => i.getD 0 0⟩ = .ok 1 ∨
    gradientSimilarity floatOps 255 200 (1 / 10) (Spec.negative ⟨[5, 5], fun i => i.getD 0 0⟩) (Spec.negative ⟨[5, 5], fun i => i.getD 0 0⟩) = .ok 1 :=
  C36_image_or_negative_partial _ _ _ (by norm_num) ⟨[5, 5], fun i => i.getD 0 0⟩ 5 5 rfl 0 0 1 0 (by decide) (by decide) (by decide) (by decide) (by decide)

/-- A plane with one row. -/
def row (l : List Rat) : NDArray Rat := ⟨[1, l.length], fun i => l.getD (i.getD 1 0) 0⟩

/-- **C36, refuted**: an image that is bright on the left and dark on the right has no score with
itself. -/
theorem C36_refuted : (row [1, 1, 0]).get [0, 0] ≠ (row [1, 1, 0]).get [0, 2] ∧
    gradientSimilarity floatOps 255 200 (1 / 10) (row [1, 1, 0]) (row [1, 1, 0]) = .error .notANumber := by
  decide +kernel

/-- **C81, refuted**: mirroring both images changes the result, from a number to none. -/
theorem C81_refuted : ¬ ∀ (x y : NDArray Rat), x.shape.length = 2 → x.shape = y.shape →
    gradientSimilarity floatOps 255 200 (1 / 10) (flipAxis x 1) (flipAxis y 1) =
      gradientSimilarity floatOps 255 200 (1 / 10) x y := by
  intro h
  have := h (row [0, 1, 1]) (row [0, 1, 1]) rfl rfl
  revert this
  decide +kernel

example : gradientSimilarity floatOps 255 200 (1 / 10) (row [0, 1, 1]) (row [0, 1, 1]) = .ok 1 := by
  decide +kernel

/-- With c = -2 m the score of an image with itself is not a number. -/
example : gradientSimilarity floatOps 255 (-2 * ((usedGradient floatOps (row [0, 1, 1])).toList.getD 0 0)) (1 / 10) (row [0, 1, 1]) (row [0, 1, 1]) =
    .error .notANumber := by
  rw [C36_identical_iff floatOps (fun a => by simp [floatOps]) 255 _ (1 / 10) (row [0, 1, 1]) (.inl rfl) ((usedGradient floatOps (row [0, 1, 1])).toList.getD 0 0)
    (by decide +kernel) (by decide +kernel), if_pos (by decide +kernel)]

/-! ### Upper bound -/

theorem combine_le_one (p con lum : Rat) (hp : 0 ≤ p) (hp1 : p ≤ 1) (hc : con ≤ 1) (hl0 : 0 ≤ lum) (hl : lum ≤ 1) :
    combine p con lum ≤ 1 := by
  unfold combine
  by_cases h : 0 ≤ con
  · have h1 : p * con * lum ≤ p * con := by
      have := mul_nonneg hp h; nlinarith
    have h2 : con + p * con * (1 - con) ≤ 1 := by
      have : p * con ≤ 1 := by nlinarith
      nlinarith
    nlinarith
  · have hneg : con < 0 := lt_of_not_ge h
    have h1 : p * con * lum ≤ 0 := by
      have := mul_nonneg hp hl0; nlinarith
    have h2 : (1 - p * con) * con ≤ 0 := by
      have : 0 ≤ 1 - p * con := by nlinarith
      nlinarith
    linarith

theorem conRatio_le_one (k r : Rat) (hk : 0 ≤ k) : conNum k r / conDen k r ≤ 1 := by
  have hden : 0 < conDen k r := by unfold conDen; nlinarith [sq_nonneg (1 - r)]
  rw [div_le_one hden]
  unfold conNum conDen
  nlinarith [sq_nonneg r]

theorem nanMean_le (l : List Quality) (b v : Rat) (h : ∀ q, .val q ∈ l → q ≤ b) (hv : nanMean l = .ok v) : v ≤ b := by
  unfold nanMean at hv
  split at hv
  · cases hv
  · simp only at hv
    generalize hL : l.filterMap (fun | .val q => some q | _ => none) = L at hv
    split at hv
    · cases hv
    · rename_i hne
      have hLb : ∀ a ∈ L, a ≤ b := by
        intro a ha
        rw [← hL] at ha
        obtain ⟨q, hq, hqa⟩ := List.mem_filterMap.1 ha
        cases q with
        | nan => cases hqa
        | inf => cases hqa
        | val q => cases hqa; exact h _ hq
      have hpos : (0 : Rat) < L.length := by
        have : 0 < L.length := List.length_pos_of_ne_nil hne
        exact_mod_cast this
      cases hv
      rw [div_le_iff₀ hpos]
      have := List.sum_le_card_nsmul L b hLb
      simpa [mul_comm] using this

/-- **C83.** With a non-negative constant `c`, a weight between 0 and 1, pixels of floating point
images that differ by at most the data range, and at least one positive gradient, the score is at
most 1. -/
theorem C83_upper_bound (dr c p v : Rat) (hdr : 0 < dr) (hc : 0 ≤ c) (hp : 0 ≤ p) (hp1 : p ≤ 1) (x y : NDArray Rat)
    (hs : x.shape = y.shape)
    (hrange : ∀ i, InShape x.shape i → |x.get i - y.get i| ≤ dr)
    (hpos : ∃ q ∈ (usedGradient floatOps x).toList ++ (usedGradient floatOps y).toList, 0 < q)
    (h : gradientSimilarity floatOps dr c p x y = .ok v) : v ≤ 1 := by
  have key : ∀ (w : NDArray Int) (ws : List (NDArray Int)),
      (∃ q ∈ (strongest (gradient floatOps w x) (ws.map (fun w => gradient floatOps w x))).toList ++
        (strongest (gradient floatOps w y) (ws.map (fun w => gradient floatOps w y))).toList, 0 < q) →
      gsmWith floatOps dr c p x y w ws = .ok v → v ≤ 1 := by
    intro w ws hpos h
    unfold gsmWith at h
    simp only at h
    split at h
    · rename_i r0 rs m0 ms hr hm
      rw [hr, hm] at hpos
      have htop : 0 < largest (largest r0 rs) [largest m0 ms] := by
        obtain ⟨q, hq, hq0⟩ := hpos
        refine lt_of_lt_of_le hq0 ?_
        rcases List.mem_append.1 hq with hq | hq
        · exact le_trans (largest_le r0 rs q hq) (largest_le _ _ _ (by simp))
        · exact le_trans (largest_le m0 ms q hq) (largest_le _ _ _ (by simp))
      rw [if_neg (ne_of_gt htop)] at h
      refine nanMean_le _ 1 v ?_ h
      intro q hq
      obtain ⟨i, hmi, hi⟩ := List.mem_map.1 hq
      unfold quality at hi
      split at hi
      · cases hi
      · simp only at hi
        split at hi
        · split at hi <;> cases hi
        · cases hi
          apply combine_le_one _ _ _ hp hp1 (conRatio_le_one _ _ (div_nonneg hc (le_of_lt htop)))
          · show 0 ≤ 1 - ((x.get i - y.get i) / dr) ^ 2
            have : |(x.get i - y.get i) / dr| ≤ 1 := by
              rw [abs_div, abs_of_pos hdr, div_le_one hdr]; exact hrange i (inShape_of_mem_indices _ _ hmi)
            have := (sq_le_one_iff_abs_le_one _).2 this
            linarith
          · show 1 - ((x.get i - y.get i) / dr) ^ 2 ≤ 1
            nlinarith [sq_nonneg ((x.get i - y.get i) / dr)]
    · cases h
  have hnd : x.ndim = y.ndim := by unfold NDArray.ndim; rw [hs]
  unfold gradientSimilarity at h
  unfold usedGradient at hpos
  rw [← hnd] at hpos
  by_cases h3 : x.ndim = 3
  · rw [if_pos h3] at h
    rw [if_pos h3, if_pos h3] at hpos
    exact key _ _ hpos h
  · rw [if_neg h3] at h
    rw [if_neg h3, if_neg h3] at hpos
    by_cases h2 : x.ndim = 2
    · rw [if_pos h2] at h
      exact key _ _ hpos h
    · rw [if_neg h2] at h
      cases h

example : ∃ v, gradientSimilarity floatOps 255 200 (1 / 10) (row [0, 1, 2]) (row [0, 2, 1]) = .ok v ∧ v ≤ 1 :=
  ⟨3154956474379 / 3970205415000, by decide +kernel, by norm_num⟩

end Viqa
