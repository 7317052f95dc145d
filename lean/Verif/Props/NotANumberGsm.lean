import Verif.Model.NotANumberGsm
import Verif.Props.Gsm
import Verif.Props.GsmParameters
import Verif.Lemmas.Sums

/-! C185 for GSM. -/

namespace Viqa

theorem kernels2d_neighbours : ∀ w ∈ kernels2d, w.shape = [5, 5] ∧
    ((w.get [2, 1] ≠ 0 ∧ w.get [2, 3] ≠ 0) ∨ (w.get [1, 2] ≠ 0 ∧ w.get [3, 2] ≠ 0)) := by
  decide +kernel

theorem extend_inside (n i : Nat) (h : i < n) : extendIndex .reflect n i = some i := by
  unfold extendIndex
  rw [if_pos (by omega)]
  rfl

theorem extend_edge (n : Nat) (h : 0 < n) : extendIndex .reflect n n = some (n - 1) := by
  unfold extendIndex
  rw [if_neg (by omega)]
  have : ((n : Int)) % (2 * n) = n := Int.emod_eq_of_lt (by omega) (by omega)
  simp only [this]
  rw [if_neg (by omega)]
  congr 1
  omega

theorem correlateN_none (w : NDArray Int) (x : NDArray (Option Rat)) (p o i : List Nat) (ho : o ∈ indices w.shape) (hw : w.get o ≠ 0)
    (hi : extendIndices .reflect x.shape (kernelPosition w.shape p o) = some i) (hx : x.get i = none) : correlateN w x p = none := by
  unfold correlateN
  rw [if_pos]
  rw [List.any_eq_true]
  refine ⟨o, ho, ?_⟩
  rw [hi]
  simp [hw, hx]

/-- **C185.** Which gradients are nan, exactly: those with a nan at a place of a weight other than zero. All others are the
gradients of any image that agrees with the pixels that are numbers. -/
theorem C185_gradient (w : NDArray Int) (x : NDArray (Option Rat)) (p : List Nat) :
    (correlateN w x p = none ↔ ∃ o ∈ indices w.shape, w.get o ≠ 0 ∧ ∃ i,
      extendIndices .reflect x.shape (kernelPosition w.shape p o) = some i ∧ x.get i = none) ∧
    ∀ (y : NDArray Rat), y.shape = x.shape → (∀ i v, x.get i = some v → y.get i = v) →
      ∀ r, correlateN w x p = some r → r = correlateAt w y p := by
  have hnone : correlateN w x p = none ↔ ∃ o ∈ indices w.shape, w.get o ≠ 0 ∧ ∃ i,
      extendIndices .reflect x.shape (kernelPosition w.shape p o) = some i ∧ x.get i = none := by
    unfold correlateN
    rw [ite_eq_left_iff]
    simp only [reduceCtorEq, imp_false, not_not, List.any_eq_true]
    refine exists_congr fun o => and_congr_right fun _ => ?_
    cases he : extendIndices .reflect x.shape (kernelPosition w.shape p o) with
    | none => simp
    | some i => simp
  refine ⟨hnone, ?_⟩
  · intro y hys hy r hr
    have hno : ¬ correlateN w x p = none := by rw [hr]; simp
    rw [hnone] at hno
    unfold correlateN at hr
    split at hr
    · cases hr
    · push Not at hno
      cases hr
      unfold correlateAt
      congr 1
      refine List.map_congr_left fun o ho => ?_
      rw [hys]
      by_cases hw : w.get o = 0
      · simp [hw]
      · cases he : extendIndices .reflect x.shape (kernelPosition w.shape p o) with
        | none => simp only [he]
        | some i =>
          have hi := hno o ho hw i he
          obtain ⟨v, hv⟩ := Option.ne_none_iff_exists'.1 hi
          simp only [he, hv, Option.getD_some, hy i v hv]

/-- A nan alone does not touch its own gradient: the weight in the middle is zero. -/
example : correlateN gsmKernel2dX ⟨[5, 5], fun i => if i = [2, 2] then none else some 3⟩ [2, 2] ≠ none := by
  rw [ne_eq, (C185_gradient _ _ _).1]
  decide +kernel

/-- A pixel that is not a number is seen by every kernel, wherever it is. -/
theorem kernels_touched (x : NDArray (Option Rat)) (h w : Nat) (hs : x.shape = [h, w]) (q : List Nat) (hq : q ∈ indices x.shape)
    (hx : x.get q = none) : ∀ k ∈ kernels2d, ∃ p ∈ indices x.shape, correlateN k x p = none := by
  intro k hk
  obtain ⟨hk5, hkw⟩ := kernels2d_neighbours k hk
  rw [hs, mem_indices] at hq
  obtain ⟨r, c, rfl⟩ : ∃ r c, q = [r, c] := by
    match q, hq with
    | [], hq => exact absurd hq (by simp [InShape])
    | [_], hq => exact absurd hq (by simp [InShape])
    | [r, c], _ => exact ⟨r, c, rfl⟩
    | _ :: _ :: _ :: _, hq => exact absurd hq (by simp [InShape])
  obtain ⟨hr, hc, -⟩ := hq
  have found : ∀ (p o : List Nat), InShape [h, w] p → o ∈ indices [5, 5] → k.get o ≠ 0 →
      extendIndices .reflect [h, w] (kernelPosition [5, 5] p o) = some [r, c] → ∃ p ∈ indices x.shape, correlateN k x p = none := by
    intro p o hp ho hko he
    refine ⟨p, by rw [hs, mem_indices]; exact hp, correlateN_none k x p o [r, c] (by rw [hk5]; exact ho) hko (by rw [hs, hk5]; exact he) hx⟩
  rcases hkw with ⟨h1, h3⟩ | ⟨h1, h3⟩
  · by_cases hcw : c + 1 < w
    · refine found [r, c + 1] [2, 1] ⟨hr, hcw, trivial⟩ (by decide) h1 ?_
      have e1 : ((r : Int) + ((2 : Nat) : Int) - ((5 / 2 : Nat) : Int)) = (r : Nat) := by norm_num
      have e2 : (((c + 1 : Nat) : Int) + ((1 : Nat) : Int) - ((5 / 2 : Nat) : Int)) = (c : Nat) := by push_cast; omega
      simp only [kernelPosition, extendIndices]
      rw [e1, e2, extend_inside h r hr, extend_inside w c hc]
    · refine found [r, c] [2, 3] ⟨hr, hc, trivial⟩ (by decide) h3 ?_
      have e1 : ((r : Int) + ((2 : Nat) : Int) - ((5 / 2 : Nat) : Int)) = (r : Nat) := by norm_num
      have e2 : ((c : Int) + ((3 : Nat) : Int) - ((5 / 2 : Nat) : Int)) = (w : Nat) := by push_cast; omega
      simp only [kernelPosition, extendIndices]
      rw [e1, e2, extend_inside h r hr, extend_edge w (by omega)]
      simp only [Option.some.injEq, List.cons.injEq, and_true, true_and]
      omega
  · by_cases hrh : r + 1 < h
    · refine found [r + 1, c] [1, 2] ⟨hrh, hc, trivial⟩ (by decide) h1 ?_
      have e1 : (((r + 1 : Nat) : Int) + ((1 : Nat) : Int) - ((5 / 2 : Nat) : Int)) = (r : Nat) := by push_cast; omega
      have e2 : ((c : Int) + ((2 : Nat) : Int) - ((5 / 2 : Nat) : Int)) = (c : Nat) := by norm_num
      simp only [kernelPosition, extendIndices]
      rw [e1, e2, extend_inside h r hr, extend_inside w c hc]
    · refine found [r, c] [3, 2] ⟨hr, hc, trivial⟩ (by decide) h3 ?_
      have e1 : ((r : Int) + ((3 : Nat) : Int) - ((5 / 2 : Nat) : Int)) = (h : Nat) := by push_cast; omega
      have e2 : ((c : Int) + ((2 : Nat) : Int) - ((5 / 2 : Nat) : Int)) = (c : Nat) := by norm_num
      simp only [kernelPosition, extendIndices]
      rw [e1, e2, extend_edge h (by omega), extend_inside w c hc]
      simp only [Option.some.injEq, List.cons.injEq, and_true]
      omega

theorem cleanArray_none (g : NDArray (Option Rat)) (h : ∃ p ∈ indices g.shape, g.get p = none) : cleanArray g = none := by
  obtain ⟨p, hp, hg⟩ := h
  unfold cleanArray
  rw [if_neg]
  rw [List.all_eq_true]
  intro hc
  have := hc p hp
  rw [hg] at this
  cases this

/-- The gradient that is chosen for an image with nan is that of the first kernel, and has no largest value and no mean. -/
theorem chosen_nan (x : NDArray (Option Rat)) (h w : Nat) (hs : x.shape = [h, w]) (q : List Nat) (hq : q ∈ indices x.shape)
    (hx : x.get q = none) (l : List (NDArray (Option Rat))) :
    sortedFirstN (gradientN gsmKernel2dX x) l = gradientN gsmKernel2dX x ∧ cleanArray (gradientN gsmKernel2dX x) = none := by
  have : cleanArray (gradientN gsmKernel2dX x) = none :=
    cleanArray_none _ (kernels_touched x h w hs q hq hx gsmKernel2dX (by simp [kernels2d]))
  refine ⟨?_, this⟩
  unfold sortedFirstN
  rw [this]

/-- **C185 (partial).** One pixel of the reference that is not a number makes GSM nan. -/
theorem C185_gsm_partial (dr c p : Rat) (x y : NDArray (Option Rat)) (h w : Nat) (hs : x.shape = [h, w]) (q : List Nat)
    (hq : q ∈ indices x.shape) (hx : x.get q = none) : gsmN dr c p x y = .error .notANumber := by
  have hne : x.size ≠ 0 := by
    rw [hs, mem_indices] at hq
    intro hc
    unfold NDArray.size at hc
    rw [hs] at hc
    match q, hq with
    | [r, s], hq =>
      have := hq.1
      have := hq.2.1
      simp at hc
      omega
  obtain ⟨h1, h2⟩ := chosen_nan x h w hs q hq hx (kernels2d.tail.map (fun w => gradientN w x))
  unfold gsmN
  rw [if_neg (by simp [NDArray.ndim, hs]), if_neg hne, h1]
  have : npMaxN (gradientN gsmKernel2dX x) = none := by unfold npMaxN; rw [h2]
  simp only [this, pyMaxN, greaterN]
  cases npMaxN (sortedFirstN (gradientN gsmKernel2dX y) (kernels2d.tail.map (fun w => gradientN w y))) <;> rfl

/-- The image without nan. -/
def Spec.allNumbersQ (x : NDArray Rat) : NDArray (Option Rat) := ⟨x.shape, fun i => some (x.get i)⟩

theorem gradientN_numbers (w : NDArray Int) (x : NDArray Rat) (p : List Nat) :
    (gradientN w (Spec.allNumbersQ x)).get p = some ((gradient floatOps w x).get p) := by
  unfold gradientN correlateN
  simp only
  rw [if_neg]
  · rfl
  · rw [List.any_eq_true]
    rintro ⟨o, -, ho⟩
    simp only [Spec.allNumbersQ] at ho
    split at ho <;> simp at ho

theorem cleanArray_numbers (w : NDArray Int) (x : NDArray Rat) :
    cleanArray (gradientN w (Spec.allNumbersQ x)) = some (gradient floatOps w x) := by
  unfold cleanArray
  rw [if_pos]
  · have : (fun i => ((gradientN w (Spec.allNumbersQ x)).get i).getD 0) = (gradient floatOps w x).get := by
      funext i; rw [gradientN_numbers]; rfl
    rw [this]
    rfl
  · rw [List.all_eq_true]
    intro i _
    rw [gradientN_numbers]
    rfl

theorem sortedFirst_numbers (w : NDArray Int) (ws : List (NDArray Int)) (x : NDArray Rat) :
    sortedFirstN (gradientN w (Spec.allNumbersQ x)) (ws.map (fun w => gradientN w (Spec.allNumbersQ x))) =
      Spec.allNumbersQ (strongest (gradient floatOps w x) (ws.map (fun w => gradient floatOps w x))) := by
  have : (ws.map (fun w => gradientN w (Spec.allNumbersQ x))).mapM cleanArray = some (ws.map (fun w => gradient floatOps w x)) := by
    induction ws with
    | nil => rfl
    | cons a ws ih => rw [List.map_cons, List.mapM_cons, cleanArray_numbers, ih]; rfl
  unfold sortedFirstN
  rw [cleanArray_numbers, this]
  rfl

theorem cleanArray_all (g : NDArray Rat) : cleanArray (Spec.allNumbersQ g) = some g := by
  unfold cleanArray
  rw [if_pos]
  · rfl
  · rw [List.all_eq_true]
    intro i _
    rfl

/-- Without nan the score is that of the other theorems. -/
theorem C185_gsm_numbers (dr c p : Rat) (x y : NDArray Rat) (hd : x.ndim = 2) (hs : y.shape = x.shape) (hne : x.size ≠ 0) :
    gsmN dr c p (Spec.allNumbersQ x) (Spec.allNumbersQ y) = gradientSimilarity floatOps dr c p x y := by
  have hnd : (Spec.allNumbersQ x).ndim = 2 := hd
  have hsz : (Spec.allNumbersQ x).size ≠ 0 := hne
  unfold gsmN gradientSimilarity
  rw [if_neg (not_not.2 hnd), if_neg hsz, if_neg (by omega), if_pos hd, sortedFirst_numbers, sortedFirst_numbers]
  unfold gsmWith
  generalize hgr : strongest (gradient floatOps gsmKernel2dX x) (kernels2d.tail.map (fun w => gradient floatOps w x)) = gr
  generalize hgm : strongest (gradient floatOps gsmKernel2dX y) (kernels2d.tail.map (fun w => gradient floatOps w y)) = gm
  have shape : ∀ z : NDArray Rat, (strongest (gradient floatOps gsmKernel2dX z) (kernels2d.tail.map (fun w => gradient floatOps w z))).shape =
      z.shape := by
    intro z
    have := strongest_mem (gradient floatOps gsmKernel2dX z) (kernels2d.tail.map (fun w => gradient floatOps w z))
    rw [List.mem_cons, List.mem_map] at this
    rcases this with h | ⟨w, -, h⟩
    · rw [h]; rfl
    · rw [← h]; rfl
  have hgs : gr.shape = x.shape := by rw [← hgr, shape]
  have hms : gm.shape = x.shape := by rw [← hgm, shape, hs]
  have hlist : ∀ g : NDArray Rat, g.shape = x.shape → ∃ a l, g.toList = a :: l := by
    intro g hg
    have : g.toList.length = x.size := by
      unfold NDArray.toList NDArray.size
      rw [List.length_map, hg, length_indices]
    cases hl : g.toList with
    | nil => rw [hl] at this; exact absurd this.symm hne
    | cons a l => exact ⟨a, l, rfl⟩
  obtain ⟨r0, rs, hr⟩ := hlist gr hgs
  obtain ⟨m0, ms, hm⟩ := hlist gm hms
  have t1 : npMaxN (Spec.allNumbersQ gr) = some (largest r0 rs) := by unfold npMaxN; rw [cleanArray_all]; simp only [hr]
  have t2 : npMaxN (Spec.allNumbersQ gm) = some (largest m0 ms) := by unfold npMaxN; rw [cleanArray_all]; simp only [hm]
  have ht : pyMaxN (npMaxN (Spec.allNumbersQ gr)) (npMaxN (Spec.allNumbersQ gm)) = some (largest (largest r0 rs) [largest m0 ms]) := by
    rw [t1, t2]
    simp only [pyMaxN, greaterN, largest, decide_eq_true_eq]
    split <;> rfl
  have hk : ∀ g : NDArray Rat, meanAbsN (Spec.allNumbersQ g) = some (meanAbs g) := by
    intro g; unfold meanAbsN; rw [cleanArray_all]; rfl
  have hdd : (if greaterN (meanAbsN (Spec.allNumbersQ gm)) (meanAbsN (Spec.allNumbersQ gr)) then Spec.allNumbersQ gm else Spec.allNumbersQ gr) =
      Spec.allNumbersQ (strongest gr [gm]) := by
    rw [hk, hk]
    simp only [greaterN, strongest, decide_eq_true_eq]
    split <;> rfl
  simp only [ht, hr, hm, hdd]
  rfl

/-- **C185 is false** for GSM: of an image in which pixels are overwritten by nan only the others count. Where the reference has
its largest gradient along the second axis, the score of such a copy is 1. -/
theorem C185_gsm_refuted (dr c p : Rat) (hc : 0 ≤ c) (x : NDArray Rat) (h w : Nat) (hs : x.shape = [h, w])
    (y : NDArray (Option Rat)) (hys : y.shape = x.shape) (hy : ∀ i, y.get i = some (x.get i) ∨ y.get i = none)
    (q : List Nat) (hq : q ∈ indices x.shape) (hx : y.get q = none)
    (hfirst : strongest (gradient floatOps gsmKernel2dX x) (kernels2d.tail.map (fun w => gradient floatOps w x)) =
      gradient floatOps gsmKernel2dX x)
    (i : List Nat) (hi : i ∈ indices x.shape) (hclean : correlateN gsmKernel2dX y i ≠ none) (hyi : y.get i ≠ none)
    (hg : 0 < correlateAt gsmKernel2dX x i) : gsmN dr c p (Spec.allNumbersQ x) y = .ok 1 := by
  have hne : (Spec.allNumbersQ x).size ≠ 0 := by
    intro hc
    have : (indices x.shape).length = 0 := by rw [length_indices]; exact hc
    rw [List.length_eq_zero_iff] at this
    rw [this] at hi
    cases hi
  obtain ⟨m1, m2⟩ := chosen_nan y h w (hys.trans hs) q (hys ▸ hq) hx (kernels2d.tail.map (fun w => gradientN w y))
  unfold gsmN
  rw [if_neg (by simp [NDArray.ndim, Spec.allNumbersQ, hs]), if_neg hne, sortedFirst_numbers, hfirst, m1]
  obtain ⟨a, l, hal⟩ : ∃ a l, (gradient floatOps gsmKernel2dX x).toList = a :: l := by
    cases hl : (gradient floatOps gsmKernel2dX x).toList with
    | nil =>
      have : (gradient floatOps gsmKernel2dX x).get i ∈ (gradient floatOps gsmKernel2dX x).toList := List.mem_map_of_mem hi
      rw [hl] at this
      cases this
    | cons a l => exact ⟨a, l, rfl⟩
  have t1 : npMaxN (Spec.allNumbersQ (gradient floatOps gsmKernel2dX x)) = some (largest a l) := by
    unfold npMaxN; rw [cleanArray_all]; simp only [hal]
  have t2 : npMaxN (gradientN gsmKernel2dX y) = none := by unfold npMaxN; rw [m2]
  have t3 : meanAbsN (gradientN gsmKernel2dX y) = none := by unfold meanAbsN; rw [m2]; rfl
  have htop : 0 < largest a l := by
    have h1 : (gradient floatOps gsmKernel2dX x).get i ∈ a :: l := hal ▸ List.mem_map_of_mem hi
    exact lt_of_lt_of_le hg (largest_le a l _ h1)
  have hk : 0 ≤ c / largest a l := div_nonneg hc htop.le
  simp only [t1, t2, t3, pyMaxN, greaterN, Bool.false_eq_true, if_false, if_neg htop.ne']
  have same : ∀ j, correlateN gsmKernel2dX y j ≠ none → correlateN gsmKernel2dX y j = some (correlateAt gsmKernel2dX x j) := by
    intro j hj
    unfold correlateN at hj ⊢
    split at hj
    · exact absurd rfl hj
    rename_i hn
    rw [if_neg hn]
    congr 1
    unfold correlateAt
    congr 1
    apply List.map_congr_left
    intro o ho
    rw [List.any_eq_true] at hn
    by_cases hw0 : gsmKernel2dX.get o = 0
    · rw [hw0]; simp
    · congr 1
      simp only
      rw [hys]
      cases he : extendIndices .reflect x.shape (kernelPosition gsmKernel2dX.shape j o) with
      | none => rfl
      | some e =>
        simp only
        rcases hy e with h1 | h1
        · rw [h1]; rfl
        · exact absurd ⟨o, ho, by rw [hys, he]; simp [hw0, h1]⟩ hn
  have hq1 : ∀ j, qualityN p (c / largest a l) dr ((Spec.allNumbersQ (gradient floatOps gsmKernel2dX x)).get j) ((gradientN gsmKernel2dX y).get j)
      ((Spec.allNumbersQ (gradient floatOps gsmKernel2dX x)).get j) ((Spec.allNumbersQ x).get j) (y.get j) =
      if correlateN gsmKernel2dX y j = none ∨ y.get j = none ∨ correlateAt gsmKernel2dX x j = 0 then .nan else .val 1 := by
    intro j
    by_cases h1 : correlateN gsmKernel2dX y j = none
    · rw [if_pos (.inl h1)]
      simp only [gradientN, h1, qualityN, Spec.allNumbersQ]
    by_cases h2 : y.get j = none
    · rw [if_pos (.inr (.inl h2))]
      rw [h2]
      unfold qualityN
      split
      · rename_i hb; cases hb
      · rfl
    have h3 := same j h1
    have h4 : y.get j = some (x.get j) := (hy j).resolve_right h2
    have h5 : (gradient floatOps gsmKernel2dX x).get j = correlateAt gsmKernel2dX x j := rfl
    simp only [gradientN, h3, h4, qualityN, Spec.allNumbersQ, h5]
    by_cases h6 : correlateAt gsmKernel2dX x j = 0
    · rw [if_pos (.inr (.inr h6))]
      unfold quality
      rw [if_pos h6]
    · rw [if_neg (by simp [h6])]
      unfold quality
      rw [if_neg h6]
      have h7 : ratAbs (correlateAt gsmKernel2dX x j - correlateAt gsmKernel2dX x j) / correlateAt gsmKernel2dX x j = 0 := by
        rw [sub_self]; simp [ratAbs]
      simp only [h7]
      have hden : conDen (c / largest a l) 0 = 2 + c / largest a l := by unfold conDen; ring
      have hnum : conNum (c / largest a l) 0 = 2 + c / largest a l := by unfold conNum; ring
      have hpos : (2 + c / largest a l) ≠ 0 := by positivity
      rw [hden, hnum, if_neg hpos, div_self hpos]
      unfold combine lumSim floatOps
      simp
  have hq2 : (indices (Spec.allNumbersQ x).shape).map (fun j => qualityN p (c / largest a l) dr
      ((Spec.allNumbersQ (gradient floatOps gsmKernel2dX x)).get j) ((gradientN gsmKernel2dX y).get j)
      ((Spec.allNumbersQ (gradient floatOps gsmKernel2dX x)).get j) ((Spec.allNumbersQ x).get j) (y.get j)) =
      (indices x.shape).map (fun j => if correlateN gsmKernel2dX y j = none ∨ y.get j = none ∨ correlateAt gsmKernel2dX x j = 0 then .nan else .val 1) :=
    List.map_congr_left (fun j _ => hq1 j)
  rw [hq2, nanMean_number, if_neg]
  · have hones : ∀ v ∈ ((indices x.shape).map (fun j => if correlateN gsmKernel2dX y j = none ∨ y.get j = none ∨ correlateAt gsmKernel2dX x j = 0 then
        Quality.nan else .val 1)).filterMap Quality.number, v = 1 := by
      intro v hv
      obtain ⟨e, he, hev⟩ := List.mem_filterMap.1 hv
      obtain ⟨j, -, rfl⟩ := List.mem_map.1 he
      split at hev
      · cases hev
      · cases hev; rfl
    have hin : (1 : Rat) ∈ ((indices x.shape).map (fun j => if correlateN gsmKernel2dX y j = none ∨ y.get j = none ∨ correlateAt gsmKernel2dX x j = 0 then
        Quality.nan else .val 1)).filterMap Quality.number := by
      refine List.mem_filterMap.2 ⟨.val 1, List.mem_map.2 ⟨i, hi, ?_⟩, rfl⟩
      rw [if_neg]
      rintro (h1 | h1 | h1)
      · exact hclean h1
      · exact hyi h1
      · exact hg.ne' h1
    generalize ((indices x.shape).map (fun j => if correlateN gsmKernel2dX y j = none ∨ y.get j = none ∨ correlateAt gsmKernel2dX x j = 0 then
        Quality.nan else .val 1)).filterMap Quality.number = vs at hones hin
    rw [if_neg (List.ne_nil_of_mem hin), List.eq_replicate_of_mem hones]
    have : (vs.length : Rat) ≠ 0 := by
      have := List.length_pos_of_mem hin
      positivity
    simp [this]
  · rw [List.mem_map]
    rintro ⟨j, -, hj⟩
    split at hj <;> cases hj

/-- A slope along the second axis of which one pixel is missing. -/
def slopeHole : NDArray (Option Rat) := ⟨[5, 9], fun i => if i = [0, 8] then none else some (i.getD 1 0 : Rat)⟩

def slopeNine : NDArray Rat := ⟨[5, 9], fun i => (i.getD 1 0 : Rat)⟩

/-- GSM does not see the missing pixel in the image, … -/
example : gsmN 255 200 (1 / 10) (Spec.allNumbersQ slopeNine) slopeHole = .ok 1 := by
  refine C185_gsm_refuted 255 200 (1 / 10) (by norm_num) slopeNine 5 9 rfl slopeHole rfl ?_ [0, 8] (by decide) rfl ?_ [2, 4] (by decide)
    (by decide +kernel) (by decide +kernel) (by decide +kernel)
  · intro i
    unfold slopeHole slopeNine
    simp only
    split
    · exact .inr rfl
    · exact .inl rfl
  · have h1 : ¬ meanAbs (gradient floatOps gsmKernel2dX slopeNine) < meanAbs (gradient floatOps gsmKernel2dY slopeNine) := by decide +kernel
    have h2 : ¬ meanAbs (gradient floatOps gsmKernel2dX slopeNine) < meanAbs (gradient floatOps gsmKernel2dXy slopeNine) := by decide +kernel
    have h3 : ¬ meanAbs (gradient floatOps gsmKernel2dX slopeNine) < meanAbs (gradient floatOps gsmKernel2dYx slopeNine) := by decide +kernel
    simp only [kernels2d, List.tail, List.map, strongest, if_neg h1, if_neg h2, if_neg h3]

/-- … but in the reference. -/
example : gsmN 255 200 (1 / 10) slopeHole (Spec.allNumbersQ slopeNine) = .error .notANumber :=
  C185_gsm_partial 255 200 (1 / 10) slopeHole _ 5 9 rfl [0, 8] (by decide) rfl

end Viqa
