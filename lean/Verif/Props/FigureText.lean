import Verif.Model.FigureText
import Verif.Model.Report
import Mathlib.Data.Rat.Cast.Order
import Mathlib.Tactic.FieldSimp
import Mathlib.Tactic.Ring
import Mathlib.Tactic.Linarith
import Mathlib.Tactic.Positivity
import Mathlib.Data.List.Nodup
import Mathlib.Data.List.Perm.Basic

/-!
C173: the comparison figure shows every score once, at its own place.
-/

namespace Viqa

variable {S : Type}

/-- The text of the full-reference entry number `c`. -/
def fullText (cols : Int) (c : Nat) (e : Txt × S) : FigureText S :=
  ⟨1 / ((cols : Rat) + 1) * (((c / 4 : Nat) : Rat) + 1), textY (c % 4), e.1, e.2⟩

theorem countResults_eq (results : List (Txt × S)) :
    countResults results = ((results.filter (fun e => !noReferenceName e.1)).length,
      (results.filter (fun e => noReferenceName e.1)).length) := by
  have h : ∀ (l : List (Txt × S)) (a b : Nat),
      l.foldl (fun n e => if !noReferenceName e.1 then (n.1 + 1, n.2) else (n.1, n.2 + 1)) (a, b) =
      (a + (l.filter (fun e => !noReferenceName e.1)).length, b + (l.filter (fun e => noReferenceName e.1)).length) := by
    intro l
    induction l with
    | nil => intro a b; rfl
    | cons e l ih =>
      intro a b
      simp only [List.foldl_cons, List.filter_cons]
      cases hn : noReferenceName e.1
      · simp only [Bool.not_false, if_true, Bool.false_eq_true, if_false, List.length_cons]
        rw [ih, Nat.add_right_comm, Nat.add_assoc a]
      · simp only [Bool.not_true, if_true, Bool.false_eq_true, if_false, List.length_cons]
        rw [ih, Nat.add_right_comm b, Nat.add_assoc b]
  have := h results 0 0
  simpa [countResults] using this

theorem figureColumn_eq (items : List (Txt × S)) (cols : Int) (i : Nat) :
    figureColumn items cols i (min (4 * i) items.length) = (min (4 * i + 4) items.length,
      ((items.drop (4 * i)).take 4).mapIdx fun j e =>
        ⟨1 / ((cols : Rat) + 1) * ((i : Rat) + 1), textY j, e.1, e.2⟩) := by
  unfold figureColumn
  generalize 4 * i = s
  generalize 4 = k
  induction k with
  | zero => simp
  | succ k ih =>
    rw [List.range_succ, List.foldl_append, ih, List.foldl_cons, List.foldl_nil, List.take_add_one,
      List.getElem?_drop]
    simp only
    rcases Nat.lt_or_ge (s + k) items.length with h | h
    · rw [Nat.min_eq_left (by omega), Nat.min_eq_left (by omega), List.getElem?_eq_getElem h]
      simp only [Option.toList_some]
      rw [List.mapIdx_append]
      have : (List.take k (List.drop s items)).length = k := by simp; omega
      simp [this, Nat.add_assoc]
    · rw [Nat.min_eq_right (by omega), Nat.min_eq_right (by omega), List.getElem?_eq_none (by omega),
        List.getElem?_eq_none h]
      simp

theorem figureFull_eq (items : List (Txt × S)) (cols : Int) (h : items.length ≤ 4 * cols.toNat) :
    (figureFull items cols).2 = items.mapIdx (fullText cols) := by
  have key : ∀ m : Nat, (List.range m).foldl (fun st i =>
      let col := figureColumn items cols i st.1
      (col.1, st.2 ++ col.2)) (0, []) =
      (min (4 * m) items.length, (items.take (4 * m)).mapIdx (fullText cols)) := by
    intro m
    induction m with
    | zero => simp
    | succ m ih =>
      rw [List.range_succ, List.foldl_append, ih]
      simp only [List.foldl_cons, List.foldl_nil]
      rw [figureColumn_eq]
      refine Prod.ext (by simp [Nat.mul_succ]) ?_
      show _ ++ _ = _
      rw [Nat.mul_succ, List.take_add, List.mapIdx_append]
      congr 1
      rcases Nat.lt_or_ge (4 * m) items.length with hm | hm
      · have hl : (List.take (4 * m) items).length = 4 * m := by simp; omega
        rw [hl]
        apply List.ext_getElem
        · simp
        · intro j h1 h2
          have hj : j < 4 := by simp at h1; omega
          simp only [List.getElem_mapIdx, fullText]
          rw [show (j + 4 * m) / 4 = m by omega, show (j + 4 * m) % 4 = j by omega]
      · simp [List.drop_eq_nil_of_le hm]
  unfold figureFull
  rw [key]
  simp only
  rw [List.take_of_length_le h]

theorem figureColumns_bounds (f n : Nat) :
    f ≤ 4 * (figureColumns f n).toNat ∧ 0 ≤ figureColumns f n ∧
      (n ≠ 0 → f ≤ 4 * ((figureColumns f n).toNat - 1) ∧ 1 ≤ figureColumns f n) ∧
      (f ≠ 0 → 1 ≤ figureColumns f n) := by
  unfold figureColumns
  simp only
  split_ifs with h <;> omega

/-- The texts in closed form. -/
theorem figureTexts_eq (results : List (Txt × S)) : ∃ cols : Int, ∃ m : Nat, cols = (m : Int) ∧
    (results.filter (fun e => !noReferenceName e.1)).length ≤ 4 * m ∧
    (results.filter (fun e => noReferenceName e.1) ≠ [] →
      (results.filter (fun e => !noReferenceName e.1)).length ≤ 4 * (m - 1) ∧ 1 ≤ m) ∧
    figureTexts results = (results.filter (fun e => !noReferenceName e.1)).mapIdx (fullText cols) ++
      figureNo (results.filter (fun e => noReferenceName e.1)) cols := by
  obtain ⟨h1, h2, h3, -⟩ := figureColumns_bounds (results.filter (fun e => !noReferenceName e.1)).length
    (results.filter (fun e => noReferenceName e.1)).length
  refine ⟨_, _, (Int.toNat_of_nonneg h2).symm, h1, ?_, ?_⟩
  · intro hne
    have := h3 (by simpa using hne)
    omega
  · unfold figureTexts
    rw [countResults_eq]
    simp only
    rw [figureFull_eq _ _ h1]

/-- **C173.** Every entry of the results is written exactly once, with its own value. -/
theorem C173_all (results : List (Txt × S)) :
    ((figureTexts results).map fun t => (t.name, t.value)).Perm results := by
  obtain ⟨cols, m, -, -, -, h⟩ := figureTexts_eq results
  rw [h, List.map_append]
  have e1 : ∀ l : List (Txt × S), (l.mapIdx (fullText cols)).map (fun t => (t.name, t.value)) = l := by
    intro l
    apply List.ext_getElem
    · simp
    · intro i h1 h2
      simp [fullText]
  have e2 : ∀ l : List (Txt × S), (figureNo l cols).map (fun t => (t.name, t.value)) = l := by
    intro l
    unfold figureNo
    apply List.ext_getElem
    · simp
    · intro i h1 h2
      simp
  rw [e1, e2]
  have := List.filter_append_perm (fun e : Txt × S => !noReferenceName e.1) results
  simpa using this

/-- Position of the text in column `i` (from 0) and line `j`. -/
def place (cols : Int) (i j : Nat) : Rat × Rat := (1 / ((cols : Rat) + 1) * ((i : Rat) + 1), textY j)

theorem place_inj (m : Nat) (i j i' j' : Nat) (h : place (m : Int) i j = place (m : Int) i' j') : i = i' ∧ j = j' := by
  unfold place textY at h
  obtain ⟨h1, h2⟩ := Prod.mk.inj h
  have hm : (0 : Rat) < (m : Rat) + 1 := by positivity
  constructor
  · have : (i : Rat) = (i' : Rat) := by
      have hp : (1 : Rat) / (((m : Int) : Rat) + 1) ≠ 0 := by
        rw [Int.cast_natCast]; positivity
      have := mul_left_cancel₀ hp h1
      linarith
    exact_mod_cast this
  · have : (j : Rat) = (j' : Rat) := by linarith
    exact_mod_cast this

/-- The positions of all texts. -/
theorem figureTexts_places (results : List (Txt × S)) : ∃ m : Nat, ∃ f n : Nat,
    f = (results.filter (fun e => !noReferenceName e.1)).length ∧
    n = (results.filter (fun e => noReferenceName e.1)).length ∧
    f ≤ 4 * m ∧ (n ≠ 0 → f ≤ 4 * (m - 1) ∧ 1 ≤ m) ∧
    (figureTexts results).map (fun t => (t.x, t.y)) =
      (List.range f).map (fun c => place (m : Int) (c / 4) (c % 4)) ++
        (List.range n).map (fun j => place (m : Int) (m - 1) j) := by
  obtain ⟨cols, m, rfl, h1, h2, h⟩ := figureTexts_eq results
  refine ⟨m, _, _, rfl, rfl, h1, fun hn => h2 (by simpa using hn), ?_⟩
  rw [h, List.map_append]
  congr 1
  · apply List.ext_getElem
    · simp
    · intro i a b
      simp [fullText, place]
  · unfold figureNo
    apply List.ext_getElem
    · simp
    · intro i a b
      have hne : results.filter (fun e => noReferenceName e.1) ≠ [] := by
        intro h0
        simp [h0] at a
      have hm : ((m - 1 : Nat) : Rat) + 1 = (m : Rat) := by
        have := (h2 hne).2
        rw [Nat.cast_sub this]
        simp
      simp [place, hm]

/-- **C173.** No two texts are written at the same place. -/
theorem C173_distinct (results : List (Txt × S)) : ((figureTexts results).map fun t => (t.x, t.y)).Nodup := by
  obtain ⟨m, f, n, -, -, h1, h2, h⟩ := figureTexts_places results
  rw [h, List.nodup_append]
  refine ⟨?_, ?_, ?_⟩
  · refine List.Nodup.map_on ?_ List.nodup_range
    intro a _ b _ hab
    have := place_inj _ _ _ _ _ hab
    omega
  · refine List.Nodup.map_on ?_ List.nodup_range
    intro a _ b _ hab
    exact (place_inj _ _ _ _ _ hab).2
  · intro p hp q hq hpq
    obtain ⟨a, ha, rfl⟩ := List.mem_map.1 hp
    obtain ⟨b, hb, rfl⟩ := List.mem_map.1 hq
    rw [List.mem_range] at ha hb
    have h3 := h2 (by omega)
    have := place_inj _ _ _ _ _ hpq
    omega

/-- **C173.** Every text lies between the left and the right edge, four lines per column for the full-reference entries, and
above the lower edge as long as there are at most four no-reference entries. -/
theorem C173_inside (results : List (Txt × S)) (t : FigureText S) (ht : t ∈ figureTexts results) :
    0 < t.x ∧ t.x < 1 ∧ t.y ≤ 9 / 100 ∧
      ((results.filter (fun e => noReferenceName e.1)).length ≤ 4 → 0 ≤ t.y) := by
  obtain ⟨m, f, n, -, hn, h1, h2, h⟩ := figureTexts_places results
  have hmem : (t.x, t.y) ∈ (figureTexts results).map (fun t => (t.x, t.y)) := List.mem_map_of_mem ht
  rw [h, List.mem_append, List.mem_map, List.mem_map] at hmem
  have hx : ∀ i j : Nat, i < m → 0 < (place (m : Int) i j).1 ∧ (place (m : Int) i j).1 < 1 := by
    intro i j hi
    have hi' : (i : Rat) + 1 ≤ (m : Rat) := by exact_mod_cast hi
    have hm : (0 : Rat) < (m : Rat) + 1 := by positivity
    unfold place
    simp only [Int.cast_natCast]
    constructor
    · positivity
    · rw [one_div, inv_mul_lt_iff₀ hm]
      linarith
  have hy : ∀ i j : Nat, (place (m : Int) i j).2 ≤ 9 / 100 ∧ (j < 4 → 0 ≤ (place (m : Int) i j).2) := by
    intro i j
    unfold place textY
    simp only
    have h0 : (0 : Rat) ≤ (j : Rat) := by positivity
    refine ⟨by linarith, fun hj => ?_⟩
    have : (j : Rat) ≤ 3 := by exact_mod_cast Nat.lt_succ_iff.1 hj
    linarith
  rw [← hn]
  rcases hmem with ⟨c, hc, he⟩ | ⟨j, hj, he⟩
  · rw [List.mem_range] at hc
    have e1 : t.x = (place (m : Int) (c / 4) (c % 4)).1 := by rw [he]
    have e2 : t.y = (place (m : Int) (c / 4) (c % 4)).2 := by rw [he]
    rw [e1, e2]
    exact ⟨(hx _ _ (by omega)).1, (hx _ _ (by omega)).2, (hy _ _).1, fun _ => (hy _ _).2 (by omega)⟩
  · rw [List.mem_range] at hj
    have e1 : t.x = (place (m : Int) (m - 1) j).1 := by rw [he]
    have e2 : t.y = (place (m : Int) (m - 1) j).2 := by rw [he]
    rw [e1, e2]
    have h3 := h2 (by omega)
    exact ⟨(hx _ _ (by omega)).1, (hx _ _ (by omega)).2, (hy _ _).1, fun _ => (hy _ _).2 (by omega)⟩

/-- All names under which the metrics of the package can occur in the results. -/
def Spec.resultNames : List Txt :=
  [MetricClass.rmse, .psnr, .ssim, .msssim, .uqi, .fsim, .vsi, .vif, .gsm, .mad, .cnr, .snr, .qmeasure].flatMap
    fun c => [true, false].flatMap fun chromatic => match storedName chromatic c with
      | none => []
      | some n => match c with
        | .cnr | .snr | .qmeasure => [n.toList ++ ['_', 'r'], n.toList ++ ['_', 'm']]
        | _ => [n.toList]

/-- **C173** for the metrics of the package: every score is inside the figure. -/
theorem C173_package (results : List (Txt × S)) (hnd : (results.map Prod.fst).Nodup)
    (hn : ∀ e ∈ results, e.1 ∈ Spec.resultNames) (t : FigureText S) (ht : t ∈ figureTexts results) :
    0 < t.x ∧ t.x < 1 ∧ 0 ≤ t.y ∧ t.y ≤ 9 / 100 := by
  obtain ⟨h1, h2, h3, h4⟩ := C173_inside results t ht
  refine ⟨h1, h2, h4 ?_, h3⟩
  have hsub : ((results.filter (fun e => noReferenceName e.1)).map Prod.fst) ⊆
      ["CNR_r".toList, "CNR_m".toList, "Q-Measure_r".toList, "Q-Measure_m".toList] := by
    intro n hnm
    obtain ⟨e, he, rfl⟩ := List.mem_map.1 hnm
    obtain ⟨he1, he2⟩ := List.mem_filter.1 he
    have hall : ∀ n ∈ Spec.resultNames, noReferenceName n = true →
        n ∈ ["CNR_r".toList, "CNR_m".toList, "Q-Measure_r".toList, "Q-Measure_m".toList] := by decide +kernel
    exact hall _ (hn e he1) he2
  have hnd' : ((results.filter (fun e => noReferenceName e.1)).map Prod.fst).Nodup :=
    (List.filter_sublist.map Prod.fst).nodup hnd
  have := (List.subperm_of_subset hnd' hsub).length_le
  simpa using this

/-! ### Examples -/

/-- Five full-reference and two no-reference entries. -/
def sampleResults : List (Txt × Nat) :=
  [("PSNR".toList, 1), ("CNR_r".toList, 2), ("CNR_m".toList, 3), ("RMSE".toList, 4), ("SSIM".toList, 5),
    ("GSM".toList, 6), ("MAD".toList, 7)]

example : (figureTexts sampleResults).map (fun t => (t.x, t.y, t.value)) =
    [(1 / 4, 9 / 100, 1), (1 / 4, 6 / 100, 4), (1 / 4, 3 / 100, 5), (1 / 4, 0, 6), (1 / 2, 9 / 100, 7),
      (3 / 4, 9 / 100, 2), (3 / 4, 6 / 100, 3)] := by
  decide +kernel

example : ((figureTexts sampleResults).map fun t => (t.x, t.y)).Nodup := C173_distinct _
example : ((figureTexts sampleResults).map fun t => (t.name, t.value)).Perm sampleResults := C173_all _
example : ∀ t ∈ figureTexts sampleResults, 0 < t.x ∧ t.x < 1 ∧ 0 ≤ t.y ∧ t.y ≤ 9 / 100 :=
  fun t ht => C173_package _ (by decide +kernel) (by decide +kernel) t ht
example : ∀ t ∈ figureTexts sampleResults, 0 < t.x := fun t ht => (C173_inside _ t ht).1

end Viqa
