import Verif.Model.MetricList
import Mathlib.Data.List.Basic
import Mathlib.Data.List.Perm.Basic
import Mathlib.Algebra.Order.Ring.Rat

/-!
Property C200: metrics as elements of lists, sets and dictionaries. `==` of metrics compares their
scores (C24), so that list methods find the first metric with an equal score, and metrics are not
hashable; sorting works as soon as all metrics have scores.
-/

namespace Viqa

variable {S : Type} [LinearOrder S]

theorem scoreVal_eq_iff (a b : ScoreVal S) : a.eq b = true ↔ a = b := by
  cases a <;> cases b <;> simp [ScoreVal.eq]

theorem foundAs_iff (heap : Nat → MetricObj S) (y x : Nat) :
    foundAs heap y x = true ↔ y = x ∨ (heap y).score = (heap x).score := by
  simp [foundAs, metricEq, Operand.val, scoreVal_eq_iff]

theorem foundAs_eq {heap : Nat → MetricObj S} {y x : Nat}
    (h : y ≠ x → (heap y).score ≠ (heap x).score) : foundAs heap y x = (y == x) := by
  rw [Bool.eq_iff_iff, foundAs_iff, beq_iff_eq]
  exact ⟨fun h' => h'.elim id (fun hs => by_contra fun hn => h hn hs), Or.inl⟩

/-! ### Lists -/

/-- **C200 (partial).** If no other metric of the list has the same score, `in`, `index`, `count`
and `remove` concern the metric itself. Missing: metrics with equal scores, or without a score
(C200_lists_refuted). -/
theorem C200_lists_partial (heap : Nat → MetricObj S) (x : Nat) (l : MetricRefs)
    (h : ∀ y ∈ l, y ≠ x → (heap y).score ≠ (heap x).score) :
    metricIn heap x l = decide (x ∈ l) ∧
    metricCount heap x l = l.count x ∧
    metricIndex heap x l = (if x ∈ l then .ok (l.idxOf x) else .error (.valueError "is not in list")) ∧
    metricRemove heap x l =
      (if x ∈ l then .ok (l.erase x) else .error (.valueError "list.remove(x): x not in list")) := by
  induction l with
  | nil => simp [metricIn, metricCount, metricIndex, metricRemove]
  | cons y l ih =>
    obtain ⟨h1, h2, h3, h4⟩ := ih (fun z hz => h z (List.mem_cons_of_mem _ hz))
    have hf := foundAs_eq (h y List.mem_cons_self)
    by_cases hyx : y = x
    · subst hyx
      have hf' : foundAs heap y y = true := by rw [hf]; simp
      refine ⟨?_, ?_, ?_, ?_⟩
      · simp [metricIn, hf']
      · simp only [metricCount] at h2
        simp [metricCount, hf', h2]
      · simp [metricIndex, hf']
      · simp [metricRemove, hf']
    · have hf' : foundAs heap y x = false := by rw [hf]; simpa using hyx
      have hxy : x ≠ y := fun h' => hyx h'.symm
      refine ⟨?_, ?_, ?_, ?_⟩
      · simp only [metricIn] at h1
        simp [metricIn, hf', h1, hxy]
      · simp only [metricCount] at h2
        simp [metricCount, hf', h2, hyx]
      · simp only [metricIndex, hf', Bool.false_eq_true, if_false, h3, List.mem_cons, hxy, false_or]
        by_cases hm : x ∈ l
        · simp [hm, List.idxOf_cons_ne _ hyx]
        · simp [hm]
      · simp only [metricRemove, hf', Bool.false_eq_true, if_false, h4, List.mem_cons, hxy, false_or]
        by_cases hm : x ∈ l
        · simp [hm, List.erase_cons_tail, hyx]
        · simp [hm]

/-- Three scored metrics. -/
def scoredHeap : Nat → MetricObj Rat
  | 0 => ⟨"PSNR", [], .num 35⟩
  | 1 => ⟨"RMSE", [], .num (9 / 2)⟩
  | _ => ⟨"SSIM", [], .num (4 / 5)⟩

example : metricIndex scoredHeap 2 [0, 1, 2] = .ok 2 ∧ metricRemove scoredHeap 1 [0, 1, 2] = .ok [0, 2] := by
  have h2 := (C200_lists_partial scoredHeap 2 [0, 1, 2] (by decide +kernel)).2.2.1
  have h1 := (C200_lists_partial scoredHeap 1 [0, 1, 2] (by decide +kernel)).2.2.2
  rw [h2, h1]
  decide

/-- **C200.** What goes wrong, exactly: a metric that is not in the list is reported as being in
it if and only if a metric of the list has an equal score (or both have none). -/
theorem C200_false_member (heap : Nat → MetricObj S) (x : Nat) (l : MetricRefs) (hx : x ∉ l) :
    metricIn heap x l = true ↔ ∃ y ∈ l, (heap y).score = (heap x).score := by
  simp only [metricIn, List.any_eq_true, foundAs_iff]
  constructor
  · rintro ⟨y, hy, rfl | hs⟩
    · exact absurd hy hx
    · exact ⟨y, hy, hs⟩
  · rintro ⟨y, hy, hs⟩
    exact ⟨y, hy, Or.inr hs⟩

example : metricIn (fun _ => (⟨"PSNR", [], .num 35⟩ : MetricObj Rat)) 3 [0] = true :=
  (C200_false_member _ 3 [0] (by decide)).2 ⟨0, List.mem_cons_self, rfl⟩

/-- **C200.** The place `index` returns: that of the first metric that is the same or has an equal
score. -/
theorem C200_index (heap : Nat → MetricObj S) (x : Nat) (l : MetricRefs) (i : Nat)
    (h : metricIndex heap x l = .ok i) :
    (∃ y, l[i]? = some y ∧ (y = x ∨ (heap y).score = (heap x).score)) ∧
    ∀ j < i, ∀ y, l[j]? = some y → y ≠ x ∧ (heap y).score ≠ (heap x).score := by
  induction l generalizing i with
  | nil => cases h
  | cons z l ih =>
    rw [metricIndex] at h
    by_cases hf : foundAs heap z x = true
    · rw [if_pos hf] at h
      cases h
      exact ⟨⟨z, rfl, (foundAs_iff heap z x).1 hf⟩, fun j hj => absurd hj (Nat.not_lt_zero j)⟩
    · rw [if_neg hf] at h
      cases hm : metricIndex heap x l with
      | error e => rw [hm] at h; cases h
      | ok k =>
        rw [hm] at h
        cases h
        obtain ⟨h1, h2⟩ := ih k hm
        refine ⟨by simpa using h1, fun j hj y hy => ?_⟩
        cases j with
        | zero =>
          obtain rfl : z = y := by simpa using hy
          rw [foundAs_iff, not_or] at hf
          exact hf
        | succ j => exact h2 j (by omega) y (by simpa using hy)

example : ∀ j < 2, ∀ y, [0, 1, 2][j]? = some y → y ≠ 2 ∧ (scoredHeap y).score ≠ (scoredHeap 2).score :=
  (C200_index scoredHeap 2 [0, 1, 2] 2 (by decide +kernel)).2

/-- **C200 (refuted).** Two metrics fresh from their constructors, whatever their classes and
parameters: the second one is found at the place of the first, removing it removes the first one,
and it is reported as a member of a list that holds the first one only. -/
theorem C200_lists_refuted (heap : Nat → MetricObj S) (x y : Nat) (hxy : x ≠ y)
    (nameX nameY : String) (drX drY nmX nmY : PVal) (kwX kwY : Params)
    (hx : metricInit nameX drX nmX kwX = .ok (heap x))
    (hy : metricInit nameY drY nmY kwY = .ok (heap y)) :
    metricIndex heap y [x, y] = .ok 0 ∧ metricRemove heap y [x, y] = .ok [y] ∧
    (y ∉ [x] ∧ metricIn heap y [x] = true ∧ metricCount heap y [x] = 1) := by
  have key : ∀ {name : String} {dr nm : PVal} {kw : Params} {m : MetricObj S},
      metricInit name dr nm kw = .ok m → m.score = .unset := by
    intro name dr nm kw m h
    unfold metricInit at h
    simp only at h
    split at h
    · cases h
    · cases h; rfl
  have hs : (heap x).score = (heap y).score := by rw [key hx, key hy]
  have hf : foundAs heap x y = true := (foundAs_iff heap x y).2 (Or.inr hs)
  refine ⟨?_, ?_, ?_, ?_, ?_⟩
  · simp [metricIndex, hf]
  · simp [metricRemove, hf]
  · simpa using hxy.symm
  · simp [metricIn, hf]
  · simp [metricCount, hf]

example : metricRemove (S := Rat) (fun i => if i = 0
      then ⟨"PSNR", [("data_range", .int 255), ("normalize", .bool false), ("chromatic", .bool false),
        ("roi", .none)], .unset⟩
      else ⟨"RMSE", [("data_range", .none), ("normalize", .bool false), ("chromatic", .bool false),
        ("roi", .none)], .unset⟩) 1 [0, 1] = .ok [1] :=
  (C200_lists_refuted _ 0 1 (by decide) "PSNR" "RMSE" (.int 255) .none (.bool false) (.bool false) [] []
    rfl rfl).2.1

/-! ### Sets and dictionaries -/

/-- **C200 (refuted).** No metric can be put into a set or be the key of a dictionary. -/
theorem C200_hash_refuted (l : List (List ClassBody)) (hl : l ≠ [])
    (h : ∀ c ∈ l, c ∈ metricOrders) : setOfMetrics l = .error (.typeError "unhashable type") := by
  have key : ∀ c ∈ metricOrders, hashable c = false := by decide
  obtain ⟨c, l, rfl⟩ := List.exists_cons_of_ne_nil hl
  simp [setOfMetrics, key c (h c List.mem_cons_self)]

example : setOfMetrics [[⟨"SSIM", ["__init__", "score", "print_score"]⟩, fullReferenceBody, abcBody, metricBody]] =
    .error (.typeError "unhashable type") :=
  C200_hash_refuted _ (by simp) (by simp [metricOrders, fullReferenceClasses])

/-! ### Sorting -/

/-- The scores of all metrics of a list. -/
def Spec.AllScored (heap : Nat → MetricObj S) (l : MetricRefs) (v : Nat → S) : Prop :=
  ∀ x ∈ l, (heap x).score = .num (v x)

theorem insertMetric_spec (heap : Nat → MetricObj S) (v : Nat → S) (x : Nat) (l : MetricRefs)
    (hx : (heap x).score = .num (v x)) (hl : Spec.AllScored heap l v)
    (hs : l.Pairwise (fun a b => v a ≤ v b)) :
    ∃ l', insertMetric heap x l = .ok l' ∧ l'.Perm (x :: l) ∧ l'.Pairwise (fun a b => v a ≤ v b) ∧
      ∀ s, l'.filter (fun y => v y = s) = l.filter (fun y => v y = s) ++ [x].filter (fun y => v y = s) := by
  induction l with
  | nil => exact ⟨[x], rfl, List.Perm.refl _, List.pairwise_singleton _ _, fun s => by simp⟩
  | cons y l ih =>
    have hy : (heap y).score = .num (v y) := hl y List.mem_cons_self
    have hlt : metricLt (heap x) (.metric (heap y)) = .ok (decide (v x < v y)) := by
      simp [metricLt, Operand.val, hx, hy, ScoreVal.lt]
    obtain ⟨hs1, hs2⟩ := List.pairwise_cons.1 hs
    by_cases hv : v x < v y
    · refine ⟨x :: y :: l, by simp [insertMetric, hlt, hv], List.Perm.refl _, ?_, ?_⟩
      · refine List.pairwise_cons.2 ⟨fun z hz => ?_, hs⟩
        rcases List.mem_cons.1 hz with rfl | hz
        · exact hv.le
        · exact hv.le.trans (hs1 z hz)
      · intro s
        by_cases hsx : v x = s
        · have : (y :: l).filter (fun y => decide (v y = s)) = [] := by
            rw [List.filter_eq_nil_iff]
            intro z hz
            have hz' : v x < v z := by
              rcases List.mem_cons.1 hz with rfl | hz
              · exact hv
              · exact hv.trans_le (hs1 z hz)
            simpa using (hsx ▸ hz').ne'
          rw [List.filter_cons_of_pos (by simpa using hsx), this]
          simp [hsx]
        · rw [List.filter_cons_of_neg (by simpa using hsx)]
          simp [hsx]
    · obtain ⟨l', h1, h2, h3, h4⟩ := ih (fun z hz => hl z (List.mem_cons_of_mem _ hz)) hs2
      refine ⟨y :: l', by simp [insertMetric, hlt, hv, h1], (h2.cons y).trans (List.Perm.swap x y l), ?_, ?_⟩
      · refine List.pairwise_cons.2 ⟨fun z hz => ?_, h3⟩
        rcases List.mem_cons.1 (h2.subset hz) with rfl | hz
        · exact not_lt.1 hv
        · exact hs1 z hz
      · intro s
        by_cases hsy : v y = s
        · rw [List.filter_cons_of_pos (by simpa using hsy), List.filter_cons_of_pos (by simpa using hsy), h4]
          rfl
        · rw [List.filter_cons_of_neg (by simpa using hsy), List.filter_cons_of_neg (by simpa using hsy), h4]

theorem sortInto_spec (heap : Nat → MetricObj S) (v : Nat → S) (l : MetricRefs) (hl : Spec.AllScored heap l v) :
    ∀ done : MetricRefs, Spec.AllScored heap done v → done.Pairwise (fun a b => v a ≤ v b) →
    ∃ l', sortInto heap done l = .ok l' ∧ l'.Perm (done ++ l) ∧ l'.Pairwise (fun a b => v a ≤ v b) ∧
      ∀ s, l'.filter (fun y => v y = s) = (done ++ l).filter (fun y => v y = s) := by
  induction l with
  | nil => exact fun done _ hs => ⟨done, rfl, by simp, hs, fun s => by simp⟩
  | cons x l ih =>
    intro done hd hs
    obtain ⟨d', h1, h2, h3, h4⟩ := insertMetric_spec heap v x done (hl x List.mem_cons_self) hd hs
    obtain ⟨l', g1, g2, g3, g4⟩ := ih (fun z hz => hl z (List.mem_cons_of_mem _ hz)) d'
      (fun z hz => by
        rcases List.mem_cons.1 (h2.subset hz) with rfl | hz
        · exact hl _ List.mem_cons_self
        · exact hd z hz) h3
    refine ⟨l', by simp [sortInto, h1, g1], g2.trans ?_, g3, fun s => ?_⟩
    · exact (h2.append_right l).trans (by
        simpa using (List.perm_middle (a := x) (l₁ := done) (l₂ := l)).symm)
    · rw [g4, List.filter_append, h4, List.append_assoc, ← List.filter_append, ← List.filter_append]
      rfl

/-- **C200.** Scored metrics are sorted by their scores: all of them, in ascending order, metrics
with equal scores in the order of the list. -/
theorem C200_sorted (heap : Nat → MetricObj S) (v : Nat → S) (l : MetricRefs)
    (hl : ∀ x ∈ l, (heap x).score = .num (v x)) :
    ∃ l', sortedMetrics heap l = .ok l' ∧ l'.Perm l ∧ l'.Pairwise (fun a b => v a ≤ v b) ∧
      ∀ s, l'.filter (fun y => v y = s) = l.filter (fun y => v y = s) := by
  obtain ⟨l', h1, h2, h3, h4⟩ := sortInto_spec heap v l hl [] (by intro x hx; cases hx) List.Pairwise.nil
  exact ⟨l', h1, by simpa using h2, h3, by simpa using h4⟩

example : sortedMetrics scoredHeap [0, 1, 2] = .ok [2, 1, 0] ∧
    ∃ l', sortedMetrics scoredHeap [0, 1, 2] = .ok l' ∧ l'.Perm [0, 1, 2] := by
  refine ⟨by decide +kernel, ?_⟩
  obtain ⟨l', h1, h2, -⟩ := C200_sorted scoredHeap
    (fun i => match i with | 0 => 35 | 1 => 9 / 2 | _ => 4 / 5) [0, 1, 2] (by
      intro x _
      match x with
      | 0 => rfl
      | 1 => rfl
      | _ + 2 => rfl)
  exact ⟨l', h1, h2⟩

theorem insertMetric_unset (heap : Nat → MetricObj S) (x : Nat) (l : MetricRefs) (hl : l ≠ [])
    (h : (heap x).score = .unset ∨ ∀ y ∈ l, (heap y).score = .unset) :
    insertMetric heap x l = .error (.typeError "'<' not supported") := by
  obtain ⟨y, l, rfl⟩ := List.exists_cons_of_ne_nil hl
  have : metricLt (heap x) (.metric (heap y)) = .error (.typeError "'<' not supported") := by
    rcases h with h | h
    · simp only [metricLt, h]
      cases hy : (Operand.metric (heap y)).val <;> rfl
    · simp only [metricLt, Operand.val, h y List.mem_cons_self]
      cases hx : (heap x).score <;> rfl
  simp [insertMetric, this]

theorem insertMetric_error (heap : Nat → MetricObj S) (x : Nat) (l : MetricRefs) (e : Exc)
    (h : insertMetric heap x l = .error e) : e = .typeError "'<' not supported" := by
  induction l with
  | nil => cases h
  | cons y l ih =>
    rw [insertMetric] at h
    have hlt : ∀ e', metricLt (heap x) (.metric (heap y)) = .error e' → e' = .typeError "'<' not supported" := by
      intro e' h'
      simp only [metricLt] at h'
      cases hx : (heap x).score <;> cases hy : (Operand.metric (heap y)).val <;>
        simp [hx, hy, ScoreVal.lt] at h' <;> exact h'.symm
    cases hm : metricLt (heap x) (.metric (heap y)) with
    | error e' =>
      rw [hm] at h
      cases h
      exact hlt _ hm
    | ok b =>
      rw [hm] at h
      cases b with
      | true => cases h
      | false =>
        cases hi : insertMetric heap x l with
        | error e' =>
          rw [hi] at h
          cases h
          exact ih hi
        | ok l' => rw [hi] at h; cases h

theorem insertMetric_ne_nil (heap : Nat → MetricObj S) (x : Nat) (l l' : MetricRefs)
    (h : insertMetric heap x l = .ok l') : l' ≠ [] := by
  cases l with
  | nil => cases h; simp
  | cons y l =>
    rw [insertMetric] at h
    split at h
    · cases h
    · cases h; simp
    · split at h
      · cases h
      · cases h; simp

theorem sortInto_unset (heap : Nat → MetricObj S) (l : MetricRefs) :
    ∀ done : MetricRefs, done ≠ [] → (∃ x ∈ l, (heap x).score = .unset) →
    sortInto heap done l = .error (.typeError "'<' not supported") := by
  induction l with
  | nil => rintro done - ⟨x, hx, -⟩; cases hx
  | cons y l ih =>
    rintro done hd ⟨x, hx, hs⟩
    rw [sortInto]
    cases hi : insertMetric heap y done with
    | error e => rw [insertMetric_error heap y done e hi]
    | ok d' =>
      rcases List.mem_cons.1 hx with rfl | hx
      · rw [insertMetric_unset heap x done hd (Or.inl hs)] at hi
        cases hi
      · exact ih d' (insertMetric_ne_nil heap y done d' hi) ⟨x, hx, hs⟩

/-- **C200.** Sorting two or more metrics of which one has no score yet raises a TypeError. -/
theorem C200_sorted_unset (heap : Nat → MetricObj S) (l : MetricRefs) (hl : 2 ≤ l.length)
    (x : Nat) (hx : x ∈ l) (hs : (heap x).score = .unset) :
    sortedMetrics heap l = .error (.typeError "'<' not supported") := by
  match l, hl with
  | a :: b :: l, _ =>
    rcases List.mem_cons.1 hx with rfl | hx
    · simp only [sortedMetrics, sortInto, insertMetric]
      have := insertMetric_unset heap b [x] (by simp) (Or.inr (by simpa using hs))
      simp only [insertMetric] at this
      rw [this]
    · exact sortInto_unset heap (b :: l) [a] (by simp) ⟨x, hx, hs⟩

example : sortedMetrics (fun i => if i = 1 then ⟨"RMSE", [], .unset⟩ else scoredHeap i) [0, 1, 2] =
    .error (.typeError "'<' not supported") :=
  C200_sorted_unset _ [0, 1, 2] (by decide) 1 (by decide) rfl

/-- **C200.** `max` of scored metrics is a metric of the list with the highest score. -/
theorem C200_max (heap : Nat → MetricObj S) (v : Nat → S) (l : MetricRefs) (hne : l ≠ [])
    (hl : ∀ x ∈ l, (heap x).score = .num (v x)) :
    ∃ m, maxMetric heap l = .ok m ∧ m ∈ l ∧ ∀ x ∈ l, v x ≤ v m := by
  have key : ∀ (l : MetricRefs) (b : Nat), (∀ x ∈ b :: l, (heap x).score = .num (v x)) →
      ∃ m, maxMetricFrom heap b l = .ok m ∧ m ∈ b :: l ∧ ∀ x ∈ b :: l, v x ≤ v m := by
    intro l
    induction l with
    | nil => exact fun b _ => ⟨b, rfl, List.mem_cons_self, by simp⟩
    | cons y l ih =>
      intro b hb
      have hgt : metricGt (heap y) (.metric (heap b)) = .ok (decide (v b < v y)) := by
        simp [metricGt, Operand.val, hb y (by simp), hb b (by simp), ScoreVal.lt]
      by_cases hv : v b < v y
      · obtain ⟨m, h1, h2, h3⟩ := ih y (fun x hx => hb x (List.mem_cons_of_mem _ hx))
        refine ⟨m, by simp [maxMetricFrom, hgt, hv, h1], List.mem_cons_of_mem _ h2, fun x hx => ?_⟩
        rcases List.mem_cons.1 hx with rfl | hx
        · exact hv.le.trans (h3 y List.mem_cons_self)
        · exact h3 x hx
      · obtain ⟨m, h1, h2, h3⟩ := ih b (fun x hx => hb x (by
          rcases List.mem_cons.1 hx with rfl | hx <;> simp [*]))
        refine ⟨m, by simp [maxMetricFrom, hgt, hv, h1], ?_, fun x hx => ?_⟩
        · rcases List.mem_cons.1 h2 with rfl | h2 <;> simp [*]
        · rcases List.mem_cons.1 hx with rfl | hx
          · exact h3 x List.mem_cons_self
          · rcases List.mem_cons.1 hx with rfl | hx
            · exact (not_lt.1 hv).trans (h3 b List.mem_cons_self)
            · exact h3 x (List.mem_cons_of_mem _ hx)
  obtain ⟨b, l, rfl⟩ := List.exists_cons_of_ne_nil hne
  exact key l b hl

example : maxMetric scoredHeap [1, 2, 0] = .ok 0 := by decide +kernel

end Viqa
