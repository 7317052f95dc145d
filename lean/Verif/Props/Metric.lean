import Verif.Model.Metric
import Mathlib.Algebra.BigOperators.Group.List.Basic
import Mathlib.Algebra.Order.Ring.Rat
import Mathlib.Tactic.Ring
import Mathlib.Tactic.Linarith

set_option linter.unusedSimpArgs false
set_option linter.unusedSectionVars false

/-! Properties C23 – C27: metric objects, comparisons, score histories, export, fusion. -/

namespace Viqa

/-! ### C23 constructor -/

/-- **C23.** The constructor fails exactly if `normalize` is true and `data_range` is None or 0
(false); the error is a ValueError. -/
theorem C23_constructor_fails_iff {S} (name : String) (dr nm : PVal) (kwargs : Params)
    (hk : ∀ e ∈ kwargs, e.1 ≠ "data_range" ∧ e.1 ≠ "normalize") :
    ((∃ e, (metricInit name dr nm kwargs : Py (MetricObj S)) = .error e) ↔
      nm.truthy = true ∧ dr.truthy = false) ∧
    (∀ e, (metricInit name dr nm kwargs : Py (MetricObj S)) = .error e →
      e = .valueError "If normalize is True, data_range must be specified") := by
  have key : ∀ k, (k = "data_range" ∨ k = "normalize") →
      kwargs.reverse.find? (fun e => decide (e.1 = k)) = none := by
    intro k hk'
    rw [List.find?_eq_none]
    intro e he
    have := hk e (by simpa using he)
    rcases hk' with rfl | rfl
    · simpa using this.1
    · simpa using this.2
  have h1 : Params.get ([("data_range", dr), ("normalize", nm), ("chromatic", .bool false), ("roi", .none)]
      ++ kwargs) "data_range" = some dr := by
    simp [Params.get, List.find?_append, key "data_range" (Or.inl rfl), List.find?_cons]
  have h2 : Params.get ([("data_range", dr), ("normalize", nm), ("chromatic", .bool false), ("roi", .none)]
      ++ kwargs) "normalize" = some nm := by
    simp [Params.get, List.find?_append, key "normalize" (Or.inr rfl), List.find?_cons]
  unfold metricInit
  simp only [h1, h2, Option.getD_some]
  split
  · rename_i h
    simp only [Bool.and_eq_true, Bool.not_eq_true'] at h
    exact ⟨⟨fun _ => h, fun _ => ⟨_, rfl⟩⟩, fun e he => by cases he; rfl⟩
  · rename_i h
    simp only [Bool.and_eq_true, Bool.not_eq_true'] at h
    exact ⟨⟨fun ⟨e, he⟩ => by (cases he), fun h' => absurd h' h⟩, fun e he => by cases he⟩

example : ¬ ∃ e, (metricInit "PSNR" (.int 255) (.bool true) [("chromatic", .bool true)] : Py (MetricObj Rat)) = .error e := by
  rw [(C23_constructor_fails_iff "PSNR" (.int 255) (.bool true) [("chromatic", .bool true)] (by decide)).1]
  decide

/-- **C23.** A constructed metric has no score, holds the given data range and flag, and the
defaults for `chromatic` and `roi` unless they are given. -/
theorem C23_parameters {S} (name : String) (dr nm : PVal) (kwargs : Params) (m : MetricObj S)
    (hk : ∀ e ∈ kwargs, e.1 ≠ "data_range" ∧ e.1 ≠ "normalize")
    (hn : (kwargs.map Prod.fst).Nodup)
    (h : metricInit name dr nm kwargs = .ok m) :
    m.score = .unset ∧ m.name = name ∧
    m.params.get "data_range" = some dr ∧ m.params.get "normalize" = some nm ∧
    (∀ key v, (key, v) ∈ kwargs → m.params.get key = some v) ∧
    ("chromatic" ∉ kwargs.map Prod.fst → m.params.get "chromatic" = some (.bool false)) ∧
    ("roi" ∉ kwargs.map Prod.fst → m.params.get "roi" = some .none) := by
  unfold metricInit at h
  simp only at h
  split at h
  · cases h
  · cases h
    have key : ∀ k, k ∉ kwargs.map Prod.fst →
        kwargs.reverse.find? (fun e => decide (e.1 = k)) = none := by
      intro k hk'
      rw [List.find?_eq_none]
      intro e he heq
      simp only [decide_eq_true_eq] at heq
      exact hk' (List.mem_map.2 ⟨e, by simpa using he, heq⟩)
    have hdr : "data_range" ∉ kwargs.map Prod.fst := by
      intro hm; obtain ⟨e, he, heq⟩ := List.mem_map.1 hm; exact (hk e he).1 heq
    have hnm : "normalize" ∉ kwargs.map Prod.fst := by
      intro hm; obtain ⟨e, he, heq⟩ := List.mem_map.1 hm; exact (hk e he).2 heq
    refine ⟨rfl, rfl, ?_, ?_, ?_, ?_, ?_⟩
    · simp [Params.get, List.find?_append, key _ hdr, List.find?_cons]
    · simp [Params.get, List.find?_append, key _ hnm, List.find?_cons]
    · intro k v hv
      have : kwargs.reverse.find? (fun e => decide (e.1 = k)) = some (k, v) := by
        have hn' : (kwargs.reverse.map Prod.fst).Nodup := by
          rw [List.map_reverse]; exact (List.reverse_perm _).nodup_iff.2 hn
        have hv' : (k, v) ∈ kwargs.reverse := by simpa using hv
        generalize kwargs.reverse = l at hn' hv'
        induction l with
        | nil => simp at hv'
        | cons e l ih =>
          simp only [List.map_cons, List.nodup_cons] at hn'
          rcases List.mem_cons.1 hv' with he | he
          · subst he; simp
          · have : e.1 ≠ k := by
              intro heq
              exact hn'.1 (List.mem_map.2 ⟨(k, v), he, heq.symm⟩)
            rw [List.find?_cons]
            simp only [this, decide_false]
            exact ih hn'.2 he
      simp [Params.get, List.find?_append, this]
    · intro hc; simp [Params.get, List.find?_append, key _ hc, List.find?_cons]
    · intro hc; simp [Params.get, List.find?_append, key _ hc, List.find?_cons]

example : (metricInit "PSNR" (.int 0) (.bool true) [] : Py (MetricObj Rat)) =
    .error (.valueError "If normalize is True, data_range must be specified") := rfl
example : ∃ m, (metricInit "PSNR" (.int 255) (.bool true) [("chromatic", .bool true)] :
    Py (MetricObj Rat)) = .ok m ∧ m.params.get "chromatic" = some (.bool true) := ⟨_, rfl, by decide⟩

/-! ### C24 comparisons -/

section compare
variable {S : Type} [LinearOrder S]

/-- The operand carries the number `v`. -/
def HasScore (o : Operand S) (v : S) : Prop :=
  match o with
  | .metric m => m.score = .num v
  | .number w => w = v

theorem HasScore.val {o : Operand S} {v : S} (h : HasScore o v) : o.val = .num v := by
  cases o with
  | metric m => exact h
  | number w => simp only [HasScore] at h; subst h; rfl

/-- **C24.** For scored metrics all six operators agree with the order of the scores, against
another metric as well as against a number. -/
theorem C24_agree (m : MetricObj S) (o : Operand S) (a b : S) (hm : m.score = .num a)
    (ho : HasScore o b) :
    metricLt m o = .ok (decide (a < b)) ∧ metricGt m o = .ok (decide (b < a)) ∧
    metricLe m o = .ok (decide (a ≤ b)) ∧ metricGe m o = .ok (decide (b ≤ a)) ∧
    metricEq m o = decide (a = b) ∧ metricNe m o = decide (a ≠ b) := by
  simp [metricLt, metricGt, metricLe, metricGe, metricEq, metricNe, hm, ho.val, ScoreVal.lt,
    ScoreVal.le, ScoreVal.eq]

example : metricLe (⟨"PSNR", [], .num (3 : Nat)⟩ : MetricObj Nat) (.number 3) = .ok true :=
  (C24_agree (⟨"PSNR", [], .num (3 : Nat)⟩ : MetricObj Nat) (.number 3) 3 3 rfl rfl).2.2.1

/-- **C24.** Exactly one of `<`, `==`, `>` holds, and `<=` is the negation of `>`. -/
theorem C24_trichotomy (m : MetricObj S) (o : Operand S) (a b : S) (hm : m.score = .num a)
    (ho : HasScore o b) :
    ((metricLt m o = .ok true ∧ metricEq m o = false ∧ metricGt m o = .ok false) ∨
     (metricLt m o = .ok false ∧ metricEq m o = true ∧ metricGt m o = .ok false) ∨
     (metricLt m o = .ok false ∧ metricEq m o = false ∧ metricGt m o = .ok true)) ∧
    (metricLe m o = .ok true ↔ metricGt m o = .ok false) ∧
    (metricGe m o = .ok true ↔ metricLt m o = .ok false) ∧
    (metricNe m o = true ↔ metricEq m o = false) := by
  obtain ⟨h1, h2, h3, h4, h5, h6⟩ := C24_agree m o a b hm ho
  rw [h1, h2, h3, h4, h5, h6]
  refine ⟨?_, ?_, ?_, ?_⟩
  · rcases lt_trichotomy a b with h | h | h
    · left; simp [h, h.ne, h.le]
    · right; left; simp [h]
    · right; right; simp [h, h.ne', h.le]
  · simp
  · simp
  · simp

example : metricNe (⟨"PSNR", [], .num (3 : Nat)⟩ : MetricObj Nat) (.number 4) = true ↔
    metricEq (⟨"PSNR", [], .num (3 : Nat)⟩ : MetricObj Nat) (.number 4) = false :=
  (C24_trichotomy (⟨"PSNR", [], .num (3 : Nat)⟩ : MetricObj Nat) (.number 4) 3 4 rfl rfl).2.2.2

/-- **C24.** `<` and `<=` are transitive over scored metrics. -/
theorem C24_transitive (m₁ m₂ m₃ : MetricObj S) (a b c : S) (h₁ : m₁.score = .num a)
    (h₂ : m₂.score = .num b) (h₃ : m₃.score = .num c) :
    (metricLt m₁ (.metric m₂) = .ok true → metricLt m₂ (.metric m₃) = .ok true →
      metricLt m₁ (.metric m₃) = .ok true) ∧
    (metricLe m₁ (.metric m₂) = .ok true → metricLe m₂ (.metric m₃) = .ok true →
      metricLe m₁ (.metric m₃) = .ok true) := by
  simp only [metricLt, metricLe, Operand.val, h₁, h₂, h₃, ScoreVal.lt, ScoreVal.le, Except.ok.injEq,
    decide_eq_true_eq]
  exact ⟨lt_trans, le_trans⟩

example : metricLt (⟨"A", [], .num (1 : Nat)⟩ : MetricObj Nat) (.metric ⟨"C", [], .num 3⟩) = .ok true :=
  (C24_transitive (⟨"A", [], .num (1 : Nat)⟩ : MetricObj Nat) ⟨"B", [], .num 2⟩ ⟨"C", [], .num 3⟩ 1 2 3 rfl rfl rfl).1 rfl rfl

/-- Ordering a metric without score against a scored one raises a TypeError; it is never
silently ordered. -/
theorem C24_unscored (m : MetricObj S) (o : Operand S) (b : S) (hm : m.score = .unset)
    (ho : HasScore o b) :
    (∃ t, metricLt m o = .error (.typeError t)) ∧ (∃ t, metricGt m o = .error (.typeError t)) ∧
    (∃ t, metricLe m o = .error (.typeError t)) ∧ (∃ t, metricGe m o = .error (.typeError t)) ∧
    metricEq m o = false ∧ metricNe m o = true := by
  simp [metricLt, metricGt, metricLe, metricGe, metricEq, metricNe, hm, ho.val, ScoreVal.lt,
    ScoreVal.le, ScoreVal.eq]

end compare

example : metricLt (⟨"PSNR", [], .num (3 : Rat)⟩ : MetricObj Rat) (.metric ⟨"SSIM", [], .num 4⟩) = .ok true ∧
    metricGe (⟨"PSNR", [], .num (3 : Rat)⟩ : MetricObj Rat) (.number 4) = .ok false := by decide +kernel

/-! ### C25 score histories -/

/-- The value returned by a call. -/
def outcome {S I} (c : ScoreCall S I) : Py S := c.load >>= c.compute

/-- The value of the last call on object `i` that returned, if any. -/
def lastReturned {S I} (calls : List (ScoreCall S I)) (i : Nat) : Option S :=
  ((calls.filter (fun c => c.obj = i)).filterMap (fun c => (outcome c).toOption)).getLast?

/-- **C25.** After any sequence of calls, `score_val` of every metric is the value of the last
call on it that returned, and what it was before if there was none. Names and parameters
do not change. -/
theorem C25_last_score {S I} (ms : List (MetricObj S)) (calls : List (ScoreCall S I)) (i : Nat)
    (m : MetricObj S) (h : ms[i]? = some m) :
    ∃ m', (runCalls ms calls)[i]? = some m' ∧ m'.name = m.name ∧ m'.params = m.params ∧
      m'.score = match lastReturned calls i with | some v => .num v | none => m.score := by
  unfold runCalls
  induction calls generalizing ms m with
  | nil => exact ⟨m, h, rfl, rfl, rfl⟩
  | cons c calls ih =>
    rw [List.foldl_cons]
    by_cases hc : c.obj = i
    · have hstep : (ms.modify c.obj (fun m => (scoreCall c.load c.compute m).1))[i]? =
          some (scoreCall c.load c.compute m).1 := by
        rw [List.getElem?_modify, h, hc]; simp
      obtain ⟨m', h1, h2, h3, h4⟩ := ih _ _ hstep
      refine ⟨m', h1, ?_, ?_, ?_⟩
      · rw [h2]; unfold scoreCall; split <;> (try split) <;> rfl
      · rw [h3]; unfold scoreCall; split <;> (try split) <;> rfl
      · rw [h4]
        have hl : lastReturned (c :: calls) i = (lastReturned calls i).or (outcome c).toOption := by
          unfold lastReturned
          rw [List.filter_cons_of_pos (by simpa using hc), List.filterMap_cons]
          cases (outcome c).toOption with
          | none => simp
          | some v =>
            simp only [List.getLast?_cons]
            cases ((List.filter (fun c => decide (c.obj = i)) calls).filterMap
              (fun c => (outcome c).toOption)).getLast? <;> simp
        rw [hl]
        cases lastReturned calls i with
        | some v => rfl
        | none =>
          simp only [Option.none_or]
          unfold scoreCall outcome
          cases c.load with
          | error e => rfl
          | ok imgs =>
            simp only [bind, Except.bind]
            cases c.compute imgs <;> rfl
    · have hstep : (ms.modify c.obj (fun m => (scoreCall c.load c.compute m).1))[i]? = some m := by
        rw [List.getElem?_modify, h]; simp [hc]
      obtain ⟨m', h1, h2, h3, h4⟩ := ih _ _ hstep
      refine ⟨m', h1, h2, h3, ?_⟩
      rw [h4]
      have hl : lastReturned (c :: calls) i = lastReturned calls i := by
        unfold lastReturned
        rw [List.filter_cons_of_neg (by simpa using hc)]
      rw [hl]

example : ∃ m', (runCalls [⟨"RMSE", [], .unset⟩] [⟨0, .ok (), fun _ => .ok (5 : Nat)⟩, ⟨0, .error .fileNotFound, fun _ => .ok 7⟩])[0]? =
    some m' ∧ m'.score = .num 5 := by
  obtain ⟨m', h, -, -, h'⟩ := C25_last_score (I := Unit) [⟨"RMSE", [], .unset⟩]
    [⟨0, .ok (), fun _ => .ok (5 : Nat)⟩, ⟨0, .error .fileNotFound, fun _ => .ok 7⟩] 0 ⟨"RMSE", [], .unset⟩ rfl
  exact ⟨m', h, h'⟩

/-- A call returns the value it stores, and stores nothing if it raises. -/
theorem C25_returned_is_stored {S I} (load : Py I) (compute : I → Py S) (m : MetricObj S) :
    (∀ v, (scoreCall load compute m).2 = .ok v → (scoreCall load compute m).1.score = .num v) ∧
    (∀ e, (scoreCall load compute m).2 = .error e → (scoreCall load compute m).1 = m) := by
  unfold scoreCall
  split
  · exact ⟨(fun v h => by cases h), fun e _ => rfl⟩
  · split
    · exact ⟨(fun v h => by cases h), fun e _ => rfl⟩
    · exact ⟨(fun v h => by cases h; rfl), (fun e h => by cases h)⟩

/-- Two metrics, the first scored twice, the second call raising. -/
example : (runCalls [⟨"RMSE", [], .unset⟩, ⟨"PSNR", [], .unset⟩]
    [⟨0, .ok (), fun _ => .ok (5 : Rat)⟩, ⟨0, .error .fileNotFound, fun _ => .ok 7⟩]).map (·.score) =
    [.num 5, .unset] := by decide +kernel

/-! ### C26 export -/

section export_
variable {S : Type} [LinearOrder S]

/-- The rows the documentation promises: one for every scored metric, in order. -/
def scoredRows (ms : List (MetricObj S)) : List (CsvRow S) :=
  ms.filterMap (fun m => match m.score with | .unset => none | v => some ⟨m.name, v⟩)

/-- Exporting once: exactly the metrics with a score have a row, in their order; metrics without a
score have their score replaced by "n/a". -/
theorem C26_one_export (ms : List (MetricObj S)) :
    (exportResults ms).1 = scoredRows ms ∧
    (exportResults ms).2.1 = ms.map (fun m => if m.score = .unset then { m with score := .na } else m) := by
  induction ms with
  | nil => exact ⟨rfl, rfl⟩
  | cons m ms ih =>
    obtain ⟨h1, h2⟩ := ih
    unfold exportResults at *
    rw [List.foldr_cons]
    unfold scoredRows at *
    rw [List.filterMap_cons, List.map_cons]
    cases hs : m.score with
    | unset => simp [h1, h2]
    | na => simp [h1, h2]
    | num v => simp [h1, h2]

example : (exportResults [⟨"RMSE", [], .unset⟩, (⟨"PSNR", [], .num 3⟩ : MetricObj Nat)]).1 = [⟨"PSNR", .num 3⟩] :=
  (C26_one_export [⟨"RMSE", [], .unset⟩, (⟨"PSNR", [], .num 3⟩ : MetricObj Nat)]).1

/-- **C26** for lists in which every metric has a score: exporting changes no metric and a second
export writes the same rows. Missing for the full property: lists with unscored metrics. -/
theorem C26_repeatable_partial (ms : List (MetricObj S)) (h : ∀ m ∈ ms, m.score ≠ .unset) :
    (exportResults ms).2.1 = ms ∧ (exportResults (exportResults ms).2.1).1 = (exportResults ms).1 ∧
    (exportResults ms).1 = ms.map (fun m => ⟨m.name, m.score⟩) := by
  have h1 : (exportResults ms).2.1 = ms := by
    rw [(C26_one_export ms).2]
    conv_rhs => rw [← List.map_id ms]
    apply List.map_congr_left
    intro m hm
    rw [if_neg (h m hm)]; rfl
  refine ⟨h1, by rw [h1], ?_⟩
  rw [(C26_one_export ms).1]
  unfold scoredRows
  induction ms with
  | nil => rfl
  | cons m ms ih =>
    have hm := h m (by simp)
    rw [List.filterMap_cons, List.map_cons]
    have ih' := ih (fun m hm => h m (by simp [hm])) (by
      rw [(C26_one_export ms).2]
      conv_rhs => rw [← List.map_id ms]
      apply List.map_congr_left
      intro m' hm'
      rw [if_neg (h m' (by simp [hm']))]; rfl)
    cases hs : m.score with
    | unset => exact absurd hs hm
    | na => simp only [ih']
    | num v => simp only [ih']

example : (exportResults [(⟨"RMSE", [], .num 2⟩ : MetricObj Nat), ⟨"PSNR", [], .num 3⟩]).1 = [⟨"RMSE", .num 2⟩, ⟨"PSNR", .num 3⟩] :=
  (C26_repeatable_partial [(⟨"RMSE", [], .num 2⟩ : MetricObj Nat), ⟨"PSNR", [], .num 3⟩] (by simp)).2.2

/-- What happens on the second export: every metric has a row, the unscored ones with "n/a". -/
theorem C26_second_export (ms : List (MetricObj S)) :
    (exportResults (exportResults ms).2.1).1 =
      ms.map (fun m => ⟨m.name, if m.score = .unset then .na else m.score⟩) := by
  have h2 := (C26_one_export ms).2
  have h3 := (C26_repeatable_partial (exportResults ms).2.1 (by
    rw [h2]; intro m hm
    obtain ⟨m', -, rfl⟩ := List.mem_map.1 hm
    split
    · simp
    · rename_i h; exact h)).2.2
  rw [h3, h2, List.map_map]
  apply List.map_congr_left
  intro m _
  simp only [Function.comp]
  split <;> simp_all

example : (exportResults (exportResults [⟨"RMSE", [], .unset⟩, (⟨"PSNR", [], .num 3⟩ : MetricObj Nat)]).2.1).1 =
    [⟨"RMSE", .na⟩, ⟨"PSNR", .num 3⟩] :=
  C26_second_export [⟨"RMSE", [], .unset⟩, (⟨"PSNR", [], .num 3⟩ : MetricObj Nat)]

/-- **C26** is false: with one unscored metric the second file differs from the first. -/
theorem C26_refuted : ¬ ∀ ms : List (MetricObj Rat),
    (exportResults (exportResults ms).2.1).1 = (exportResults ms).1 := by
  intro h
  have := h [⟨"PSNR", [], .unset⟩]
  simp [exportResults] at this

/-- Exactly when a repeated export writes the same rows: no metric is unscored. -/
theorem C26_repeatable_iff (ms : List (MetricObj S)) :
    (exportResults (exportResults ms).2.1).1 = (exportResults ms).1 ↔ ∀ m ∈ ms, m.score ≠ .unset := by
  constructor
  · intro h
    rw [C26_second_export, (C26_one_export ms).1] at h
    have hlen := congrArg List.length h
    rw [List.length_map] at hlen
    clear h
    have hle : ∀ l : List (MetricObj S), (scoredRows l).length ≤ l.length :=
      fun l => List.length_filterMap_le _ _
    induction ms with
    | nil => simp
    | cons m ms ih =>
      have hm : m.score ≠ .unset := by
        intro hu
        have : (scoredRows (m :: ms)).length = (scoredRows ms).length := by
          simp [scoredRows, List.filterMap_cons, hu]
        have := hle ms
        simp only [List.length_cons] at hlen
        omega
      have hr : (scoredRows (m :: ms)).length = (scoredRows ms).length + 1 := by
        unfold scoredRows
        rw [List.filterMap_cons]
        cases hs : m.score with
        | unset => exact absurd hs hm
        | na => simp
        | num v => simp
      intro m' hm'
      rcases List.mem_cons.1 hm' with rfl | hm'
      · exact hm
      · exact ih (by simp only [List.length_cons] at hlen; omega) m' hm'
  · intro h; exact (C26_repeatable_partial ms h).2.1

example : (exportResults (exportResults [(⟨"RMSE", [], .unset⟩ : MetricObj Nat)]).2.1).1 ≠
    (exportResults [(⟨"RMSE", [], .unset⟩ : MetricObj Nat)]).1 := by
  rw [Ne, C26_repeatable_iff]
  simp

end export_

/-- The file name always ends with ".csv" up to case, and naming is idempotent. -/
theorem C26_file_name (name : Txt) :
    endsWith (lower (csvName name)) ".csv".toList = true ∧ csvName (csvName name) = csvName name := by
  have h1 : endsWith (lower (csvName name)) ".csv".toList = true := by
    unfold csvName
    split
    · assumption
    · unfold endsWith lower
      rw [List.isSuffixOf_iff_suffix, List.map_append]
      exact List.suffix_append _ _
  refine ⟨h1, ?_⟩
  have h2 : ∀ t, endsWith (lower t) ".csv".toList = true → csvName t = t := fun t h => if_pos h
  exact h2 _ h1

example : csvName "results.CSV".toList = "results.CSV".toList ∧
    csvName "results".toList = "results.csv".toList := by decide

/-! ### C27 fusion -/

section fusion

theorem fuseAux_num (acc : Rat) (vs ws : List Rat) (h : vs.length = ws.length) :
    fuseAux acc (vs.map .num) ws = .ok (acc + (List.zipWith (· * ·) vs ws).sum) := by
  induction vs generalizing acc ws with
  | nil =>
    cases ws with
    | nil => simp [fuseAux]
    | cons w ws => simp at h
  | cons v vs ih =>
    cases ws with
    | nil => simp at h
    | cons w ws =>
      simp only [List.length_cons, Nat.add_right_cancel_iff] at h
      rw [List.map_cons, fuseAux, ih _ _ h, List.zipWith_cons_cons, List.sum_cons, add_assoc]

theorem fuseAux_length (acc : Rat) (vs ws : List Rat) (h : vs.length ≠ ws.length) :
    ∃ m, fuseAux acc (vs.map .num) ws = .error (.valueError m) := by
  induction vs generalizing acc ws with
  | nil =>
    cases ws with
    | nil => simp at h
    | cons w ws => exact ⟨_, rfl⟩
  | cons v vs ih =>
    cases ws with
    | nil => exact ⟨_, rfl⟩
    | cons w ws =>
      simp only [List.length_cons, ne_eq, Nat.add_right_cancel_iff] at h
      rw [List.map_cons, fuseAux]
      exact ih _ _ h

/-- The metrics are scored with the values `vs`. -/
def Scored (ms : List (MetricObj Rat)) (vs : List Rat) : Prop := ms.map (·.score) = vs.map .num

/-- **C27.** The fused value is the weighted sum of the scores. -/
theorem C27_weighted_sum (ms : List (MetricObj Rat)) (vs ws : List Rat) (hs : Scored ms vs)
    (h : ms.length = ws.length) :
    fuse ms ws = .ok (List.zipWith (· * ·) vs ws).sum := by
  have hl : vs.length = ws.length := by
    have := congrArg List.length hs; simp at this; omega
  unfold fuse; rw [hs, fuseAux_num 0 vs ws hl, zero_add]

example : fuse [⟨"PSNR", [], .num (20 : Rat)⟩, ⟨"SSIM", [], .num (1 / 2)⟩] [1 / 2, 3] = .ok (23 / 2) := by
  rw [C27_weighted_sum [⟨"PSNR", [], .num (20 : Rat)⟩, ⟨"SSIM", [], .num (1 / 2)⟩] [20, 1 / 2] [1 / 2, 3] rfl rfl]
  norm_num

/-- **C27.** Different numbers of metrics and weights raise a ValueError. -/
theorem C27_length_mismatch (ms : List (MetricObj Rat)) (vs ws : List Rat) (hs : Scored ms vs)
    (h : ms.length ≠ ws.length) : ∃ m, fuse ms ws = .error (.valueError m) := by
  have hl : vs.length ≠ ws.length := by
    have := congrArg List.length hs; simp at this; omega
  unfold fuse; rw [hs]; exact fuseAux_length 0 vs ws hl

example : ∃ m, fuse [⟨"PSNR", [], .num (20 : Rat)⟩, ⟨"SSIM", [], .num (1 / 2)⟩] [1] = .error (.valueError m) :=
  C27_length_mismatch _ [20, 1 / 2] [1] rfl (by decide)

/-- **C27.** Fusion is linear in the weights. -/
theorem C27_linear (ms : List (MetricObj Rat)) (vs us ws : List Rat) (a b x y : Rat) (hs : Scored ms vs)
    (hu : ms.length = us.length) (hw : ms.length = ws.length)
    (hx : fuse ms us = .ok x) (hy : fuse ms ws = .ok y) :
    fuse ms (List.zipWith (fun u w => a * u + b * w) us ws) = .ok (a * x + b * y) := by
  rw [C27_weighted_sum ms vs us hs hu] at hx
  rw [C27_weighted_sum ms vs ws hs hw] at hy
  cases hx; cases hy
  rw [C27_weighted_sum ms vs _ hs (by rw [List.length_zipWith]; omega)]
  congr 1
  have hl1 : vs.length = us.length := by
    have := congrArg List.length hs; simp at this; omega
  have hl2 : vs.length = ws.length := by
    have := congrArg List.length hs; simp at this; omega
  clear hs hu hw
  induction vs generalizing us ws with
  | nil => cases us <;> cases ws <;> simp_all
  | cons v vs ih =>
    cases us with
    | nil => simp at hl1
    | cons u us =>
      cases ws with
      | nil => simp at hl2
      | cons w ws =>
        simp only [List.length_cons, Nat.add_right_cancel_iff] at hl1 hl2
        simp only [List.zipWith_cons_cons, List.sum_cons, ih us ws hl1 hl2]
        ring

example : fuse [⟨"PSNR", [], .num (20 : Rat)⟩, ⟨"SSIM", [], .num (1 / 2)⟩] [2 * 1 + 3 * 0, 2 * 0 + 3 * 1] = .ok (2 * 20 + 3 * (1 / 2)) :=
  C27_linear _ [20, 1 / 2] [1, 0] [0, 1] 2 3 20 (1 / 2) rfl rfl rfl (by decide +kernel) (by decide +kernel)

/-- **C27.** A common reordering of metrics and weights does not change the result. -/
theorem C27_reordering (l l' : List (MetricObj Rat × Rat)) (hp : l.Perm l')
    (hs : ∀ e ∈ l, ∃ v, e.1.score = .num v) :
    fuse (l.map Prod.fst) (l.map Prod.snd) = fuse (l'.map Prod.fst) (l'.map Prod.snd) := by
  have hval : ∀ k : List (MetricObj Rat × Rat), (∀ e ∈ k, ∃ v, e.1.score = .num v) →
      fuse (k.map Prod.fst) (k.map Prod.snd) = .ok
        (k.map (fun e => (match e.1.score with | .num v => v | _ => 0) * e.2)).sum := by
    intro k hk
    rw [C27_weighted_sum (k.map Prod.fst)
      (k.map (fun e => match e.1.score with | .num v => v | _ => 0)) (k.map Prod.snd) ?_ (by simp)]
    · congr 1
      clear hk
      induction k with
      | nil => rfl
      | cons e k ih => simp [ih]
    · unfold Scored
      simp only [List.map_map]
      apply List.map_congr_left
      intro e he
      obtain ⟨v, hv⟩ := hk e he
      simp [hv]
  rw [hval l hs, hval l' (fun e he => hs e (hp.mem_iff.2 he))]
  rw [(hp.map _).sum_eq]

example : fuse [⟨"PSNR", [], .num (20 : Rat)⟩, ⟨"SSIM", [], .num (1 / 2)⟩] [1, 2] =
    fuse [⟨"SSIM", [], .num (1 / 2 : Rat)⟩, ⟨"PSNR", [], .num 20⟩] [2, 1] :=
  C27_reordering [(⟨"PSNR", [], .num (20 : Rat)⟩, 1), (⟨"SSIM", [], .num (1 / 2)⟩, 2)]
    [(⟨"SSIM", [], .num (1 / 2 : Rat)⟩, 2), (⟨"PSNR", [], .num 20⟩, 1)] (List.Perm.swap _ _ _) (by
      intro e he
      simp only [List.mem_cons, List.not_mem_nil, or_false] at he
      rcases he with rfl | rfl <;> exact ⟨_, rfl⟩)

/-- A metric that has not been scored raises a TypeError (if enough weights are given). -/
theorem C27_unscored (ms ms' : List (MetricObj Rat)) (vs ws ws' : List Rat) (m : MetricObj Rat) (w : Rat)
    (hs : Scored ms vs) (hl : ms.length = ws.length) (hm : m.score = .unset) :
    ∃ t, fuse (ms ++ m :: ms') (ws ++ w :: ws') = .error (.typeError t) := by
  have hl' : vs.length = ws.length := by
    have := congrArg List.length hs; simp at this; omega
  unfold fuse
  rw [List.map_append, List.map_cons, hs, hm]
  clear hs hl
  generalize (0 : Rat) = acc
  induction vs generalizing acc ws with
  | nil => cases ws with
    | nil => exact ⟨_, rfl⟩
    | cons w ws => simp at hl'
  | cons v vs ih =>
    cases ws with
    | nil => simp at hl'
    | cons w ws =>
      simp only [List.length_cons, Nat.add_right_cancel_iff] at hl'
      rw [List.map_cons, List.cons_append, List.cons_append, fuseAux]
      exact ih ws hl' _

example : fuse [⟨"PSNR", [], .num (20 : Rat)⟩, ⟨"SSIM", [], .num (1 / 2)⟩] [1 / 2, 1 / 2] = .ok (41 / 4) := by
  decide +kernel

end fusion

end Viqa
