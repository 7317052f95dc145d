import Verif.Model.BatchHistory
import Verif.Props.BatchPackage

/-!
Several calls of `calculate`: C142 and C143.
-/

namespace Viqa

open Spec

namespace Spec

/-- A dictionary with the elements of a list under their numbers. -/
def numbered {V : Type} (l : List V) : ODict Txt V := l.mapIdx (fun i v => (decimal i, v))

end Spec

theorem numbered_keys {V : Type} (l : List V) : (numbered l).map Prod.fst = (List.range l.length).map decimal := by
  apply List.ext_getElem
  · simp [numbered]
  · intro i h1 h2
    simp [numbered]

theorem set_numbered {V : Type} (l : List V) (i : Nat) (hi : i ≤ l.length) (v : V) :
    ODict.set (numbered l) (decimal i) v = numbered (l.take i ++ v :: l.drop (i + 1)) := by
  unfold ODict.set
  rw [numbered_keys]
  by_cases h : i = l.length
  · rw [if_neg]
    · subst h
      rw [List.take_length, List.drop_eq_nil_of_le (by omega)]
      unfold numbered
      rw [List.mapIdx_append]
      simp
    · simp only [List.mem_map, List.mem_range, not_exists, not_and]
      intro x hx hxe
      have := decimal_inj hxe
      omega
  · rw [if_pos]
    · apply List.ext_getElem
      · simp [numbered]
        omega
      · intro j h1 h2
        simp only [numbered, List.getElem_map, List.getElem_mapIdx]
        simp only [numbered, List.length_map, List.length_mapIdx] at h1
        by_cases hj : j = i
        · subst hj
          simp [List.getElem_append_right, Nat.min_eq_left hi]
        · rw [if_neg (fun he => hj (decimal_inj he))]
          congr 1
          rw [List.getElem_append]
          split
          · simp
          · rename_i hl
            simp only [List.length_take] at hl
            have : j - min i l.length = (j - i - 1) + 1 := by omega
            simp only [List.length_take, this, List.getElem_cons_succ, List.getElem_drop]
            congr 1
            omega
    · simp only [List.mem_map, List.mem_range]
      exact ⟨i, by omega, rfl⟩

section Run
variable {L I R S : Type} (metrics : List (BMetric I S)) (rois : Option (List (Option R)))

/-- The same turn for other stored results. -/
theorem batchStep_restored (env : BatchEnv L I R) (g : Option R) (st : BatchState L S) (num : Nat) (p : Pair)
    (old : ODict Txt (ODict Key S)) (a b : List Txt) (c : Nat) :
    (∀ e, batchStep env metrics g rois st num p = .error e →
      batchStep env metrics g rois ⟨st.ref, st.mod, st.last, old, a, b, c⟩ num p = .error e) ∧
    (∀ st', batchStep env metrics g rois st num p = .ok st' → ∃ d a' b' c',
      st'.results = ODict.set st.results (decimal num) d ∧
      batchStep env metrics g rois ⟨st.ref, st.mod, st.last, old, a, b, c⟩ num p =
        .ok ⟨st'.ref, st'.mod, st'.last, ODict.set old (decimal num) d, a', b', c'⟩) := by
  unfold batchStep
  simp only
  split
  · refine ⟨fun e h => (by cases h), fun st' h => ?_⟩
    cases h
    exact ⟨_, _, _, _, rfl, rfl⟩
  · split
    · refine ⟨fun e h => (by cases h; rfl), fun st' h => (by cases h)⟩
    · split
      · refine ⟨fun e h => (by cases h; rfl), fun st' h => (by cases h)⟩
      · split
        · refine ⟨fun e h => (by cases h; rfl), fun st' h => (by cases h)⟩
        · split
          · refine ⟨fun e h => (by cases h; rfl), fun st' h => (by cases h)⟩
          · refine ⟨fun e h => (by cases h), fun st' h => ?_⟩
            cases h
            exact ⟨_, _, _, _, rfl, rfl⟩

/-- The same loop for other stored results: what is written and the outcome do not depend on them. -/
theorem batchRun_restored (env : BatchEnv L I R) (g : Option R) (ps : List Pair) (num : Nat) (st : BatchState L S)
    (mine old : List (ODict Key S)) (a b : List Txt) (c : Nat) (hm : mine.length = num)
    (h : st.results = numbered mine) :
    ∃ ds : List (ODict Key S), ds.length ≤ ps.length ∧
      (batchRun env metrics g rois ps num st).1.results = numbered (mine ++ ds) ∧
      (batchRun env metrics g rois ps num ⟨st.ref, st.mod, st.last, numbered (mine ++ old), a, b, c⟩).1.results =
        numbered (mine ++ ds ++ old.drop ds.length) ∧
      (batchRun env metrics g rois ps num ⟨st.ref, st.mod, st.last, numbered (mine ++ old), a, b, c⟩).2 =
        (batchRun env metrics g rois ps num st).2 ∧
      ((batchRun env metrics g rois ps num st).2 = .ok () → ds.length = ps.length) := by
  induction ps generalizing num st mine old a b c with
  | nil => exact ⟨[], by simp, by simpa [batchRun] using h, by simp [batchRun], rfl, by simp⟩
  | cons p ps ih =>
    have key := batchStep_restored metrics rois env g st num p (numbered (mine ++ old)) a b c
    cases hs : batchStep env metrics g rois st num p with
    | error e =>
      refine ⟨[], by simp, ?_, ?_, ?_, ?_⟩
      · simp only [batchRun, hs]; simpa using h
      · simp only [batchRun, key.1 e hs]; simp
      · simp only [batchRun, key.1 e hs, hs]
      · simp only [batchRun, hs]; intro h'; cases h'
    | ok st' =>
      obtain ⟨d, a', b', c', h1, h2⟩ := key.2 st' hs
      have e1 : ODict.set (numbered (mine ++ old)) (decimal num) d = numbered ((mine ++ [d]) ++ old.drop 1) := by
        rw [set_numbered _ _ (by simp; omega)]
        congr 1
        subst hm
        simp [List.drop_append]
      have e2 : st'.results = numbered (mine ++ [d]) := by
        rw [h1, h, set_numbered _ _ (by omega)]
        congr 1
        subst hm
        simp
      rw [e1] at h2
      obtain ⟨ds, g1, g2, g3, g4, g5⟩ := ih (num + 1) st' (mine ++ [d]) (old.drop 1) a' b' c' (by simp [hm]) e2
      refine ⟨d :: ds, by simpa using g1, ?_, ?_, ?_, ?_⟩
      · simp only [batchRun, hs]; rw [g2]; simp
      · simp only [batchRun, h2]; rw [g3]; simp
      · simp only [batchRun, h2, hs]; exact g4
      · simp only [batchRun, hs]; intro h'; simp [g5 h']

/-- The loop with the state at an exception is the loop of C62 to C66 if there is none. -/
theorem batchRun_ok (env : BatchEnv L I R) (g : Option R) (ps : List Pair) (num : Nat) (st st' : BatchState L S) :
    batchLoop env metrics g rois ps num st = .ok st' ↔ batchRun env metrics g rois ps num st = (st', .ok ()) := by
  induction ps generalizing num st with
  | nil => simp [batchLoop, batchRun]
  | cons p ps ih =>
    simp only [batchLoop, batchRun]
    cases hs : batchStep env metrics g rois st num p with
    | error e => simp
    | ok s1 => exact ih (num + 1) s1

variable (pairs : List Pair)

/-- One call on an object whose entries are numbered. -/
theorem batchCall_entries (w : BatchMemory R S) (c : BatchCall L I R) (old : List (ODict Key S))
    (hw : w.results < w.dicts.length) (h : w.entries = numbered old) :
    ∃ ds : List (ODict Key S), ds.length ≤ pairs.length ∧
      (batchCall metrics rois pairs .new c).1.entries = numbered ds ∧
      (batchCall metrics rois pairs w c).1.entries = numbered (ds ++ old.drop ds.length) ∧
      (batchCall metrics rois pairs w c).2 = (batchCall metrics rois pairs .new c).2.map (fun _ => w.results) ∧
      ((batchCall metrics rois pairs .new c).2 = .ok 0 → ds.length = pairs.length) := by
  obtain ⟨ds, h1, h2, h3, h4, h5⟩ := batchRun_restored metrics rois c.env c.roi pairs 0
    ⟨none, none, none, [], [], [], 0⟩ [] old [] [] 0 rfl rfl
  unfold BatchMemory.entries at h
  simp only [List.nil_append] at h2 h3 h4
  refine ⟨ds, h1, ?_, ?_, ?_, ?_⟩
  · simpa [batchCall, BatchMemory.entries, BatchMemory.new] using h2
  · simp only [batchCall, BatchMemory.entries, h]
    rw [List.getD_eq_getElem?_getD, List.getElem?_set_self hw]
    exact h3
  · simp only [batchCall, h, BatchMemory.new, List.getD_cons_zero]
    rw [h4]
    cases (batchRun c.env metrics c.roi rois pairs 0 ⟨none, none, none, [], [], [], 0⟩).2 <;> rfl
  · simp only [batchCall, BatchMemory.new, List.getD_cons_zero]
    intro h6
    apply h5
    cases h7 : (batchRun c.env metrics c.roi rois pairs 0 ⟨none, none, none, [], [], [], 0⟩).2 with
    | error e => rw [h7] at h6; cases h6
    | ok u => rfl

/-- After every sequence of calls the entries are numbered from 0, at most one per pair. -/
theorem batchCalls_entries (cs : List (BatchCall L I R)) (w : BatchMemory R S) (old : List (ODict Key S))
    (hw : w.results < w.dicts.length) (h : w.entries = numbered old) (hl : old.length ≤ pairs.length) :
    (batchCalls metrics rois pairs cs w).results = w.results ∧
    (batchCalls metrics rois pairs cs w).dicts.length = w.dicts.length ∧
    ∃ l, (batchCalls metrics rois pairs cs w).entries = numbered l ∧ l.length ≤ pairs.length := by
  induction cs generalizing w old with
  | nil => exact ⟨rfl, rfl, old, h, hl⟩
  | cons c cs ih =>
    obtain ⟨ds, h1, h2, h3, h4, h5⟩ := batchCall_entries metrics rois pairs w c old hw h
    have hw' : (batchCall metrics rois pairs w c).1.results < (batchCall metrics rois pairs w c).1.dicts.length := by
      simpa [batchCall] using hw
    obtain ⟨g1, g2, g3⟩ := ih (batchCall metrics rois pairs w c).1 _ hw' h3 (by simp; omega)
    refine ⟨g1, ?_, g3⟩
    simp only [batchCalls]
    rw [g2]
    simp [batchCall]

/-- **C142, partial** (calls that return). Whatever was calculated before with an object, also by calls that raised: a
call of `BatchMetrics.calculate` returns if and only if it returns for a new object, and then the results of the object
are those of a new object. Missing: calls that raise, see `C142_interrupted` and `C142_refuted`. -/
theorem C142_returned_partial (cs : List (BatchCall L I R)) (c : BatchCall L I R) :
    ((∃ a, (batchCall metrics rois pairs (batchCalls metrics rois pairs cs .new) c).2 = .ok a) ↔
      ∃ a, (batchCall metrics rois pairs .new c).2 = .ok a) ∧
    (∀ a, (batchCall metrics rois pairs (batchCalls metrics rois pairs cs .new) c).2 = .ok a →
      (batchCall metrics rois pairs (batchCalls metrics rois pairs cs .new) c).1.entries =
        (batchCall metrics rois pairs .new c).1.entries) := by
  obtain ⟨h1, h2, l, h3, h4⟩ := batchCalls_entries metrics rois pairs cs .new [] (by simp [BatchMemory.new]) rfl (by simp)
  obtain ⟨ds, g1, g2, g3, g4, g5⟩ := batchCall_entries metrics rois pairs _ c l
    (by rw [h1, h2]; simp [BatchMemory.new]) h3
  constructor
  · rw [g4]
    cases (batchCall metrics rois pairs .new c).2 <;> simp [Except.map]
  · intro a ha
    rw [g4] at ha
    rw [g3, g2]
    have : (batchCall metrics rois pairs .new c).2 = .ok 0 := by
      cases hb : (batchCall metrics rois pairs .new c).2 with
      | error e => rw [hb] at ha; cases ha
      | ok b =>
        simp only [batchCall, BatchMemory.new] at hb
        cases hr : (batchRun c.env metrics c.roi rois pairs 0 ⟨none, none, none, [[]].getD 0 [], [], [], 0⟩).2 with
        | error e => rw [hr] at hb; cases hb
        | ok u => rw [hr] at hb; cases hb; rfl
    rw [List.drop_eq_nil_of_le (by rw [g5 this]; exact h4), List.append_nil]

/-- A first call that cannot read the second pair, then a call that can. -/
example (a : Nat) (h : (batchCall ToyBatch.metrics none ToyBatch.pairs (batchCalls ToyBatch.metrics none ToyBatch.pairs
      [⟨⟨fun p => if p.length = 2 then .error .fileNotFound else .ok 5, ToyBatch.env.prep⟩, none⟩] .new) ⟨ToyBatch.env, none⟩).2 = .ok a) :
    (batchCall ToyBatch.metrics none ToyBatch.pairs (batchCalls ToyBatch.metrics none ToyBatch.pairs
      [⟨⟨fun p => if p.length = 2 then .error .fileNotFound else .ok 5, ToyBatch.env.prep⟩, none⟩] .new) ⟨ToyBatch.env, none⟩).1.entries =
    [(['0'], [(some "T_r", 1), (some "T_m", 1), (some "D", 2)]), (['1'], [(some "T_r", 1), (some "T_m", 2), (some "D", 3)])] :=
  ((C142_returned_partial _ _ _ _ _).2 a h).trans (by decide +kernel)

/-- **C142** for a call that raises: the results calculated before the exception replace those of earlier calls, the
others stay. -/
theorem C142_interrupted (cs : List (BatchCall L I R)) (c : BatchCall L I R) :
    ∃ before now : List (ODict Key S),
      (batchCalls metrics rois pairs cs .new).entries = numbered before ∧
      (batchCall metrics rois pairs .new c).1.entries = numbered now ∧
      (batchCall metrics rois pairs (batchCalls metrics rois pairs cs .new) c).1.entries =
        numbered (now ++ before.drop now.length) := by
  obtain ⟨h1, h2, l, h3, h4⟩ := batchCalls_entries metrics rois pairs cs .new [] (by simp [BatchMemory.new]) rfl (by simp)
  obtain ⟨ds, g1, g2, g3, g4, g5⟩ := batchCall_entries metrics rois pairs _ c l
    (by rw [h1, h2]; simp [BatchMemory.new]) h3
  exact ⟨l, ds, h3, g2, g3⟩

example : ∃ before now : List (ODict Key Nat),
    (batchCalls ToyBatch.metrics none ToyBatch.pairs [⟨ToyBatch.env, none⟩] .new).entries = numbered before ∧
    (batchCall ToyBatch.metrics none ToyBatch.pairs .new
      ⟨⟨fun p => if p.length = 2 then .error .fileNotFound else .ok 5, ToyBatch.env.prep⟩, none⟩).1.entries = numbered now ∧
    (batchCalls ToyBatch.metrics none ToyBatch.pairs [⟨ToyBatch.env, none⟩,
      ⟨⟨fun p => if p.length = 2 then .error .fileNotFound else .ok 5, ToyBatch.env.prep⟩, none⟩] .new).entries =
      numbered (now ++ before.drop now.length) :=
  C142_interrupted ToyBatch.metrics none ToyBatch.pairs [⟨ToyBatch.env, none⟩] _

example : (batchCalls ToyBatch.metrics none ToyBatch.pairs [⟨ToyBatch.env, none⟩,
      ⟨⟨fun p => if p.length = 2 then .error .fileNotFound else .ok 5, ToyBatch.env.prep⟩, none⟩] .new).entries =
    [(['0'], [(some "T_r", 5), (some "T_m", 5), (some "D", 10)]), (['1'], [(some "T_r", 1), (some "T_m", 2), (some "D", 3)])] := by
  decide +kernel

/-- The claim: the results of an object are those of one call. -/
def ResultsOfOneCall (metrics : List (BMetric I S)) (rois : Option (List (Option R))) (pairs : List Pair)
    (calls : List (BatchCall L I R)) : Prop :=
  (batchCalls metrics rois pairs calls .new).entries = [] ∨
    ∃ c ∈ calls, (batchCalls metrics rois pairs calls .new).entries = (batchCall metrics rois pairs .new c).1.entries

/-- **C142** for `MultipleMetrics`: the results are those of the last call that returned. -/
theorem C142_multiple (cs : List (MultipleCall L I R)) :
    (multipleCalls metrics cs .new).dicts[(multipleCalls metrics cs .new).results]? =
      some ((cs.filterMap (fun c => (calcPair c.env metrics c.reference c.modified c.roi none none).toOption)).getLast?.getD
        ([] : ODict Key S)) := by
  suffices h : ∀ (w : MultipleMemory S) d, w.dicts[w.results]? = some d →
      (multipleCalls metrics cs w).dicts[(multipleCalls metrics cs w).results]? =
      some ((cs.filterMap (fun c => (calcPair c.env metrics c.reference c.modified c.roi none none).toOption)).getLast?.getD d) from
    h .new [] rfl
  induction cs with
  | nil => intro w d h; simpa [multipleCalls] using h
  | cons c cs ih =>
    intro w d h
    simp only [multipleCalls, multipleCall, List.filterMap_cons]
    cases hc : calcPair c.env metrics c.reference c.modified c.roi none none with
    | error e => simpa [Except.toOption] using ih w d h
    | ok d' =>
      simp only [Except.toOption]
      rw [ih ⟨w.dicts ++ [d'], w.dicts.length⟩ d' (by simp), List.getLast?_cons]
      rfl

/-- The last call raises. -/
example : (multipleCalls ToyBatch.metrics [⟨ToyBatch.env, 1, 2, none⟩, ⟨ToyBatch.env, 3, 4, none⟩,
      ⟨⟨ToyBatch.env.load, fun _ _ _ => .error .indexError⟩, 5, 6, none⟩] .new).dicts[2]? =
    some [(some "T_r", 3), (some "T_m", 4), (some "D", 7)] :=
  (C142_multiple ToyBatch.metrics [⟨ToyBatch.env, 1, 2, none⟩, ⟨ToyBatch.env, 3, 4, none⟩,
    ⟨⟨ToyBatch.env.load, fun _ _ _ => .error .indexError⟩, 5, 6, none⟩]).trans (by decide +kernel)

/-- **C143** for `MultipleMetrics`: the dictionary returned by a call holds the results of that call, whatever is
called before and afterwards. -/
theorem C143_multiple (before after : List (MultipleCall L I R)) (c : MultipleCall L I R) (a : Nat)
    (h : (multipleCall metrics (multipleCalls metrics before .new) c).2 = .ok a) :
    ∃ d, calcPair c.env metrics c.reference c.modified c.roi none none = .ok d ∧
      (multipleCalls metrics after (multipleCall metrics (multipleCalls metrics before .new) c).1).dicts[a]? = some d := by
  have keep : ∀ (cs : List (MultipleCall L I R)) (w : MultipleMemory S) (i : Nat) d, w.dicts[i]? = some d →
      (multipleCalls metrics cs w).dicts[i]? = some d := by
    intro cs
    induction cs with
    | nil => intro w i d hd; exact hd
    | cons c cs ih =>
      intro w i d hd
      simp only [multipleCalls]
      apply ih
      unfold multipleCall
      split
      · exact hd
      · simp only
        rw [List.getElem?_append_left (List.getElem?_eq_some_iff.1 hd).1]
        exact hd
  revert h
  generalize multipleCalls metrics before .new = w
  unfold multipleCall
  intro h
  split at h
  · cases h
  · rename_i d hd
    cases h
    exact ⟨d, hd, keep _ _ _ _ (by simp)⟩

example : ∃ d, calcPair ToyBatch.env ToyBatch.metrics 1 2 none none none = .ok d ∧
    (multipleCalls ToyBatch.metrics [⟨ToyBatch.env, 1, 2, none⟩, ⟨ToyBatch.env, 3, 4, none⟩] .new).dicts[1]? = some d :=
  C143_multiple ToyBatch.metrics [] [⟨ToyBatch.env, 3, 4, none⟩] ⟨ToyBatch.env, 1, 2, none⟩ 1 rfl

/-- The claim for `BatchMetrics`: a dictionary that was returned keeps its entries. -/
def ReturnedStays (metrics : List (BMetric I S)) (rois : Option (List (Option R))) (pairs : List Pair)
    (before after : List (BatchCall L I R)) (c : BatchCall L I R) : Prop :=
  ∀ a, (batchCall metrics rois pairs (batchCalls metrics rois pairs before .new) c).2 = .ok a →
    (batchCalls metrics rois pairs after
      (batchCall metrics rois pairs (batchCalls metrics rois pairs before .new) c).1).dicts[a]? =
    (batchCall metrics rois pairs (batchCalls metrics rois pairs before .new) c).1.dicts[a]?

/-- All calls return the dictionary of the object. -/
theorem batchCalls_results (cs : List (BatchCall L I R)) (w : BatchMemory R S) :
    (batchCalls metrics rois pairs cs w).results = w.results ∧
    (batchCalls metrics rois pairs cs w).dicts.length = w.dicts.length := by
  induction cs generalizing w with
  | nil => exact ⟨rfl, rfl⟩
  | cons c cs ih =>
    obtain ⟨h1, h2⟩ := ih (batchCall metrics rois pairs w c).1
    exact ⟨h1, by simp only [batchCalls]; rw [h2]; simp [batchCall]⟩

/-- **C143** for `BatchMetrics`: every dictionary returned by some call is the one of the object. After further calls
it holds the results of the object at that time. -/
theorem C143_shared (before after : List (BatchCall L I R)) (c : BatchCall L I R) (a : Nat)
    (h : (batchCall metrics rois pairs (batchCalls metrics rois pairs before .new) c).2 = .ok a) :
    (batchCalls metrics rois pairs (before ++ c :: after) .new).dicts[a]? =
      some (batchCalls metrics rois pairs (before ++ c :: after) .new).entries := by
  have e0 := batchCalls_results metrics rois pairs before .new
  have e1 := batchCalls_results metrics rois pairs (before ++ c :: after) .new
  have ha : a = 0 := by
    simp only [batchCall] at h
    cases hr : (batchRun c.env metrics c.roi rois pairs 0 ⟨none, none, none,
      (batchCalls metrics rois pairs before .new).dicts.getD (batchCalls metrics rois pairs before .new).results [], [], [], 0⟩).2 with
    | error e => rw [hr] at h; cases h
    | ok u => rw [hr] at h; cases h; exact e0.1
  unfold BatchMemory.entries
  rw [e1.1, ha, List.getD_eq_getElem?_getD, show (BatchMemory.new : BatchMemory R S).results = 0 from rfl,
    List.getElem?_eq_getElem (by rw [e1.2]; simp [BatchMemory.new])]
  rfl

example (a : Nat) (h : (batchCall ToyBatch.metrics none ToyBatch.pairs .new ⟨ToyBatch.env, none⟩).2 = .ok a) :
    (batchCalls ToyBatch.metrics none ToyBatch.pairs [⟨ToyBatch.env, none⟩,
      ⟨⟨fun _ => .ok 5, ToyBatch.env.prep⟩, none⟩] .new).dicts[a]? =
    some [(['0'], [(some "T_r", 5), (some "T_m", 5), (some "D", 10)]), (['1'], [(some "T_r", 5), (some "T_m", 5), (some "D", 10)])] :=
  (C143_shared ToyBatch.metrics none ToyBatch.pairs [] [⟨⟨fun _ => .ok 5, ToyBatch.env.prep⟩, none⟩] ⟨ToyBatch.env, none⟩ a h).trans
    (by decide +kernel)

theorem batchCalls_append (cs cs' : List (BatchCall L I R)) (w : BatchMemory R S) :
    batchCalls metrics rois pairs (cs ++ cs') w =
      batchCalls metrics rois pairs cs' (batchCalls metrics rois pairs cs w) := by
  induction cs generalizing w with
  | nil => rfl
  | cons c cs ih => exact ih _

/-- **C143, partial** for `BatchMetrics`: a returned dictionary keeps its entries as long as the same calculation is
repeated. Missing: other calculations, see `C143_refuted`. -/
theorem C143_repeated_partial (before : List (BatchCall L I R)) (c : BatchCall L I R) (n : Nat) :
    ReturnedStays metrics rois pairs before (List.replicate n c) c := by
  intro a ha
  induction n with
  | zero => rfl
  | succ n ih =>
    have s1 := C143_shared metrics rois pairs before [] c a ha
    have s2 := C143_shared metrics rois pairs before (List.replicate (n + 1) c) c a ha
    have f : ∀ l, batchCalls metrics rois pairs (before ++ c :: l) .new =
        batchCalls metrics rois pairs l (batchCall metrics rois pairs (batchCalls metrics rois pairs before .new) c).1 := by
      intro l
      rw [batchCalls_append]
      rfl
    rw [f] at s1 s2
    simp only [batchCalls] at s1
    rw [s1, s2]
    congr 1
    have hret := (C142_returned_partial metrics rois pairs before c).2 a ha
    obtain ⟨b, hb⟩ := (C142_returned_partial metrics rois pairs before c).1.1 ⟨a, ha⟩
    have g : ∀ m, batchCalls metrics rois pairs (before ++ List.replicate (m + 1) c) .new =
        (batchCall metrics rois pairs (batchCalls metrics rois pairs (before ++ List.replicate m c) .new) c).1 := by
      intro m
      rw [List.replicate_succ', ← List.append_assoc, batchCalls_append]
      rfl
    have f' := f (List.replicate (n + 1) c)
    rw [show c :: List.replicate (n + 1) c = List.replicate (n + 1 + 1) c from rfl, g] at f'
    rw [← f', hret]
    obtain ⟨b', hb'⟩ := (C142_returned_partial metrics rois pairs (before ++ List.replicate (n + 1) c) c).1.2 ⟨b, hb⟩
    exact (C142_returned_partial metrics rois pairs (before ++ List.replicate (n + 1) c) c).2 b' hb'

example : ReturnedStays ToyBatch.metrics none ToyBatch.pairs [⟨⟨fun _ => .ok 5, ToyBatch.env.prep⟩, none⟩]
    [⟨ToyBatch.env, none⟩, ⟨ToyBatch.env, none⟩] ⟨ToyBatch.env, none⟩ :=
  C143_repeated_partial ToyBatch.metrics none ToyBatch.pairs _ ⟨ToyBatch.env, none⟩ 2

end Run

/-! ### Refutations -/

namespace BatchWitness

/-- A calculation of all, then one with a region that is rejected for the second pair of `pairsShape`. -/
def interrupted : List (BatchCall (Image Rat) (Image Rat) Roi) := [⟨env, none⟩, ⟨env, left⟩]

/-- Values of the entries. -/
def shown (d : ODict Txt (ODict Key Rat)) : List (List Rat) := d.map (fun e => e.2.map Prod.snd)

theorem interrupted_all : shown (batchCall [total] none pairsShape .new ⟨env, none⟩).1.entries = [[12, 8], [4, 8]] := by
  decide +kernel

theorem interrupted_left : shown (batchCall [total] none pairsShape .new ⟨env, left⟩).1.entries = [[1, 2]] := by
  decide +kernel

theorem interrupted_both : shown (batchCalls [total] none pairsShape interrupted .new).entries = [[1, 2], [4, 8]] := by
  decide +kernel

theorem regions_first : shown (batchCall [total] none [⟨['a'], ['m']⟩] .new ⟨env, left⟩).1.entries = [[1, 2]] := by
  decide +kernel

theorem regions_second : shown (batchCalls [total] none [⟨['a'], ['m']⟩] [⟨env, left⟩, ⟨env, right⟩] .new).entries = [[5, 2]] := by
  decide +kernel

theorem regions_returned : (batchCall [total] none [⟨['a'], ['m']⟩] .new ⟨env, left⟩).2.toBool = true := by
  decide +kernel

end BatchWitness

/-- **C142, refuted** for `BatchMetrics`: a calculation of all images followed by one with a region that is rejected
for the second pair (which raises) leaves the region's result for the first pair and the whole image's result for the
second. A report then lists both. -/
theorem C142_refuted : ¬ ∀ resize cast disk (metrics : List (BMetric (Image Rat) Rat)) (rois : Option (List (Option Roi)))
    pairs (calls : List (BatchCall (Image Rat) (Image Rat) Roi)),
    (∀ c ∈ calls, c.env = packageEnv resize cast disk {}) → ResultsOfOneCall metrics rois pairs calls := by
  intro h
  rcases h BatchWitness.nearest (fun _ v => v) BatchWitness.files [BatchWitness.total] none BatchWitness.pairsShape
    BatchWitness.interrupted (by intro c hc; simp only [BatchWitness.interrupted, List.mem_cons, List.not_mem_nil, or_false] at hc
                                 rcases hc with rfl | rfl <;> rfl) with h | ⟨c, hc, h⟩
  · have := BatchWitness.interrupted_both
    rw [h] at this
    cases this
  · have := BatchWitness.interrupted_both
    rw [h] at this
    simp only [BatchWitness.interrupted, List.mem_cons, List.not_mem_nil, or_false] at hc
    rcases hc with rfl | rfl
    · rw [BatchWitness.interrupted_all] at this
      revert this
      decide +kernel
    · rw [BatchWitness.interrupted_left] at this
      revert this
      decide +kernel

example : ResultsOfOneCall [BatchWitness.total] none BatchWitness.pairsShape [(⟨BatchWitness.env, none⟩ : BatchCall _ _ Roi)] :=
  .inr ⟨_, List.mem_singleton_self _, rfl⟩

/-- **C143, refuted** for `BatchMetrics`: the results for one region, kept by the caller, are overwritten by a
calculation for another region. -/
theorem C143_refuted : ¬ ∀ resize cast disk (metrics : List (BMetric (Image Rat) Rat)) (rois : Option (List (Option Roi)))
    pairs (before after : List (BatchCall (Image Rat) (Image Rat) Roi)) c,
    (∀ x ∈ c :: (before ++ after), x.env = packageEnv resize cast disk {}) →
    ReturnedStays metrics rois pairs before after c := by
  intro h
  have h := h BatchWitness.nearest (fun _ v => v) BatchWitness.files [BatchWitness.total] none [⟨['a'], ['m']⟩]
    [] [⟨BatchWitness.env, BatchWitness.right⟩] ⟨BatchWitness.env, BatchWitness.left⟩
    (by intro x hx; simp only [List.nil_append, List.mem_cons, List.not_mem_nil, or_false] at hx
        rcases hx with rfl | rfl <;> rfl)
  have hr := BatchWitness.regions_returned
  cases hc : (batchCall [BatchWitness.total] none [⟨['a'], ['m']⟩] .new ⟨BatchWitness.env, BatchWitness.left⟩).2 with
  | error e => rw [hc] at hr; cases hr
  | ok a =>
    have s1 := C143_shared [BatchWitness.total] none [⟨['a'], ['m']⟩] [] [] ⟨BatchWitness.env, BatchWitness.left⟩ a hc
    have s2 := C143_shared [BatchWitness.total] none [⟨['a'], ['m']⟩] [] [⟨BatchWitness.env, BatchWitness.right⟩]
      ⟨BatchWitness.env, BatchWitness.left⟩ a hc
    have := h a hc
    have s3 := (s2.symm.trans (this.trans s1))
    have := BatchWitness.regions_second
    rw [show batchCalls [BatchWitness.total] none [⟨['a'], ['m']⟩] [⟨BatchWitness.env, BatchWitness.left⟩,
      ⟨BatchWitness.env, BatchWitness.right⟩] .new = batchCalls [BatchWitness.total] none [⟨['a'], ['m']⟩]
      ([] ++ ⟨BatchWitness.env, BatchWitness.left⟩ :: [⟨BatchWitness.env, BatchWitness.right⟩]) .new from rfl,
      Option.some.inj s3] at this
    have f := BatchWitness.regions_first
    rw [show (batchCall [BatchWitness.total] none [⟨['a'], ['m']⟩] .new ⟨BatchWitness.env, BatchWitness.left⟩).1 =
      batchCalls [BatchWitness.total] none [⟨['a'], ['m']⟩] ([] ++ [⟨BatchWitness.env, BatchWitness.left⟩]) .new from rfl,
      this] at f
    revert f
    decide +kernel

example : ReturnedStays [BatchWitness.total] none [⟨['a'], ['m']⟩] [] [⟨BatchWitness.env, BatchWitness.left⟩]
    (⟨BatchWitness.env, BatchWitness.left⟩ : BatchCall _ _ Roi) :=
  C143_repeated_partial _ _ _ [] _ 1

end Viqa
