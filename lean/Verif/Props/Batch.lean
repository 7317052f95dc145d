import Verif.Model.Batch
import Verif.Lemmas.Images
import Verif.Lemmas.Text
import Mathlib.Data.List.Destutter

/-!
Properties of `MultipleMetrics` and `BatchMetrics`: C61 to C66.
-/

namespace Viqa

open Spec

/-! ### Dictionaries -/

section Dict
variable {K V : Type} [DecidableEq K]

theorem set_keys (d : ODict K V) (k : K) (v : V) :
    (ODict.set d k v).map Prod.fst = if k ∈ d.map Prod.fst then d.map Prod.fst else d.map Prod.fst ++ [k] := by
  unfold ODict.set
  split
  · rw [List.map_map]
    apply List.map_congr_left
    intro e _
    simp only [Function.comp]
    split <;> simp_all
  · simp

theorem get_set_same (d : ODict K V) (k : K) (v : V) : ODict.get (ODict.set d k v) k = .ok v := by
  unfold ODict.get ODict.set
  by_cases h : k ∈ d.map Prod.fst
  · rw [if_pos h]
    induction d with
    | nil => simp at h
    | cons e d ih =>
      simp only [List.map_cons, List.find?_cons]
      by_cases he : e.1 = k
      · simp [he]
      · simp only [if_neg he, decide_eq_false he]
        apply ih
        simp only [List.map_cons, List.mem_cons] at h
        rcases h with h | h
        · exact absurd h.symm he
        · exact h
  · rw [if_neg h, List.find?_append, List.find?_eq_none.2]
    · simp
    · intro e he
      simp only [decide_eq_true_eq]
      intro hk
      exact h (by rw [← hk]; exact List.mem_map_of_mem he)

theorem get_set_other (d : ODict K V) (k k' : K) (v : V) (hne : k' ≠ k) :
    ODict.get (ODict.set d k v) k' = ODict.get d k' := by
  unfold ODict.get ODict.set
  by_cases h : k ∈ d.map Prod.fst
  · rw [if_pos h]
    clear h
    induction d with
    | nil => rfl
    | cons e d ih =>
      simp only [List.map_cons, List.find?_cons]
      by_cases he : e.1 = k
      · simp only [if_pos he, decide_eq_false (show ¬ k = k' from fun h => hne h.symm),
          decide_eq_false (show ¬ e.1 = k' from fun h => hne (h.symm.trans he))]
        exact ih
      · simp only [if_neg he]
        by_cases he' : e.1 = k'
        · simp [he']
        · simp only [decide_eq_false he']
          exact ih
  · rw [if_neg h, List.find?_append]
    cases List.find? (fun e => decide (e.1 = k')) d with
    | some e => rfl
    | none =>
      rw [List.find?_cons, decide_eq_false (show ¬ k = k' from fun h => hne h.symm)]
      rfl

end Dict

theorem decimal_inj {a b : Nat} (h : decimal a = decimal b) : a = b := by
  rw [← digitsVal_decimal a, ← digitsVal_decimal b, h]

/-! ### C61 -/

/-- **C61.** The batch classes are created exactly for lists of equal length of metrics and
dictionaries; a batch also needs a readable file of pairs and, unless there are no regions, as many
regions as pairs. -/
theorem C61_created_iff (metrics : List MetricArg) (params : List ParamArg) :
    (multipleInit metrics params = .ok () ↔
      metrics.length = params.length ∧ (∀ m ∈ metrics, m = .metric) ∧ ∀ p ∈ params, p = .dict) ∧
    (∀ (pairs : Py Nat) (rois : Option Nat), batchInit metrics params pairs rois = .ok () ↔
      (metrics.length = params.length ∧ (∀ m ∈ metrics, m = .metric) ∧ ∀ p ∈ params, p = .dict) ∧
      ∃ n, pairs = .ok n ∧ ∀ k, rois = some k → k = 0 ∨ k = n) := by
  have h1 : multipleInit metrics params = .ok () ↔
      metrics.length = params.length ∧ (∀ m ∈ metrics, m = .metric) ∧ ∀ p ∈ params, p = .dict := by
    unfold multipleInit
    by_cases ha : metrics.length = params.length
    · rw [if_neg (by simpa using ha)]
      by_cases hb : metrics.all (fun m => decide (m = .metric)) = true
      · rw [if_neg (by simpa using hb)]
        by_cases hc : params.all (fun p => decide (p = .dict)) = true
        · rw [if_neg (by simpa using hc)]
          simp only [List.all_eq_true, decide_eq_true_eq] at hb hc
          simp [ha]
          exact ⟨hb, hc⟩
        · rw [if_pos hc]
          simp only [List.all_eq_true, decide_eq_true_eq] at hc
          simp [hc]
      · rw [if_pos hb]
        simp only [List.all_eq_true, decide_eq_true_eq] at hb
        simp [hb]
    · rw [if_pos ha]
      simp [ha]
  refine ⟨h1, ?_⟩
  intro pairs rois
  unfold batchInit
  cases hm : multipleInit metrics params with
  | error e =>
    have : ¬ (metrics.length = params.length ∧ (∀ m ∈ metrics, m = .metric) ∧ ∀ p ∈ params, p = .dict) := by
      rw [← h1, hm]; simp
    simp [this]
  | ok u =>
    have := h1.1 (by rw [hm])
    cases pairs with
    | error e => simp
    | ok n =>
      cases rois with
      | none => simp only [true_iff]; exact ⟨this, n, rfl, by simp⟩
      | some k =>
        simp only
        by_cases hk : k ≠ 0 ∧ n ≠ k
        · rw [if_pos hk]
          simp only [reduceCtorEq, false_iff, not_and, not_exists]
          intro _ x hx h
          cases hx
          rcases h k rfl with h | h
          · exact hk.1 h
          · exact hk.2 h.symm
        · rw [if_neg hk]
          simp only [true_iff]
          refine ⟨this, n, rfl, ?_⟩
          intro k' hk'
          cases hk'
          by_cases h0 : k = 0
          · exact Or.inl h0
          · right
            exact Classical.byContradiction (fun hn => hk ⟨h0, fun h => hn h.symm⟩)

example : multipleInit [.metric, .metric] [.dict, .dict] = .ok () := by decide
example : batchInit [.metric] [.dict] (.ok 3) (some 2) =
    .error (.valueError "The number of pairs and ROIs must be equal.") := by decide

/-! ### C62 -/

/-! Two pairs with the same reference, for the examples: images are numbers, a file holds the length of its name. -/

namespace ToyBatch

def env : BatchEnv Nat Nat Unit := ⟨fun p => .ok p.length, fun r m _ => .ok (r, m)⟩

/-- A metric of one image, and a metric of two. -/
def metrics : List (BMetric Nat Nat) := [⟨some "T", .inl (fun i => .ok (.num i))⟩, ⟨some "D", .inr (fun r m => .ok (.num (r + m)))⟩]

def pairs : List Pair := [⟨['a'], ['m']⟩, ⟨['a'], ['m', 'm']⟩]

end ToyBatch

section Batch
variable {L I R S : Type} (env : BatchEnv L I R) (metrics : List (BMetric I S)) (g : Option R)
  (rois : Option (List (Option R)))

theorem batchStep_results (st st' : BatchState L S) (num : Nat) (p : Pair)
    (h : batchStep env metrics g rois st num p = .ok st') :
    ∃ d, st'.results = ODict.set st.results (decimal num) d := by
  unfold batchStep at h
  split at h
  · cases h; exact ⟨_, rfl⟩
  · split at h
    · cases h
    · split at h
      · cases h
      · split at h
        · cases h
        · split at h
          · cases h
          · cases h; exact ⟨_, rfl⟩

theorem batchLoop_keys_fresh (ps : List Pair) (num : Nat) (st st' : BatchState L S)
    (hk : st.results.map Prod.fst = (List.range num).map decimal)
    (h : batchLoop env metrics g rois ps num st = .ok st') :
    st'.results.map Prod.fst = (List.range (num + ps.length)).map decimal := by
  induction ps generalizing num st with
  | nil => cases h; simpa using hk
  | cons p ps ih =>
    simp only [batchLoop] at h
    cases hs : batchStep env metrics g rois st num p with
    | error e => rw [hs] at h; cases h
    | ok s1 =>
      rw [hs] at h
      obtain ⟨d, hd⟩ := batchStep_results env metrics g rois st s1 num p hs
      have := ih (num + 1) s1 (by
        rw [hd, set_keys, hk, if_neg, List.range_succ, List.map_append]
        · rfl
        · simp only [List.mem_map, List.mem_range, not_exists, not_and]
          intro x hx hxe
          have := decimal_inj hxe
          omega) h
      rw [this, List.length_cons]
      congr 2
      omega

theorem batchLoop_keys_full (ps : List Pair) (num total : Nat) (st st' : BatchState L S)
    (hk : st.results.map Prod.fst = (List.range total).map decimal) (hle : num + ps.length ≤ total)
    (h : batchLoop env metrics g rois ps num st = .ok st') :
    st'.results.map Prod.fst = (List.range total).map decimal := by
  induction ps generalizing num st with
  | nil => cases h; exact hk
  | cons p ps ih =>
    simp only [batchLoop] at h
    cases hs : batchStep env metrics g rois st num p with
    | error e => rw [hs] at h; cases h
    | ok s1 =>
      rw [hs] at h
      obtain ⟨d, hd⟩ := batchStep_results env metrics g rois st s1 num p hs
      simp only [List.length_cons] at hle
      refine ih (num + 1) s1 ?_ (by omega) h
      rw [hd, set_keys, hk, if_pos]
      simp only [List.mem_map, List.mem_range]
      exact ⟨num, by omega, rfl⟩

/-- **C62.** After a successful calculation there is exactly one result per pair, under the numbers of
the pairs in their order, for a new object and for repeated calculations. -/
theorem C62_complete (pairs : List Pair) (results : ODict Txt (ODict Key S)) (st : BatchState L S)
    (h0 : results = [] ∨ results.map Prod.fst = (List.range pairs.length).map decimal)
    (h : batchCalculate env metrics g rois pairs results = .ok st) :
    st.results.map Prod.fst = (List.range pairs.length).map decimal ∧ (st.results.map Prod.fst).Nodup ∧
    st.results.length = pairs.length := by
  have hk : st.results.map Prod.fst = (List.range pairs.length).map decimal := by
    rcases h0 with h0 | h0
    · subst h0
      have := batchLoop_keys_fresh env metrics g rois pairs 0 _ st rfl h
      simpa using this
    · exact batchLoop_keys_full env metrics g rois pairs 0 _ _ st h0 (by omega) h
  refine ⟨hk, ?_, ?_⟩
  · rw [hk]
    exact List.Nodup.map (fun _ _ => decimal_inj) List.nodup_range
  · have := congrArg List.length hk
    simpa using this

example (st : BatchState Nat Nat) (h : batchCalculate ToyBatch.env ToyBatch.metrics none none ToyBatch.pairs [] = .ok st) :
    st.results.map Prod.fst = [['0'], ['1']] :=
  (C62_complete _ _ _ _ _ _ st (.inl rfl) h).1.trans (by decide +kernel)

/-! ### C63 -/

/-- The result of a pair alone. -/
def soloResult (p : Pair) (roi : Option R) : Py (ODict Key S) :=
  match env.load p.reference with
  | .error e => .error e
  | .ok r => match env.load p.modified with
    | .error e => .error e
    | .ok m => calcPair env metrics r m roi none none

/-- Names under which the results of a metric are stored. -/
def metricKeys (b : BMetric I S) : List Key :=
  match b.run with
  | .inl _ => [b.name.map (· ++ "_r"), b.name.map (· ++ "_m")]
  | .inr _ => [b.name]

/-- A number as result. -/
def scoreNum (x : Py (Score S)) : Py S := match x with
  | .error e => .error e
  | .ok s => s.toFloat

theorem halfStep_none (name : Option String) (suf : String) (score : I → Py (Score S)) (img : I)
    (acc d : ODict Key S) (h : halfStep name suf score img none acc = .ok d) :
    ∃ n v, name = some n ∧ scoreNum (score img) = .ok v ∧ d = ODict.set acc (some (n ++ suf)) v := by
  unfold halfStep at h
  simp only [bind, Except.bind] at h
  cases hs : score img with
  | error e => rw [hs] at h; cases h
  | ok s =>
    rw [hs] at h
    simp only at h
    cases hf : s.toFloat with
    | error e => rw [hf] at h; cases h
    | ok v =>
      rw [hf] at h
      simp only at h
      cases name with
      | none => simp [suffixed] at h
      | some n =>
        simp only [suffixed] at h
        cases h
        exact ⟨n, v, rfl, by simp [scoreNum, hf], rfl⟩

/-- The value that may be used again is the one that would be calculated. -/
def Reusable (name : Option String) (suf : String) (score : I → Py (Score S)) (img : I)
    (prev : Option (ODict Key S)) : Prop :=
  prev = none ∨ ∃ d n v, prev = some d ∧ name = some n ∧ scoreNum (score img) = .ok v ∧
    ODict.get d (some (n ++ suf)) = .ok v

theorem halfStep_cached (name : Option String) (suf : String) (score : I → Py (Score S)) (img : I)
    (prev : Option (ODict Key S)) (acc : ODict Key S) (h : Reusable name suf score img prev) :
    halfStep name suf score img prev acc = halfStep name suf score img none acc := by
  rcases h with h | ⟨d, n, v, h1, h2, h3, h4⟩
  · rw [h]
  · subst h1 h2
    unfold halfStep
    simp only [suffixed, bind, Except.bind, h4]
    cases hs : score img with
    | error e => rw [hs] at h3; cases h3
    | ok s =>
      rw [hs] at h3
      simp only [scoreNum] at h3
      simp [h3]

/-- Every no-reference metric may use the previous values. -/
def AllReusable (r m : I) (pR pM : Option (ODict Key S)) (bs : List (BMetric I S)) : Prop :=
  ∀ b ∈ bs, ∀ nr, b.run = .inl nr → Reusable b.name "_r" nr r pR ∧ Reusable b.name "_m" nr m pM

theorem metricLoop_cached (r m : I) (pR pM : Option (ODict Key S)) (bs : List (BMetric I S))
    (acc : ODict Key S) (h : AllReusable r m pR pM bs) :
    metricLoop r m pR pM bs acc = metricLoop r m none none bs acc := by
  induction bs generalizing acc with
  | nil => rfl
  | cons b bs ih =>
    have hstep : metricStep r m pR pM acc b = metricStep r m none none acc b := by
      unfold metricStep
      cases hr : b.run with
      | inl nr =>
        have := h b (by simp) nr hr
        simp only [bind, Except.bind]
        rw [halfStep_cached _ _ _ _ _ _ this.1]
        cases halfStep b.name "_r" nr r none acc with
        | error e => rfl
        | ok a => exact halfStep_cached _ _ _ _ _ _ this.2
      | inr fr => rfl
    simp only [metricLoop]
    rw [hstep]
    cases metricStep r m none none acc b with
    | error e => rfl
    | ok a => exact ih a (fun b hb => h b (List.mem_cons_of_mem _ hb))

theorem metricStep_keys_other (r m : I) (acc d : ODict Key S) (b : BMetric I S)
    (h : metricStep r m none none acc b = .ok d) (k : Key) (hk : k ∉ metricKeys b) :
    ODict.get d k = ODict.get acc k := by
  unfold metricStep at h
  unfold metricKeys at hk
  cases hr : b.run with
  | inl nr =>
    rw [hr] at h hk
    simp only [bind, Except.bind] at h
    cases h1 : halfStep b.name "_r" nr r none acc with
    | error e => rw [h1] at h; cases h
    | ok a =>
      rw [h1] at h
      simp only at h
      obtain ⟨n, v, hn, _, ha⟩ := halfStep_none _ _ _ _ _ _ h1
      obtain ⟨n', v', hn', _, hd⟩ := halfStep_none _ _ _ _ _ _ h
      rw [hn] at hk hn'
      cases hn'
      simp only [Option.map_some, List.mem_cons, List.not_mem_nil, or_false, not_or] at hk
      rw [hd, get_set_other _ _ _ _ hk.2, ha, get_set_other _ _ _ _ hk.1]
  | inr fr =>
    rw [hr] at h hk
    simp only [bind, Except.bind] at h
    cases h1 : fr r m with
    | error e => rw [h1] at h; cases h
    | ok s =>
      rw [h1] at h
      simp only at h
      cases h2 : s.toFloat with
      | error e => rw [h2] at h; cases h
      | ok v =>
        rw [h2] at h
        cases h
        exact get_set_other _ _ _ _ (by simpa using hk)

theorem metricLoop_other (r m : I) (bs : List (BMetric I S)) (acc d : ODict Key S)
    (h : metricLoop r m none none bs acc = .ok d) (k : Key) (hk : k ∉ bs.flatMap metricKeys) :
    ODict.get d k = ODict.get acc k := by
  induction bs generalizing acc with
  | nil => cases h; rfl
  | cons b bs ih =>
    simp only [metricLoop] at h
    simp only [List.flatMap_cons, List.mem_append, not_or] at hk
    cases hs : metricStep r m none none acc b with
    | error e => rw [hs] at h; cases h
    | ok a =>
      rw [hs] at h
      rw [ih a h hk.2, metricStep_keys_other r m acc a b hs k hk.1]

theorem suffix_ne (n n' : String) : n ++ "_r" ≠ n' ++ "_m" := by
  intro h
  have := congrArg String.toList h
  simp only [String.toList_append] at this
  have h2 := congrArg (fun l => l.getLast?) this
  simp at h2

/-- A calculated dictionary may be used again for the same images. -/
theorem metricLoop_reusable (r m : I) (bs : List (BMetric I S)) (acc d : ODict Key S)
    (hnd : (bs.flatMap metricKeys).Nodup)
    (h : metricLoop r m none none bs acc = .ok d) :
    AllReusable r m (some d) (some d) bs := by
  induction bs generalizing acc with
  | nil => intro b hb; cases hb
  | cons b bs ih =>
    simp only [metricLoop] at h
    rw [List.flatMap_cons, List.nodup_append] at hnd
    cases hs : metricStep r m none none acc b with
    | error e => rw [hs] at h; cases h
    | ok a =>
      rw [hs] at h
      intro b' hb' nr hnr
      rcases List.mem_cons.1 hb' with rfl | hb''
      · have hs' := hs
        unfold metricStep at hs
        rw [hnr] at hs
        simp only [bind, Except.bind] at hs
        cases h1 : halfStep b'.name "_r" nr r none acc with
        | error e => rw [h1] at hs; cases hs
        | ok a1 =>
          rw [h1] at hs
          simp only at hs
          obtain ⟨n, v, hn, hv, ha⟩ := halfStep_none _ _ _ _ _ _ h1
          obtain ⟨n', v', hn', hv', hd⟩ := halfStep_none _ _ _ _ _ _ hs
          rw [hn] at hn'
          cases hn'
          have hkr : some (n ++ "_r") ∈ metricKeys b' := by
            unfold metricKeys; rw [hnr]; simp [hn]
          have hkm : some (n ++ "_m") ∈ metricKeys b' := by
            unfold metricKeys; rw [hnr]; simp [hn]
          have hr' : (some (n ++ "_r") : Key) ∉ bs.flatMap metricKeys := by
            intro hx; exact hnd.2.2 _ hkr _ hx rfl
          have hm' : (some (n ++ "_m") : Key) ∉ bs.flatMap metricKeys := by
            intro hx; exact hnd.2.2 _ hkm _ hx rfl
          constructor
          · right
            refine ⟨d, n, v, rfl, hn, hv, ?_⟩
            rw [metricLoop_other r m bs a d h _ hr', hd, get_set_other, ha, get_set_same]
            intro hx
            exact suffix_ne n n (Option.some.inj hx)
          · right
            refine ⟨d, n, v', rfl, hn, hv', ?_⟩
            rw [metricLoop_other r m bs a d h _ hm', hd, get_set_same]
      · exact ih a hnd.2.1 h b' hb'' nr hnr

/-- Consecutive pairs whose shared images are prepared in the same way. -/
def Compatible (p q : Pair × Option R) : Prop :=
  (p.1 = q.1 → p.2 = q.2) ∧
  (p.1.reference = q.1.reference → ∀ r m m' x y,
    env.load p.1.reference = .ok r → env.load p.1.modified = .ok m → env.load q.1.modified = .ok m' →
    env.prep r m p.2 = .ok x → env.prep r m' q.2 = .ok y → x.1 = y.1) ∧
  (p.1.modified = q.1.modified → ∀ r r' m x y,
    env.load p.1.reference = .ok r → env.load q.1.reference = .ok r' → env.load p.1.modified = .ok m →
    env.prep r m p.2 = .ok x → env.prep r' m q.2 = .ok y → x.2 = y.2)

/-- What holds before a pair: nothing has been calculated, or the variables belong to the previous pair. -/
def BatchInv (prev : Option (Pair × Option R)) (st : BatchState L S) : Prop :=
  match prev with
  | none => st.ref = none ∧ st.mod = none
  | some p => ∃ r m d, st.ref = some (p.1.reference, r) ∧ st.mod = some (p.1.modified, m) ∧
      env.load p.1.reference = .ok r ∧ env.load p.1.modified = .ok m ∧ st.last = some d ∧
      calcPair env metrics r m p.2 none none = .ok d

theorem batchStep_solo (hnd : (metrics.flatMap metricKeys).Nodup) (prev : Option (Pair × Option R))
    (st : BatchState L S) (num : Nat) (q : Pair) (roi : Option R)
    (hinv : BatchInv env metrics prev st) (hroi : pairRoi g rois num = .ok roi)
    (hcomp : ∀ p, prev = some p → Compatible env p (q, roi)) :
    (∀ d, soloResult env metrics q roi = .ok d → ∃ st', batchStep env metrics g rois st num q = .ok st' ∧
      st'.results = ODict.set st.results (decimal num) d ∧ BatchInv env metrics (some (q, roi)) st') ∧
    (∀ e, soloResult env metrics q roi = .error e → batchStep env metrics g rois st num q = .error e) := by
  by_cases hskip : st.ref.map Prod.fst = some q.reference ∧ st.mod.map Prod.fst = some q.modified
  · -- the same pair again
    cases prev with
    | none =>
      have := hinv.1
      rw [this] at hskip
      cases hskip.1
    | some p =>
      obtain ⟨r, m, d0, h1, h2, h3, h4, h5, h6⟩ := hinv
      rw [h1, h2] at hskip
      simp only [Option.map_some, Option.some.injEq] at hskip
      have hpq : p.1 = q := by
        obtain ⟨⟨a, b⟩, c⟩ := p
        obtain ⟨x, y⟩ := q
        simp only at hskip
        rw [hskip.1, hskip.2]
      have hro : p.2 = roi := (hcomp p rfl).1 hpq
      have hsolo : soloResult env metrics q roi = .ok d0 := by
        unfold soloResult
        rw [← hpq, h3, h4, ← hro]
        exact h6
      constructor
      · intro d hd
        rw [hsolo] at hd
        cases hd
        refine ⟨_, by unfold batchStep; rw [if_pos (by rw [h1, h2]; simp [hskip])], ?_, ?_⟩
        · simp [h5]
        · exact ⟨r, m, d0, by rw [h1, ← hpq], by rw [h2, ← hpq], by rw [← hpq]; exact h3,
            by rw [← hpq]; exact h4, h5, by rw [← hro]; exact h6⟩
      · intro e he
        rw [hsolo] at he; cases he
  · -- the loads
    have hR : (∀ e, env.load q.reference = .error e → loadOnce env.load q.reference st.ref st.last = .error e) ∧
        (∀ r, env.load q.reference = .ok r → ∃ c b, loadOnce env.load q.reference st.ref st.last = .ok (r, c, b) ∧
          (c = none ∨ ∃ p, prev = some p ∧ p.1.reference = q.reference ∧ c = st.last)) := by
      cases prev with
      | none =>
        rw [hinv.1]
        refine ⟨fun e he => by simp [loadOnce, he], fun r hr => ⟨none, true, by simp [loadOnce, hr], Or.inl rfl⟩⟩
      | some p =>
        obtain ⟨r0, m0, d0, h1, h2, h3, h4, h5, h6⟩ := hinv
        rw [h1]
        simp only [loadOnce]
        by_cases hq : q.reference = p.1.reference
        · simp only [if_pos hq]
          rw [hq, h3]
          refine ⟨fun e he => (by cases he), fun r hr => ?_⟩
          cases hr
          exact ⟨_, _, rfl, Or.inr ⟨p, rfl, rfl, rfl⟩⟩
        · simp only [if_neg hq]
          refine ⟨fun e he => by simp [he], fun r hr => ⟨none, true, by simp [hr], Or.inl rfl⟩⟩
    have hM : (∀ e, env.load q.modified = .error e → loadOnce env.load q.modified st.mod st.last = .error e) ∧
        (∀ r, env.load q.modified = .ok r → ∃ c b, loadOnce env.load q.modified st.mod st.last = .ok (r, c, b) ∧
          (c = none ∨ ∃ p, prev = some p ∧ p.1.modified = q.modified ∧ c = st.last)) := by
      cases prev with
      | none =>
        rw [hinv.2]
        refine ⟨fun e he => by simp [loadOnce, he], fun r hr => ⟨none, true, by simp [loadOnce, hr], Or.inl rfl⟩⟩
      | some p =>
        obtain ⟨r0, m0, d0, h1, h2, h3, h4, h5, h6⟩ := hinv
        rw [h2]
        simp only [loadOnce]
        by_cases hq : q.modified = p.1.modified
        · simp only [if_pos hq]
          rw [hq, h4]
          refine ⟨fun e he => (by cases he), fun r hr => ?_⟩
          cases hr
          exact ⟨_, _, rfl, Or.inr ⟨p, rfl, rfl, rfl⟩⟩
        · simp only [if_neg hq]
          refine ⟨fun e he => by simp [he], fun r hr => ⟨none, true, by simp [hr], Or.inl rfl⟩⟩
    cases hlr : env.load q.reference with
    | error e =>
      have := hR.1 e hlr
      constructor
      · intro d hd; simp [soloResult, hlr] at hd
      · intro e' he'
        simp only [soloResult, hlr] at he'
        cases he'
        unfold batchStep
        rw [if_neg hskip, this]
    | ok r =>
    obtain ⟨cR, bR, hlR, hcR⟩ := hR.2 r hlr
    cases hlm : env.load q.modified with
    | error e =>
      have := hM.1 e hlm
      constructor
      · intro d hd; simp [soloResult, hlr, hlm] at hd
      · intro e' he'
        simp only [soloResult, hlr, hlm] at he'
        cases he'
        unfold batchStep
        rw [if_neg hskip, hlR]
        simp only [this]
    | ok m =>
    obtain ⟨cM, bM, hlM, hcM⟩ := hM.2 m hlm
    have hsolo : soloResult env metrics q roi = calcPair env metrics r m roi none none := by
      simp only [soloResult, hlr, hlm]
    have hcalc : calcPair env metrics r m roi cR cM = calcPair env metrics r m roi none none := by
      unfold calcPair
      cases hp : env.prep r m roi with
      | error e => rfl
      | ok x =>
        obtain ⟨a, b⟩ := x
        simp only
        apply metricLoop_cached
        -- the previous dictionary
        intro bm hbm nr hnr
        constructor
        · rcases hcR with hc | ⟨p, hp1, hp2, hc⟩
          · left; exact hc
          · subst hp1
            obtain ⟨r0, m0, d0, h1, h2, h3, h4, h5, h6⟩ := hinv
            rw [hc, h5]
            unfold calcPair at h6
            cases hp0 : env.prep r0 m0 p.2 with
            | error e => rw [hp0] at h6; cases h6
            | ok x0 =>
              rw [hp0] at h6
              simp only at h6
              have hr0 : r0 = r := by
                rw [hp2, hlr] at h3; exact (Except.ok.inj h3).symm
              subst hr0
              have := (hcomp p rfl).2.1 hp2 r0 m0 m x0 (a, b) h3 h4 hlm hp0 hp
              simp only at this
              rw [← this]
              exact (metricLoop_reusable x0.1 x0.2 metrics [] d0 hnd h6 bm hbm nr hnr).1
        · rcases hcM with hc | ⟨p, hp1, hp2, hc⟩
          · left; exact hc
          · subst hp1
            obtain ⟨r0, m0, d0, h1, h2, h3, h4, h5, h6⟩ := hinv
            rw [hc, h5]
            unfold calcPair at h6
            cases hp0 : env.prep r0 m0 p.2 with
            | error e => rw [hp0] at h6; cases h6
            | ok x0 =>
              rw [hp0] at h6
              simp only at h6
              have hm0 : m0 = m := by
                rw [hp2, hlm] at h4; exact (Except.ok.inj h4).symm
              subst hm0
              have := (hcomp p rfl).2.2 hp2 r0 r m0 x0 (a, b) h3 hlr h4 hp0 hp
              simp only at this
              rw [← this]
              exact (metricLoop_reusable x0.1 x0.2 metrics [] d0 hnd h6 bm hbm nr hnr).2
    rw [hsolo]
    constructor
    · intro d hd
      refine ⟨_, by
        unfold batchStep
        rw [if_neg hskip, hlR]
        simp only
        rw [hlM]
        simp only
        rw [hroi]
        simp only
        rw [hcalc, hd], rfl, ?_⟩
      exact ⟨r, m, d, rfl, rfl, hlr, hlm, rfl, hd⟩
    · intro e he
      unfold batchStep
      rw [if_neg hskip, hlR]
      simp only
      rw [hlM]
      simp only
      rw [hroi]
      simp only
      rw [hcalc, he]


/-- The loop over pairs with their regions. -/
theorem batchLoop_solo (hnd : (metrics.flatMap metricKeys).Nodup) (work : List (Pair × Option R)) (num : Nat)
    (prev : Option (Pair × Option R)) (st : BatchState L S) (hinv : BatchInv env metrics prev st)
    (hroi : ∀ (i : Nat) x, work[i]? = some x → pairRoi g rois (num + i) = .ok x.2)
    (hchain : (prev.toList ++ work).IsChain (Compatible env)) :
    (∀ st', batchLoop env metrics g rois (work.map Prod.fst) num st = .ok st' →
      (∀ (i : Nat) x, work[i]? = some x → ∃ d, soloResult env metrics x.1 x.2 = .ok d ∧
        ODict.get st'.results (decimal (num + i)) = .ok d) ∧
      (∀ k, k < num → ODict.get st'.results (decimal k) = ODict.get st.results (decimal k))) ∧
    ((∀ x ∈ work, ∃ d, soloResult env metrics x.1 x.2 = .ok d) →
      ∃ st', batchLoop env metrics g rois (work.map Prod.fst) num st = .ok st') := by
  induction work generalizing num prev st with
  | nil =>
    refine ⟨fun st' h => ?_, fun _ => ⟨st, rfl⟩⟩
    cases h
    exact ⟨fun i x hx => by simp at hx, fun k hk => rfl⟩
  | cons x work ih =>
    have hcomp : ∀ p, prev = some p → Compatible env p (x.1, x.2) := by
      intro p hp
      subst hp
      simp only [Option.toList_some, List.cons_append, List.nil_append, List.isChain_cons_cons] at hchain
      exact hchain.1
    have hch : ((some (x.1, x.2) : Option (Pair × Option R)).toList ++ work).IsChain (Compatible env) := by
      cases prev with
      | none => simpa using hchain
      | some p =>
        simp only [Option.toList_some, List.cons_append, List.nil_append, List.isChain_cons_cons] at hchain
        exact hchain.2
    have hr0 : pairRoi g rois num = .ok x.2 := by simpa using hroi 0 x (by simp)
    have hstep := batchStep_solo env metrics g rois hnd prev st num x.1 x.2 hinv hr0 hcomp
    have hroi' : ∀ (i : Nat) y, work[i]? = some y → pairRoi g rois (num + 1 + i) = .ok y.2 := by
      intro i y hy
      have := hroi (i + 1) y (by simpa using hy)
      rw [show num + 1 + i = num + (i + 1) by omega]
      exact this
    simp only [List.map_cons, batchLoop]
    constructor
    · intro st' h
      cases hs : soloResult env metrics x.1 x.2 with
      | error e => rw [hstep.2 e hs] at h; cases h
      | ok d =>
        obtain ⟨s1, h1, h2, h3⟩ := hstep.1 d hs
        rw [h1] at h
        simp only at h
        have := (ih (num + 1) _ s1 h3 hroi' hch).1 st' h
        constructor
        · intro i y hy
          cases i with
          | zero =>
            simp only [List.getElem?_cons_zero, Option.some.injEq] at hy
            subst hy
            refine ⟨d, hs, ?_⟩
            rw [Nat.add_zero, this.2 num (by omega), h2, get_set_same]
          | succ i =>
            have := this.1 i y (by simpa using hy)
            rw [show num + (i + 1) = num + 1 + i by omega]
            exact this
        · intro k hk
          rw [this.2 k (by omega), h2, get_set_other]
          intro he
          have := decimal_inj he
          omega
    · intro hall
      obtain ⟨d, hd⟩ := hall x (by simp)
      obtain ⟨s1, h1, h2, h3⟩ := hstep.1 d hd
      rw [h1]
      exact (ih (num + 1) _ s1 h3 hroi' hch).2 (fun y hy => hall y (List.mem_cons_of_mem _ hy))

/-- **C63, partial.** If the names of the results are distinct and the images shared by consecutive pairs
are prepared in the same way, the batch succeeds exactly if every pair alone does, and its results are
those of the pairs alone. Missing: consecutive pairs sharing an image with another region or, for the
modified image, a reference of another shape, see `C63_region_refuted` and `C63_shape_refuted`. -/
theorem C63_individual_partial (hnd : (metrics.flatMap metricKeys).Nodup) (work : List (Pair × Option R))
    (hroi : ∀ (i : Nat) x, work[i]? = some x → pairRoi g rois i = .ok x.2)
    (hchain : work.IsChain (Compatible env)) (results : ODict Txt (ODict Key S)) :
    ((∃ st, batchCalculate env metrics g rois (work.map Prod.fst) results = .ok st) ↔
      ∀ x ∈ work, ∃ d, soloResult env metrics x.1 x.2 = .ok d) ∧
    ∀ st, batchCalculate env metrics g rois (work.map Prod.fst) results = .ok st →
      ∀ (i : Nat) x, work[i]? = some x →
        ODict.get st.results (decimal i) = soloResult env metrics x.1 x.2 := by
  have := batchLoop_solo env metrics g rois hnd work 0 none ⟨none, none, none, results, [], [], 0⟩ ⟨rfl, rfl⟩
    (by simpa using hroi) (by simpa using hchain)
  refine ⟨⟨?_, this.2⟩, ?_⟩
  · rintro ⟨st, h⟩ x hx
    obtain ⟨i, hi⟩ := List.mem_iff_getElem?.1 hx
    obtain ⟨d, hd, -⟩ := (this.1 st h).1 i x hi
    exact ⟨d, hd⟩
  · intro st h i x hx
    obtain ⟨d, hd, hg⟩ := (this.1 st h).1 i x hx
    rw [Nat.zero_add] at hg
    rw [hg, hd]

example (st : BatchState Nat Nat) (h : batchCalculate ToyBatch.env ToyBatch.metrics none none ToyBatch.pairs [] = .ok st) :
    ODict.get st.results (decimal 1) = .ok [(some "T_r", 1), (some "T_m", 2), (some "D", 3)] := by
  have hc : (ToyBatch.pairs.map (fun p => (p, (none : Option Unit)))).IsChain (Compatible ToyBatch.env) := by
    simp only [ToyBatch.pairs, List.map_cons, List.map_nil]
    refine List.IsChain.cons_cons ⟨(fun h => by cases h), ?_, (fun h => by cases h)⟩ (List.isChain_singleton _)
    intro _ r m m' x y _ _ _ h1 h2
    cases h1
    cases h2
    rfl
  exact (C63_individual_partial ToyBatch.env ToyBatch.metrics none none (by decide)
    (ToyBatch.pairs.map (fun p => (p, (none : Option Unit)))) (by
      intro i x hx
      obtain ⟨p, -, rfl⟩ := List.mem_map.1 (List.mem_of_getElem? hx)
      rfl) hc []).2 st h 1 _ rfl

/-! ### C64 -/

/-- What a path list adds to the list of loaded files. -/
def newLoads (prev : Option Txt) (paths : List Txt) : List Txt :=
  match prev with
  | none => paths.destutter (· ≠ ·)
  | some p => (paths.destutter' (· ≠ ·) p).tail

theorem newLoads_cons (prev : Option Txt) (p : Txt) (ps : List Txt) :
    newLoads prev (p :: ps) = (if prev = some p then [] else [p]) ++ newLoads (some p) ps := by
  have hhead : ∀ (a : Txt) l, List.destutter' (· ≠ ·) a l = a :: (List.destutter' (· ≠ ·) a l).tail := by
    intro a l
    induction l with
    | nil => rfl
    | cons b l ih =>
      rw [List.destutter'_cons]
      split
      · rfl
      · exact ih
  cases prev with
  | none =>
    simp only [newLoads, List.destutter_cons']
    rw [hhead]
    simp
  | some q =>
    simp only [newLoads, List.destutter'_cons]
    by_cases h : q = p
    · subst h; simp
    · rw [if_pos h, if_neg (by simpa using h)]
      simp only [List.tail_cons, List.cons_append, List.nil_append]
      rw [hhead]
      simp

theorem loadOnce_new (load : Txt → Py L) (path : Txt) (prev : Option (Txt × L)) (last : Option (ODict Key S))
    (x : L) (c : Option (ODict Key S)) (b : Bool) (h : loadOnce load path prev last = .ok (x, c, b)) :
    b = decide (prev.map Prod.fst ≠ some path) := by
  unfold loadOnce at h
  cases prev with
  | none =>
    simp only at h
    cases hl : load path with
    | error e => rw [hl] at h; cases h
    | ok y => rw [hl] at h; cases h; simp
  | some q =>
    simp only at h
    by_cases hq : path = q.1
    · rw [if_pos hq] at h; cases h; simp [hq]
    · rw [if_neg hq] at h
      cases hl : load path with
      | error e => rw [hl] at h; cases h
      | ok y =>
        rw [hl] at h
        cases h
        simp only [Option.map_some, ne_eq, Option.some.injEq, true_eq_decide_iff]
        exact fun he => hq he.symm

theorem batchStep_loads (st st' : BatchState L S) (num : Nat) (p : Pair)
    (h : batchStep env metrics g rois st num p = .ok st') :
    st'.ref.map Prod.fst = some p.reference ∧ st'.mod.map Prod.fst = some p.modified ∧
    st'.refLoads = st.refLoads ++ (if st.ref.map Prod.fst = some p.reference then [] else [p.reference]) ∧
    st'.modLoads = st.modLoads ++ (if st.mod.map Prod.fst = some p.modified then [] else [p.modified]) := by
  unfold batchStep at h
  split at h
  · rename_i hs
    cases h
    simp [hs]
  · split at h
    · cases h
    · rename_i r cR bR h1
      split at h
      · cases h
      · rename_i m cM bM h2
        split at h
        · cases h
        · split at h
          · cases h
          · cases h
            have e1 := loadOnce_new _ _ _ _ _ _ _ h1
            have e2 := loadOnce_new _ _ _ _ _ _ _ h2
            refine ⟨rfl, rfl, ?_, ?_⟩
            · by_cases hx : st.ref.map Prod.fst = some p.reference <;> simp [e1, hx]
            · by_cases hx : st.mod.map Prod.fst = some p.modified <;> simp [e2, hx]

theorem batchLoop_loads (ps : List Pair) (num : Nat) (st st' : BatchState L S)
    (h : batchLoop env metrics g rois ps num st = .ok st') :
    st'.refLoads = st.refLoads ++ newLoads (st.ref.map Prod.fst) (ps.map Pair.reference) ∧
    st'.modLoads = st.modLoads ++ newLoads (st.mod.map Prod.fst) (ps.map Pair.modified) := by
  induction ps generalizing num st with
  | nil =>
    cases h
    constructor
    · cases st'.ref <;> simp [newLoads]
    · cases st'.mod <;> simp [newLoads]
  | cons p ps ih =>
    simp only [batchLoop] at h
    cases hs : batchStep env metrics g rois st num p with
    | error e => rw [hs] at h; cases h
    | ok s1 =>
      rw [hs] at h
      obtain ⟨h1, h2, h3, h4⟩ := batchStep_loads env metrics g rois st s1 num p hs
      have := ih (num + 1) s1 h
      rw [this.1, this.2, h1, h2, h3, h4]
      simp only [List.map_cons, newLoads_cons, List.append_assoc, and_self]

/-- **C64.** The files read during a calculation are the paths of the pairs with repetitions of the
preceding path removed: one read for each maximal run of pairs with the same reference, and likewise
for the modified image. -/
theorem C64_loads (pairs : List Pair) (results : ODict Txt (ODict Key S)) (st : BatchState L S)
    (h : batchCalculate env metrics g rois pairs results = .ok st) :
    st.refLoads = (pairs.map Pair.reference).destutter (· ≠ ·) ∧
    st.modLoads = (pairs.map Pair.modified).destutter (· ≠ ·) := by
  have := batchLoop_loads env metrics g rois pairs 0 _ st h
  simpa [newLoads] using this

example (st : BatchState Nat Nat) (h : batchCalculate ToyBatch.env ToyBatch.metrics none none ToyBatch.pairs [] = .ok st) :
    st.refLoads = [['a']] ∧ st.modLoads = [['m'], ['m', 'm']] :=
  C64_loads _ _ _ _ _ _ st h

/-! ### C65 -/

/-- Adding a key to a dictionary. -/
def addKey (ks : List Key) (k : Key) : List Key := if k ∈ ks then ks else ks ++ [k]

theorem halfStep_keys (name : Option String) (suf : String) (score : I → Py (Score S)) (img : I)
    (prev : Option (ODict Key S)) (acc d : ODict Key S) (h : halfStep name suf score img prev acc = .ok d) :
    d.map Prod.fst = addKey (acc.map Prod.fst) (name.map (· ++ suf)) := by
  cases prev with
  | none =>
    obtain ⟨n, v, hn, -, hd⟩ := halfStep_none name suf score img acc d h
    rw [hd, set_keys, hn]
    simp [addKey]
  | some q =>
    unfold halfStep at h
    cases name with
    | none => simp [suffixed, bind, Except.bind] at h
    | some n =>
      simp only [suffixed, bind, Except.bind] at h
      cases hg : ODict.get q (some (n ++ suf)) with
      | error e => rw [hg] at h; cases h
      | ok v =>
        rw [hg] at h
        cases h
        rw [set_keys]
        simp [addKey]

theorem metricStep_keys (r m : I) (pR pM : Option (ODict Key S)) (acc d : ODict Key S) (b : BMetric I S)
    (h : metricStep r m pR pM acc b = .ok d) :
    d.map Prod.fst = (metricKeys b).foldl addKey (acc.map Prod.fst) := by
  unfold metricStep at h
  unfold metricKeys
  cases hr : b.run with
  | inl nr =>
    rw [hr] at h
    simp only [bind, Except.bind] at h
    cases h1 : halfStep b.name "_r" nr r pR acc with
    | error e => rw [h1] at h; cases h
    | ok a =>
      rw [h1] at h
      simp only at h
      rw [halfStep_keys _ _ _ _ _ _ _ h, halfStep_keys _ _ _ _ _ _ _ h1]
      rfl
  | inr fr =>
    rw [hr] at h
    simp only [bind, Except.bind] at h
    cases h1 : fr r m with
    | error e => rw [h1] at h; cases h
    | ok s =>
      rw [h1] at h
      simp only at h
      cases h2 : s.toFloat with
      | error e => rw [h2] at h; cases h
      | ok v =>
        rw [h2] at h
        cases h
        rw [set_keys]
        simp [addKey]

theorem metricLoop_keys (r m : I) (pR pM : Option (ODict Key S)) (bs : List (BMetric I S))
    (acc d : ODict Key S) (h : metricLoop r m pR pM bs acc = .ok d) :
    d.map Prod.fst = (bs.flatMap metricKeys).foldl addKey (acc.map Prod.fst) := by
  induction bs generalizing acc with
  | nil => cases h; rfl
  | cons b bs ih =>
    simp only [metricLoop] at h
    cases hs : metricStep r m pR pM acc b with
    | error e => rw [hs] at h; cases h
    | ok a =>
      rw [hs] at h
      rw [ih a h, metricStep_keys r m pR pM acc a b hs, List.flatMap_cons, List.foldl_append]

/-- The columns of the result file. -/
def batchColumns (bs : List (BMetric I S)) : List Key := (bs.flatMap metricKeys).foldl addKey []

/-- Every result has the same keys in the same order. -/
theorem batchLoop_columns (ps : List Pair) (num : Nat) (st st' : BatchState L S)
    (hlast : st.ref ≠ none → ∃ d, st.last = some d ∧ d.map Prod.fst = batchColumns metrics)
    (hres : ∀ k, k < num → ∃ d, ODict.get st.results (decimal k) = .ok d ∧ d.map Prod.fst = batchColumns metrics)
    (h : batchLoop env metrics g rois ps num st = .ok st') :
    ∀ k, k < num + ps.length → ∃ d, ODict.get st'.results (decimal k) = .ok d ∧
      d.map Prod.fst = batchColumns metrics := by
  induction ps generalizing num st with
  | nil => cases h; simpa using hres
  | cons p ps ih =>
    simp only [batchLoop] at h
    cases hs : batchStep env metrics g rois st num p with
    | error e => rw [hs] at h; cases h
    | ok s1 =>
      rw [hs] at h
      have key : ∃ d, s1.last = some d ∧ d.map Prod.fst = batchColumns metrics ∧
          s1.results = ODict.set st.results (decimal num) d := by
        unfold batchStep at hs
        split at hs
        · rename_i hsk
          cases hs
          obtain ⟨d, hd, hk⟩ := hlast (by intro hn; rw [hn] at hsk; simp at hsk)
          exact ⟨d, hd, hk, by simp [hd]⟩
        · split at hs
          · cases hs
          · split at hs
            · cases hs
            · split at hs
              · cases hs
              · split at hs
                · cases hs
                · rename_i d hc
                  cases hs
                  refine ⟨d, rfl, ?_, rfl⟩
                  unfold calcPair at hc
                  split at hc
                  · cases hc
                  · exact metricLoop_keys _ _ _ _ _ _ _ hc
      obtain ⟨d, hd1, hd2, hd3⟩ := key
      have := ih (num + 1) s1 (fun _ => ⟨d, hd1, hd2⟩) (by
        intro k hk
        by_cases hkn : k = num
        · subst hkn
          exact ⟨d, by rw [hd3, get_set_same], hd2⟩
        · obtain ⟨d', h1, h2⟩ := hres k (by omega)
          refine ⟨d', ?_, h2⟩
          rw [hd3, get_set_other _ _ _ _ (fun he => hkn (decimal_inj he))]
          exact h1) h
      intro k hk
      apply this k
      simp only [List.length_cons] at hk
      omega

theorem get_of_entry {K V : Type} [DecidableEq K] (d : ODict K V) (hnd : (d.map Prod.fst).Nodup) (i : Nat) (k : K) (v : V)
    (h : d[i]? = some (k, v)) : ODict.get d k = .ok v := by
  induction d generalizing i with
  | nil => simp at h
  | cons e d ih =>
    rw [List.map_cons, List.nodup_cons] at hnd
    unfold ODict.get
    rw [List.find?_cons]
    cases i with
    | zero =>
      simp only [List.getElem?_cons_zero, Option.some.injEq] at h
      subst h
      simp
    | succ i =>
      simp only [List.getElem?_cons_succ] at h
      have hne : ¬ e.1 = k := by
        intro he
        exact hnd.1 (by rw [he]; exact List.mem_map.2 ⟨(k, v), List.mem_of_getElem? h, rfl⟩)
      rw [decide_eq_false hne]
      exact ih hnd.2 i h

theorem mapM_ok_getElem {α β : Type} (f : α → Py β) (l : List α) (h : ∀ (i : Nat) x, l[i]? = some x → ∃ y, f x = .ok y) :
    ∃ ys, l.mapM f = .ok ys ∧ ys.length = l.length ∧
      ∀ (i : Nat) x, l[i]? = some x → ∃ y, f x = .ok y ∧ ys[i]? = some y := by
  induction l with
  | nil => exact ⟨[], rfl, rfl, fun i x hx => by simp at hx⟩
  | cons a l ih =>
    obtain ⟨ys, h1, h2, h3⟩ := ih (fun i x hx => h (i + 1) x (by simpa using hx))
    obtain ⟨y, hy⟩ := h 0 a (by simp)
    refine ⟨y :: ys, ?_, by simp [h2], ?_⟩
    · rw [List.mapM_cons, hy, h1]
      rfl
    · intro i x hx
      cases i with
      | zero =>
        simp only [List.getElem?_cons_zero, Option.some.injEq] at hx
        subst hx
        exact ⟨y, hy, by simp⟩
      | succ i => simpa using h3 i x (by simpa using hx)

/-- **C65.** After a successful calculation of at least one pair the result file has one row per pair;
row `i` holds the number, the two names of pair `i` as given and the values of the result of the pair
for the names in the header, in the same order. `names` are the names in the pairs file, `join` puts
the directory in front. -/
theorem C65_rows (names : List Pair) (join : Txt → Txt) (hne : names ≠ []) (results : ODict Txt (ODict Key S))
    (st : BatchState L S)
    (h0 : results = [] ∨ results.map Prod.fst = (List.range names.length).map decimal)
    (h : batchCalculate env metrics g rois (names.map (fun p => ⟨join p.reference, join p.modified⟩)) results = .ok st) :
    ∃ header rows, exportBatch names st.results = .ok (header, rows) ∧ rows.length = names.length ∧
      ∀ (i : Nat) p, names[i]? = some p → ∃ d, ODict.get st.results (decimal i) = .ok d ∧
        header = [.text "pair_num".toList, .text "reference_image".toList, .text "modified_image".toList]
          ++ d.map (fun kv => .key kv.1) ∧
        rows[i]? = some ([.text (decimal i), .text p.reference, .text p.modified]
          ++ d.map (fun kv => .value kv.2)) := by
  have hkeys := C62_complete env metrics g rois _ results st (by simpa using h0) h
  have hcols := batchLoop_columns env metrics g rois _ 0 _ st (fun hn => absurd rfl hn) (by intro k hk; omega) h
  simp only [List.length_map, Nat.zero_add] at hkeys hcols
  have hpos : 0 < names.length := List.length_pos_iff.2 hne
  obtain ⟨d0, hd0, hk0⟩ := hcols 0 hpos
  have hent : ∀ (i : Nat) e, st.results[i]? = some e → e.1 = decimal i ∧ i < names.length := by
    intro i e he
    have hi : i < names.length := by
      have := (List.getElem?_eq_some_iff.1 he).1
      omega
    have := congrArg (fun l => l[i]?) hkeys.1
    simp only [List.getElem?_map, he, Option.map_some, List.getElem?_range hi, Option.some.injEq] at this
    exact ⟨this, hi⟩
  have hrow : ∀ (i : Nat) e p, st.results[i]? = some e → names[i]? = some p →
      resultRow names e = .ok ([.text (decimal i), .text p.reference, .text p.modified] ++ e.2.map (fun kv => .value kv.2)) := by
    intro i e p he hp
    unfold resultRow
    rw [(hent i e he).1, digitsVal_decimal, hp]
  obtain ⟨rows, hr1, hr2, hr3⟩ := mapM_ok_getElem (resultRow names) st.results (by
    intro i e he
    have hi := (hent i e he).2
    exact ⟨_, hrow i e names[i] he (List.getElem?_eq_getElem hi)⟩)
  refine ⟨_, rows, by unfold exportBatch; rw [show (['0'] : List Char) = decimal 0 by unfold decimal; rfl, hd0]; simp only; rw [hr1], by rw [hr2]; exact hkeys.2.2, ?_⟩
  intro i p hp
  have hi : i < names.length := (List.getElem?_eq_some_iff.1 hp).1
  have hi' : i < st.results.length := by omega
  obtain ⟨e, he⟩ : ∃ e, st.results[i]? = some e := ⟨_, List.getElem?_eq_getElem hi'⟩
  obtain ⟨d, hd, hdk⟩ := hcols i hi
  have hsame : e.2 = d := by
    have h1 := get_of_entry st.results hkeys.2.1 i e.1 e.2 he
    rw [(hent i _ he).1, hd] at h1
    exact (Except.ok.inj h1).symm
  refine ⟨d, hd, ?_, ?_⟩
  · congr 1
    have : ∀ l : ODict Key S, l.map (fun kv => (Cell.key kv.1 : Cell S)) = (l.map Prod.fst).map Cell.key := by
      intro l; simp
    rw [this, this, hk0, hdk]
  · obtain ⟨y, hy1, hy2⟩ := hr3 i _ he
    rw [hrow i _ p he hp, hsame] at hy1
    rw [hy2, ← Except.ok.inj hy1]

example (st : BatchState Nat Nat) (h : batchCalculate ToyBatch.env ToyBatch.metrics none none ToyBatch.pairs [] = .ok st) :
    ∃ header rows, exportBatch ToyBatch.pairs st.results = .ok (header, rows) ∧ rows.length = 2 := by
  obtain ⟨hd, rows, h1, h2, -⟩ := C65_rows _ _ _ _ ToyBatch.pairs id (by decide) [] st (.inl rfl) h
  exact ⟨hd, rows, h1, h2⟩

/-- **C65.** Without a result the export fails, after the file has been opened for writing. -/
theorem C65_nothing_calculated (names : List Pair) : exportBatch names ([] : ODict Txt (ODict Key S)) = .error (.keyError "") := rfl

example : exportBatch ToyBatch.pairs ([] : ODict Txt (ODict Key Nat)) = .error (.keyError "") :=
  C65_nothing_calculated _

/-! ### C66 -/

/-- The scores of a metric on a pair of images, by name of the result. -/
def ownScores (r m : I) (b : BMetric I S) : List (Key × Py (Score S)) :=
  match b.run with
  | .inl nr => [(b.name.map (· ++ "_r"), nr r), (b.name.map (· ++ "_m"), nr m)]
  | .inr fr => [(b.name, fr r m)]

theorem foldl_addKey_nodup (ks acc : List Key) (h : (acc ++ ks).Nodup) : ks.foldl addKey acc = acc ++ ks := by
  induction ks generalizing acc with
  | nil => simp
  | cons k ks ih =>
    rw [List.foldl_cons]
    have hk : k ∉ acc := by
      intro hx
      rw [List.nodup_append] at h
      exact h.2.2 k hx k (by simp) rfl
    rw [show addKey acc k = acc ++ [k] from if_neg hk, ih]
    · simp
    · simpa using h

/-- **C66, partial.** Metrics with a name whose scores are numbers and whose result names are distinct can
be used together: every metric contributes its own entries, with its own scores. Missing: SNR, the same
class twice and chromatic metrics, see the refutations. -/
theorem C66_own_entries_partial (r m : I) (hnd : (metrics.flatMap metricKeys).Nodup)
    (hnum : ∀ b ∈ metrics, ∀ e ∈ ownScores r m b, ∃ v, e.2 = .ok (.num v))
    (hname : ∀ b ∈ metrics, ∀ nr, b.run = .inl nr → b.name ≠ none) :
    ∃ d, metricLoop r m none none metrics [] = .ok d ∧ d.map Prod.fst = metrics.flatMap metricKeys ∧
      ∀ b ∈ metrics, ∀ e ∈ ownScores r m b, ∃ v, e.2 = .ok (.num v) ∧ ODict.get d e.1 = .ok v := by
  have hex : ∀ (bs : List (BMetric I S)) (acc : ODict Key S), (∀ b ∈ bs, b ∈ metrics) → (bs.flatMap metricKeys).Nodup →
      ∃ d, metricLoop r m none none bs acc = .ok d ∧
        ∀ b ∈ bs, ∀ e ∈ ownScores r m b, ∃ v, e.2 = .ok (.num v) ∧ ODict.get d e.1 = .ok v := by
    intro bs
    induction bs with
    | nil => intro acc _ _; exact ⟨acc, rfl, fun b hb => by cases hb⟩
    | cons b bs ih =>
      intro acc hsub hnd
      rw [List.flatMap_cons, List.nodup_append] at hnd
      have hb := hsub b (by simp)
      have hstep : ∃ a, metricStep r m none none acc b = .ok a ∧
          ∀ e ∈ ownScores r m b, ∃ v, e.2 = .ok (.num v) ∧ ODict.get a e.1 = .ok v := by
        have hn := hnum b hb
        unfold metricStep
        unfold ownScores at hn ⊢
        cases hr : b.run with
        | inl nr =>
          rw [hr] at hn
          simp only [List.mem_cons, List.not_mem_nil, or_false, forall_eq_or_imp, forall_eq] at hn
          obtain ⟨⟨v1, h1⟩, ⟨v2, h2⟩⟩ := hn
          cases hnm : b.name with
          | none => exact absurd hnm (hname b hb nr hr)
          | some n =>
            refine ⟨ODict.set (ODict.set acc (some (n ++ "_r")) v1) (some (n ++ "_m")) v2, ?_, ?_⟩
            · simp [halfStep, bind, Except.bind, suffixed, h1, h2, Score.toFloat]
            · simp only [List.mem_cons, List.not_mem_nil, or_false, forall_eq_or_imp, forall_eq, Option.map_some]
              refine ⟨⟨v1, h1, ?_⟩, ⟨v2, h2, get_set_same _ _ _⟩⟩
              rw [get_set_other, get_set_same]
              intro hx
              exact suffix_ne n n (Option.some.inj hx)
        | inr fr =>
          rw [hr] at hn
          simp only [List.mem_cons, List.not_mem_nil, or_false, forall_eq] at hn
          obtain ⟨v, hv⟩ := hn
          refine ⟨ODict.set acc b.name v, ?_, ?_⟩
          · simp [bind, Except.bind, hv, Score.toFloat]
          · simp only [List.mem_cons, List.not_mem_nil, or_false, forall_eq]
            exact ⟨v, hv, get_set_same _ _ _⟩
      obtain ⟨a, ha, hav⟩ := hstep
      obtain ⟨d, hd, hdv⟩ := ih a (fun x hx => hsub x (List.mem_cons_of_mem _ hx)) hnd.2.1
      refine ⟨d, by simp only [metricLoop]; rw [ha]; exact hd, ?_⟩
      intro b' hb' e he
      rcases List.mem_cons.1 hb' with rfl | hb'
      · obtain ⟨v, h1, h2⟩ := hav e he
        refine ⟨v, h1, ?_⟩
        rw [metricLoop_other r m bs a d hd, h2]
        intro hx
        have hk : e.1 ∈ metricKeys b' := by
          unfold ownScores at he
          unfold metricKeys
          cases hr : b'.run with
          | inl nr =>
            rw [hr] at he
            simp only [List.mem_cons, List.not_mem_nil, or_false] at he
            rcases he with rfl | rfl <;> simp
          | inr fr =>
            rw [hr] at he
            simp only [List.mem_cons, List.not_mem_nil, or_false] at he
            rw [he]; simp
        exact hnd.2.2 _ hk _ hx rfl
      · exact hdv b' hb' e he
  obtain ⟨d, hd, hv⟩ := hex metrics [] (fun _ h => h) hnd
  refine ⟨d, hd, ?_, hv⟩
  rw [metricLoop_keys _ _ _ _ _ _ _ hd]
  have := foldl_addKey_nodup (metrics.flatMap metricKeys) [] (by simpa using hnd)
  simpa using this

example : ∃ d, metricLoop 1 2 none none ToyBatch.metrics [] = .ok d ∧ d.map Prod.fst = [some "T_r", some "T_m", some "D"] := by
  obtain ⟨d, h1, h2, -⟩ := C66_own_entries_partial ToyBatch.metrics 1 2 (by decide) (by
    intro b hb e he
    simp only [ToyBatch.metrics, List.mem_cons, List.not_mem_nil, or_false] at hb
    rcases hb with rfl | rfl <;> simp [ownScores] at he <;> (try rcases he with rfl | rfl) <;> exact ⟨_, rfl⟩) (by
    intro b hb nr hnr
    simp only [ToyBatch.metrics, List.mem_cons, List.not_mem_nil, or_false] at hb
    rcases hb with rfl | rfl <;> simp)
  exact ⟨d, h1, h2⟩

/-- A no-reference metric without a name, or whose score is not a number, stops every calculation. -/
theorem metricLoop_nameless (r m : I) (pR pM : Option (ODict Key S)) (bs : List (BMetric I S)) (b : BMetric I S)
    (hb : b ∈ bs) (nr : I → Py (Score S)) (hr : b.run = .inl nr) (hn : b.name = none) (acc : ODict Key S) :
    ∃ e, metricLoop r m pR pM bs acc = .error e := by
  induction bs generalizing acc with
  | nil => cases hb
  | cons b' bs ih =>
    simp only [metricLoop]
    cases hs : metricStep r m pR pM acc b' with
    | error e => exact ⟨e, rfl⟩
    | ok a =>
      rcases List.mem_cons.1 hb with rfl | hb
      · exfalso
        unfold metricStep at hs
        rw [hr] at hs
        simp only [bind, Except.bind] at hs
        cases h1 : halfStep b.name "_r" nr r pR acc with
        | error e => rw [h1] at hs; cases hs
        | ok a1 =>
          rw [hn] at h1
          cases pR with
          | none =>
            obtain ⟨n, v, hx, -⟩ := halfStep_none _ _ _ _ _ _ h1
            cases hx
          | some q => simp [halfStep, suffixed, bind, Except.bind] at h1
      · exact ih hb a

end Batch

end Viqa
