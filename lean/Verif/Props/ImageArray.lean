import Verif.Model.ImageArray

set_option linter.unusedSimpArgs false

/-! Property C21: the statistics attributes of image arrays. -/

namespace Viqa

variable {D V : Type}

/-- Every statistic the object carries is the statistic of its contents. -/
def ValidStats (stat : Stat → D → V) (o : ArrObj D V) : Prop :=
  ∀ s v, o.attr s = some v → v = stat s o.data

/-- The object carries no statistics. -/
def NoStats (o : ArrObj D V) : Prop := ∀ s, o.attr s = none

/-- **C21**, directly after `calculate_statistics`: every attribute except the histogram is the
statistic of the array, and so is the histogram unless the data type is an integer type; the
histogram of an integer array keeps whatever value it had. The contents do not change. -/
theorem C21_after_calculate (stat : Stat → D → V) (o : ArrObj D V) :
    (calcStats stat o).data = o.data ∧
    (∀ s, s ≠ .histogram → (calcStats stat o).attr s = some (stat s o.data)) ∧
    (o.isInt = false → (calcStats stat o).attr .histogram = some (stat .histogram o.data)) ∧
    (o.isInt = true → (calcStats stat o).attr .histogram = o.attr .histogram) := by
  refine ⟨rfl, ?_, ?_, ?_⟩
  · intro s hs; simp [calcStats, hs]
  · intro h; simp [calcStats, h]
  · intro h; simp [calcStats, h]

example : (calcStats (fun s (d : List Nat) => if s = .mean then d.sum / d.length else 0) ⟨[2, 4], true, fun _ => none⟩).attr .mean = some 3 :=
  (C21_after_calculate _ _).2.1 .mean (by decide)

/-- The first half of **C21** is false: after `calculate_statistics` on a fresh integer array the
histogram is not set. -/
theorem C21_histogram_refuted :
    ¬ ∀ (D V : Type) (stat : Stat → D → V) (ops : List (ArrOp D)) (i : Nat) (o : ArrObj D V),
      (arrRun stat (ops ++ [.calculate i]))[i]? = some o → ∀ s, ∃ v, o.attr s = some v := by
  intro h
  obtain ⟨v, hv⟩ := h Nat Nat (fun _ d => d) [.create 7 true] 0
    (calcStats (fun _ d => d) ⟨7, true, fun _ => none⟩) rfl .histogram
  simp [calcStats] at hv

/-- The second half of **C21** is false: an array derived from one with statistics carries the
statistics of the original. -/
theorem C21_stale_refuted :
    ¬ ∀ (D V : Type) (stat : Stat → D → V) (ops : List (ArrOp D)),
      ∀ o ∈ arrRun stat ops, ValidStats stat o := by
  intro h
  have h1 := h Nat Nat (fun _ d => d) [.create 7 false, .calculate 0, .derive 0 (· + 1) false]
  have h2 := h1 ⟨8, false, fun _ => some 7⟩ (by
    simp [arrRun, arrStep, calcStats])
  have := h2 .mean 7 rfl
  simp at this

/-- Exactly when a derived array has valid statistics: for every attribute, the original's
attribute is not set or happens to be the statistic of the derived array. -/
theorem C21_derived_valid_iff (stat : Stat → D → V) (o : ArrObj D V) (f : D → D) (b : Bool) :
    ValidStats stat ⟨f o.data, b, o.attr⟩ ↔
      ∀ s, o.attr s = none ∨ o.attr s = some (stat s (f o.data)) := by
  constructor
  · intro h s
    cases hs : o.attr s with
    | none => exact Or.inl rfl
    | some v => right; rw [h s v hs]
  · intro h s v hv
    rcases h s with h' | h'
    · simp only at hv; rw [h'] at hv; cases hv
    · simp only at hv; rw [h'] at hv; cases hv; rfl

/-- A part of an array whose mean is known. -/
example : ¬ ValidStats (fun s (d : List Nat) => if s = .mean then d.sum / d.length else 0)
    ⟨[2, 4].take 1, true, fun s => if s = .mean then some 3 else none⟩ := fun h => by
  have := (C21_derived_valid_iff (fun s (d : List Nat) => if s = .mean then d.sum / d.length else 0)
    ⟨[2, 4], true, fun s => if s = .mean then some 3 else none⟩ (List.take 1) true).1 h .mean
  revert this
  decide

/-- Operations that cannot make statistics stale: derive and change in place only arrays without
statistics. -/
def SafeOp (objs : List (ArrObj D V)) : ArrOp D → Prop
  | .create _ _ => True
  | .arith _ _ _ => True
  | .calculate _ => True
  | .derive i _ _ => ∀ o, objs[i]? = some o → NoStats o
  | .inplace i _ => ∀ o, objs[i]? = some o → NoStats o

/-- A history in which every step is safe. -/
def SafeHistory (stat : Stat → D → V) (objs : List (ArrObj D V)) : List (ArrOp D) → Prop
  | [] => True
  | op :: ops => SafeOp objs op ∧ SafeHistory stat (arrStep stat objs op) ops

/-- **C21** for all histories in which arrays that carry statistics are neither derived from nor
changed in place: every statistic of every array is the statistic of that array. Missing for
the full property: the histories excluded here, for which it is false. -/
theorem C21_valid_partial (stat : Stat → D → V) (ops : List (ArrOp D))
    (h : SafeHistory stat ([] : List (ArrObj D V)) ops) :
    ∀ o ∈ arrRun stat ops, ValidStats stat o := by
  suffices H : ∀ (objs : List (ArrObj D V)), (∀ o ∈ objs, ValidStats stat o) →
      SafeHistory stat objs ops → ∀ o ∈ ops.foldl (arrStep stat) objs, ValidStats stat o by
    exact H [] (by simp) h
  clear h
  induction ops with
  | nil => intro objs h _; exact h
  | cons op ops ih =>
    intro objs hv hs
    apply ih
    · have hop := hs.1
      intro o ho
      cases op with
      | create d b =>
        simp only [arrStep, List.mem_append, List.mem_singleton] at ho
        rcases ho with ho | ho
        · exact hv o ho
        · subst ho; intro s v hv; simp at hv
      | derive i f b =>
        simp only [arrStep] at ho
        split at ho
        · rename_i o' ho'
          simp only [List.mem_append, List.mem_singleton] at ho
          rcases ho with ho | ho
          · exact hv o ho
          · subst ho
            intro s v hv
            simp only [hop o' ho' s] at hv
            cases hv
        · exact hv o ho
      | arith i f b =>
        simp only [arrStep] at ho
        split at ho
        · simp only [List.mem_append, List.mem_singleton] at ho
          rcases ho with ho | ho
          · exact hv o ho
          · subst ho; intro s v hv; simp at hv
        · exact hv o ho
      | inplace i f =>
        simp only [arrStep] at ho
        obtain ⟨j, hj, rfl⟩ := List.getElem_of_mem ho
        rw [List.getElem_modify]
        split
        · rename_i he
          intro s v hv'
          simp only at hv'
          have hlt : j < objs.length := by simpa using hj
          rw [hop objs[j] (by rw [he]; exact List.getElem?_eq_getElem hlt) s] at hv'
          cases hv'
        · exact hv _ (List.getElem_mem _)
      | calculate i =>
        simp only [arrStep] at ho
        obtain ⟨j, hj, rfl⟩ := List.getElem_of_mem ho
        rw [List.getElem_modify]
        have hlt : j < objs.length := by simpa using hj
        have hvj := hv objs[j] (List.getElem_mem hlt)
        split
        · intro s v hs'
          simp only [calcStats] at hs'
          split at hs'
          · exact hvj s v hs'
          · cases hs'; rfl
        · exact hvj
    · exact hs.2

/-- Results of arithmetic never carry statistics, whatever happened before. -/
theorem C21_arith_unset (stat : Stat → D → V) (ops : List (ArrOp D)) (i : Nat) (f : D → D) (b : Bool)
    (o : ArrObj D V) (h : (arrRun stat ops)[i]? = some o) :
    ∃ o', (arrRun stat (ops ++ [.arith i f b])) = arrRun stat ops ++ [o'] ∧
      o'.data = f o.data ∧ NoStats o' := by
  refine ⟨⟨f o.data, b, fun _ => none⟩, ?_, rfl, fun _ => rfl⟩
  unfold arrRun at *
  rw [List.foldl_append, List.foldl_cons, List.foldl_nil, arrStep, h]

example : ∃ o', arrRun (fun _ d => d) [.create 7 false, .calculate 0, .arith 0 (· * 2) false] =
    arrRun (V := Nat) (fun _ d => d) [.create 7 false, .calculate 0] ++ [o'] ∧ o'.data = 14 ∧ NoStats o' :=
  C21_arith_unset (fun _ d => d) [.create 7 false, .calculate 0] 0 (· * 2) false _ rfl

/-- The statistics written by `describe` after `calculate_statistics` are those of the array, for
every history before. -/
theorem C21_describe_after_calculate (stat : Stat → D → V) (ops : List (ArrOp D)) (i : Nat)
    (o : ArrObj D V) (h : (arrRun stat ops)[i]? = some o) :
    ∃ o', (arrRun stat (ops ++ [.calculate i]))[i]? = some o' ∧ o'.data = o.data ∧
      ∀ s ∈ describeStats, o'.attr s = some (stat s o.data) := by
  refine ⟨calcStats stat o, ?_, rfl, ?_⟩
  · unfold arrRun at *
    rw [List.foldl_append, List.foldl_cons, List.foldl_nil, arrStep, List.getElem?_modify, h]
    simp
  · intro s hs
    apply (C21_after_calculate stat o).2.1
    intro he; subst he; revert hs; decide

/-- A safe history with a derived array and two calculations. -/
example : SafeHistory (V := Nat) (fun _ d => d) [] [.create 7 false, .derive 0 (· + 1) false,
    .calculate 0, .calculate 1, .arith 1 (· * 2) false] := by
  refine ⟨trivial, ?_, trivial, trivial, trivial, trivial⟩
  intro o ho; cases ho; intro s; rfl

/-- C21 for this history. -/
example : ∀ o ∈ arrRun (V := Nat) (fun _ d => d) [.create 7 false, .derive 0 (· + 1) false, .calculate 0, .calculate 1, .arith 1 (· * 2) false],
    ValidStats (fun _ d => d) o := C21_valid_partial _ _ (by
  refine ⟨trivial, ?_, trivial, trivial, trivial, trivial⟩
  intro o ho; cases ho; intro s; rfl)

end Viqa
