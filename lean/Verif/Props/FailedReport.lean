import Verif.Props.Report

/-! C196: what a failing report does to the files of earlier reports. -/

namespace Viqa

variable {D S R : Type}

/-- The files by path: `some none` is an empty file. -/
abbrev Spec.Disk (D S : Type) := Txt → Option (Option (Content D S))

/-- The files after a report. -/
def Spec.afterReport (disk : Spec.Disk D S) : List (Effect D S) → Spec.Disk D S
  | [] => disk
  | .wrote path c :: es => Spec.afterReport (fun p => if p = path then some c else disk p) es
  | .shown _ _ :: es => Spec.afterReport disk es
  | .printed _ :: es => Spec.afterReport disk es

/-- A file with content. -/
def Spec.HasContent (disk : Spec.Disk D S) (p : Txt) : Prop := ∃ c, disk p = some (some c)

open Spec

theorem afterReport_other (es : List (Effect D S)) : ∀ (disk : Disk D S) (p : Txt), (∀ c, Effect.wrote p c ∉ es) →
    afterReport disk es p = disk p := by
  induction es with
  | nil => intro disk p _; rfl
  | cons e es ih =>
    intro disk p h
    have h' : ∀ c, Effect.wrote p c ∉ es := fun c hc => h c (by simp [hc])
    cases e with
    | wrote path c =>
      show afterReport (fun q => if q = path then some c else disk q) es p = _
      rw [ih _ _ h']
      have : p ≠ path := fun hp => h c (by simp [hp])
      rw [if_neg this]
    | shown d v => exact ih _ _ h'
    | printed v => exact ih _ _ h'

theorem afterReport_kept (es : List (Effect D S)) : ∀ (disk : Disk D S) (p : Txt), Effect.wrote p none ∉ es →
    HasContent disk p → HasContent (afterReport disk es) p := by
  induction es with
  | nil => intro disk p _ h; exact h
  | cons e es ih =>
    intro disk p h hd
    have h' : Effect.wrote p none ∉ es := fun hc => h (by simp [hc])
    cases e with
    | wrote path c =>
      apply ih _ _ h'
      by_cases hp : p = path
      · cases c with
        | none => exact absurd (by simp [hp]) h
        | some c => exact ⟨c, if_pos hp⟩
      · obtain ⟨c', hc'⟩ := hd
        exact ⟨c', (if_neg hp).trans hc'⟩
    | shown d v => exact ih _ _ h' hd
    | printed v => exact ih _ _ h' hd

/-- Only the file `q` can have been emptied, and then an exception was raised. -/
def EmptiesOnly (a : Eff D S) : Prop := (∀ e, a.2 = .error e → ∃ q, ∀ p, Effect.wrote p none ∈ a.1 → p = q) ∧
  (∀ u, a.2 = .ok u → ∀ p, Effect.wrote p none ∉ a.1)

theorem EmptiesOnly.seq {a b : Eff D S} (ha : EmptiesOnly a) (hb : EmptiesOnly b) : EmptiesOnly (Eff.seq a b) := by
  obtain ⟨a1, a2⟩ := a
  obtain ⟨b1, b2⟩ := b
  cases a2 with
  | error e => exact ha
  | ok u =>
    have hno := ha.2 u rfl
    constructor
    · intro e he
      obtain ⟨q, hq⟩ := hb.1 e he
      refine ⟨q, fun p hp => ?_⟩
      rcases List.mem_append.mp hp with hp | hp
      · exact absurd hp (hno p)
      · exact hq p hp
    · intro v hv p hp
      rcases List.mem_append.mp hp with hp | hp
      · exact hno p hp
      · exact hb.2 v hv p hp

theorem EmptiesOnly.none {a : Eff D S} (h : ∀ p, Effect.wrote p none ∉ a.1) : EmptiesOnly a :=
  ⟨fun _ _ => ⟨[], fun p hp => absurd hp (h p)⟩, fun _ _ p hp => h p hp⟩

theorem EmptiesOnly.only {a : Eff D S} (flag : Bool) (ha : EmptiesOnly a) : EmptiesOnly (Eff.only flag a) := by
  cases flag
  · exact EmptiesOnly.none (fun p hp => by cases hp)
  · exact ha

theorem emptiesOnly_writeFile (filePath : Option Txt) (name ext : Txt) (content : Py (Content D S)) :
    EmptiesOnly (writeFile filePath name ext content) := by
  unfold writeFile
  split
  · exact EmptiesOnly.none (fun p hp => by cases hp)
  · split
    · exact EmptiesOnly.none (fun p hp => by cases hp)
    · split
      · rename_i dir _ e
        exact ⟨fun _ _ => ⟨pathJoin dir name, fun p hp => by simpa using hp⟩, fun u hu => by cases hu⟩
      · exact EmptiesOnly.none (fun p hp => by simp at hp)

theorem writeImage_whole (filePath : Option Txt) (name : Txt) (alsoShow : Bool) (d : Py D) (values : ODict Key S) (p : Txt) :
    Effect.wrote p none ∉ (writeImage filePath name alsoShow d values).1 := by
  unfold writeImage
  split
  · simp
  · split
    · simp
    · split
      · simp
      · simp
      · cases alsoShow <;> simp

theorem reportImages_whole (draw : Pair → Option R → Py D) (obj : BatchObj R S) (global : Option R)
    (filePath project : Option Txt) (ps : List Pair) : ∀ (num : Nat) (p : Txt),
    Effect.wrote p none ∉ (reportImages draw obj global filePath project ps num).1 := by
  induction ps with
  | nil => intro num p hp; cases hp
  | cons q ps ih =>
    intro num p
    have hfirst : Effect.wrote p none ∉ ((match pairRoi global obj.rois num with
        | .error e => ([], .error e)
        | .ok roi => match ODict.get obj.results (Spec.decimal num) with
          | .error e => ([], .error e)
          | .ok values =>
            writeImage filePath (reportName project (ReportFile.image num).base) false (draw q roi) values) : Eff D S).1 := by
      split
      · simp
      · split
        · simp
        · exact writeImage_whole _ _ _ _ _ _
    unfold reportImages Eff.seq
    split
    · exact hfirst
    · rw [List.mem_append, not_or]
      exact ⟨hfirst, ih (num + 1) p⟩

/-- **C196, partial**: a report of a batch that raises empties at most one file, a report that returns none; all other
files keep their content or get their new content as a whole. Missing: the one file (`C196_refuted`). -/
theorem C196_batch_partial (draw : Pair → Option R → Py D) (obj : BatchObj R S) (csv metadata image : Bool)
    (filePath project : Option Txt) (disk : Disk D S) :
    (∃ q, ∀ p ≠ q, HasContent disk p →
      HasContent (afterReport disk (batchReport draw obj csv metadata image filePath project).1) p) ∧
    ((batchReport draw obj csv metadata image filePath project).2 = .ok () → ∀ p, HasContent disk p →
      HasContent (afterReport disk (batchReport draw obj csv metadata image filePath project).1) p) := by
  have h : EmptiesOnly (batchReport draw obj csv metadata image filePath project) := by
    unfold batchReport
    refine EmptiesOnly.seq (EmptiesOnly.only _ (emptiesOnly_writeFile _ _ _ _))
      (EmptiesOnly.seq (EmptiesOnly.only _ (emptiesOnly_writeFile _ _ _ _)) (EmptiesOnly.only _ ?_))
    split
    · exact EmptiesOnly.none (fun p hp => by cases hp)
    · exact EmptiesOnly.none (reportImages_whole _ _ _ _ _ _ _)
  constructor
  · cases hr : (batchReport draw obj csv metadata image filePath project).2 with
    | error e =>
      obtain ⟨q, hq⟩ := h.1 e hr
      exact ⟨q, fun p hp hd => afterReport_kept _ _ _ (fun hm => hp (hq p hm)) hd⟩
    | ok u => exact ⟨[], fun p _ hd => afterReport_kept _ _ _ (h.2 u hr p) hd⟩
  · intro hr p hd
    exact afterReport_kept _ _ _ (h.2 () hr p) hd

theorem writeFile_ok_whole (filePath : Option Txt) (name ext : Txt) (c : Content D S) (p : Txt) :
    Effect.wrote p none ∉ (writeFile filePath name ext (.ok c)).1 := by
  unfold writeFile
  split
  · simp
  · split <;> simp

theorem seq_whole {a b : Eff D S} {p : Txt} (ha : Effect.wrote p none ∉ a.1) (hb : Effect.wrote p none ∉ b.1) :
    Effect.wrote p none ∉ (Eff.seq a b).1 := by
  unfold Eff.seq
  split
  · exact ha
  · rw [List.mem_append, not_or]; exact ⟨ha, hb⟩

theorem only_whole {a : Eff D S} {p : Txt} (flag : Bool) (ha : Effect.wrote p none ∉ a.1) :
    Effect.wrote p none ∉ (Eff.only flag a).1 := by
  cases flag
  · exact fun h => by cases h
  · exact ha

/-- **C196, partial**: after a successful calculation of at least one pair no file loses its content, also if the report
raises because a directory is missing or an image cannot be drawn. -/
theorem C196_calculated_partial {L I : Type} (env : BatchEnv L I R) (metrics : List (BMetric I S)) (g : Option R)
    (rois : Option (List (Option R))) (names : List Pair) (join : Txt → Txt) (hne : names ≠ [])
    (results : ODict Txt (ODict Key S)) (st : BatchState L S)
    (h0 : results = [] ∨ results.map Prod.fst = (List.range names.length).map decimal)
    (h : batchCalculate env metrics g rois (names.map (fun p => ⟨join p.reference, join p.modified⟩)) results = .ok st)
    (entries : List MetaEntry) (draw : Pair → Option R → Py D) (gr : Option (Option R)) (csv metadata image : Bool)
    (filePath project : Option Txt) (disk : Disk D S) (p : Txt) (hp : HasContent disk p) :
    HasContent (afterReport disk
      (batchReport draw ⟨names, rois, st.results, .ok entries, gr⟩ csv metadata image filePath project).1) p := by
  obtain ⟨header, rows, ht, -, -⟩ := C65_rows env metrics g rois names join hne results st h0 h
  apply afterReport_kept _ _ _ _ hp
  unfold batchReport
  simp only [ht, Except.map]
  refine seq_whole (only_whole _ (writeFile_ok_whole _ _ _ _ _)) (seq_whole (only_whole _ (writeFile_ok_whole _ _ _ _ _))
    (only_whole _ ?_))
  split
  · simp
  · exact reportImages_whole _ _ _ _ _ _ _ _

/-- **C196, partial**: a report of `MultipleMetrics` can only empty the metadata file, and only if a parameter for it is
missing (C97). -/
theorem C196_multiple_partial (draw : Option (Py D)) (results : ODict Key S) (entries : Py (List MetaEntry))
    (csv metadata text image saveImage : Bool) (filePath project : Option Txt) (disk : Disk D S) (p : Txt)
    (hp : HasContent disk p)
    (hn : (∃ es, entries = .ok es) ∨ ∀ dir, filePath = some dir → p ≠ pathJoin dir (reportName project ReportFile.metadata.base)) :
    HasContent (afterReport disk
      (multipleReport draw results entries csv metadata text image saveImage filePath project).1) p := by
  apply afterReport_kept _ _ _ _ hp
  unfold multipleReport
  refine seq_whole (only_whole _ (by simp)) (seq_whole (only_whole _ ?_)
    (seq_whole (only_whole _ (writeFile_ok_whole _ _ _ _ _)) (only_whole _ ?_)))
  · split
    · simp
    · exact writeImage_whole _ _ _ _ _ _
  · rcases hn with ⟨es, rfl⟩ | hn
    · exact writeFile_ok_whole _ _ _ _ _
    · unfold writeFile
      split
      · simp
      · split
        · simp
        · rename_i dir
          have := hn dir rfl
          split <;> simp [this]

theorem seq_wrote {a b : Eff D S} {e : Effect D S} (h : e ∈ (Eff.seq a b).1) : e ∈ a.1 ∨ e ∈ b.1 := by
  unfold Eff.seq at h
  split at h
  · exact .inl h
  · exact List.mem_append.mp h

theorem only_wrote {a : Eff D S} {e : Effect D S} {flag : Bool} (h : e ∈ (Eff.only flag a).1) : flag = true ∧ e ∈ a.1 := by
  cases flag
  · cases h
  · exact ⟨rfl, h⟩

theorem writeFile_path {filePath : Option Txt} {name ext : Txt} {content : Py (Content D S)} {p : Txt}
    {c : Option (Content D S)} (h : Effect.wrote p c ∈ (writeFile filePath name ext content).1) :
    ∃ dir, filePath = some dir ∧ p = pathJoin dir name := by
  unfold writeFile at h
  split at h
  · cases h
  · split at h
    · cases h
    · rename_i dir
      split at h <;> simp at h <;> exact ⟨dir, rfl, h.1⟩

theorem writeImage_path {filePath : Option Txt} {name : Txt} {alsoShow : Bool} {d : Py D} {values : ODict Key S} {p : Txt}
    {c : Option (Content D S)} (h : Effect.wrote p c ∈ (writeImage filePath name alsoShow d values).1) :
    ∃ dir, filePath = some dir ∧ p = pathJoin dir name := by
  unfold writeImage at h
  split at h
  · cases h
  · split at h
    · cases h
    · split at h
      · simp at h
      · simp at h
      · rename_i dir _
        cases alsoShow <;> simp at h <;> exact ⟨dir, rfl, h.1⟩

theorem reportImages_path {draw : Pair → Option R → Py D} {obj : BatchObj R S} {global : Option R}
    {filePath project : Option Txt} (ps : List Pair) : ∀ (num : Nat) (p : Txt) (c : Option (Content D S)),
    Effect.wrote p c ∈ (reportImages draw obj global filePath project ps num).1 →
    ∃ dir k, filePath = some dir ∧ p = pathJoin dir (reportName project (ReportFile.image k).base) ∧ num ≤ k ∧ k < num + ps.length := by
  induction ps with
  | nil => intro num p c h; cases h
  | cons q ps ih =>
    intro num p c h
    rcases seq_wrote h with h | h
    · split at h
      · cases h
      · split at h
        · cases h
        · obtain ⟨dir, h1, h2⟩ := writeImage_path h
          exact ⟨dir, num, h1, h2, le_refl _, by simp⟩
    · obtain ⟨dir, k, h1, h2, h3, h4⟩ := ih (num + 1) p c h
      exact ⟨dir, k, h1, h2, by omega, by simp; omega⟩

/-- **C196, partial**: a report of a batch touches only the files it was asked for, in the given directory and with the
given project: results, metadata and one image for each pair. Whatever happens, all other files stay as they are. -/
theorem C196_others_partial (draw : Pair → Option R → Py D) (obj : BatchObj R S) (csv metadata image : Bool)
    (filePath project : Option Txt) (disk : Disk D S) (p : Txt)
    (h : ∀ dir, filePath = some dir →
      (csv = true → p ≠ pathJoin dir (reportName project ReportFile.results.base)) ∧
      (metadata = true → p ≠ pathJoin dir (reportName project ReportFile.metadata.base)) ∧
      (image = true → ∀ k < obj.pairs.length, p ≠ pathJoin dir (reportName project (ReportFile.image k).base))) :
    afterReport disk (batchReport draw obj csv metadata image filePath project).1 p = disk p := by
  apply afterReport_other
  intro c hc
  unfold batchReport at hc
  rcases seq_wrote hc with hc | hc
  · obtain ⟨hf, hc⟩ := only_wrote hc
    obtain ⟨dir, h1, h2⟩ := writeFile_path hc
    exact (h dir h1).1 hf h2
  · rcases seq_wrote hc with hc | hc
    · obtain ⟨hf, hc⟩ := only_wrote hc
      obtain ⟨dir, h1, h2⟩ := writeFile_path hc
      exact (h dir h1).2.1 hf h2
    · obtain ⟨hf, hc⟩ := only_wrote hc
      split at hc
      · cases hc
      · obtain ⟨dir, k, h1, h2, h3, h4⟩ := reportImages_path _ _ _ _ hc
        exact (h dir h1).2.2 hf k (by simpa using h4) h2

/-- **C196, refuted**: the report of a batch that was not calculated destroys the results of an earlier session: the
results file has its content before and is empty afterwards. -/
theorem C196_refuted (draw : Pair → Option R → Py D) (pairs : List Pair) (rois : Option (List (Option R)))
    (entries : Py (List MetaEntry)) (gr : Option (Option R)) (metadata image : Bool) (dir : Txt) (project : Option Txt)
    (disk : Disk D S) (c : Content D S)
    (_hc : disk (pathJoin dir (reportName project ReportFile.results.base)) = some (some c)) :
    ∃ e, (batchReport (S := S) draw ⟨pairs, rois, [], entries, gr⟩ true metadata image (some dir) project).2 = .error e ∧
      afterReport disk (batchReport (S := S) draw ⟨pairs, rois, [], entries, gr⟩ true metadata image (some dir) project).1
        (pathJoin dir (reportName project ReportFile.results.base)) = some none := by
  rw [C111_before_refuted]
  exact ⟨_, rfl, by simp [afterReport]⟩

/-- A table of an earlier session in the working directory. -/
example : ¬ HasContent (afterReport (fun p => if p = "./results.csv".toList then some (some (.table [] [])) else none)
    (batchReport (fun p _ => (.ok p : Py Pair)) (⟨[⟨['a'], ['m']⟩], none, [], .ok [], none⟩ : BatchObj Unit Rat)
      true true false (some ['.']) none).1) "./results.csv".toList := by
  rintro ⟨c, hc⟩
  obtain ⟨e, -, h⟩ := C196_refuted (fun p (_ : Option Unit) => (.ok p : Py Pair)) [⟨['a'], ['m']⟩] none (.ok []) none true false ['.'] none
    (fun p => if p = "./results.csv".toList then some (some (.table [] ([] : List (List (Cell Rat))))) else none) (.table [] [])
    (by rw [if_pos (by decide +kernel)])
  rw [show pathJoin ['.'] (reportName none ReportFile.results.base) = "./results.csv".toList by decide +kernel] at h
  rw [h] at hc
  cases hc

/-- Another project keeps its files. -/
example (disk : Disk Pair Rat) : afterReport disk
    (batchReport (fun p _ => (.ok p : Py Pair)) (⟨[⟨['a'], ['m']⟩], none, [], .ok [], none⟩ : BatchObj Unit Rat)
      true true true (some ['.']) (some ['q'])).1 "./results.csv".toList = disk "./results.csv".toList := by
  apply C196_others_partial
  intro dir hd
  cases hd
  refine ⟨fun _ => by decide +kernel, fun _ => by decide +kernel, fun _ k hk => ?_⟩
  have : k = 0 := by simpa using hk
  subst this
  decide +kernel

end Viqa
