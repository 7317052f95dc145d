import Verif.Model.ResultFile
import Verif.Props.PairFile
import Verif.Props.Batch
import Verif.Props.Metric

/-!
Result files can be read back: C155.
-/

namespace Viqa

open Spec

/-! ### The reader of the dialect `excel` -/

namespace CsvReader

theorem doubled_cons (c : Char) (s : Txt) (hc : c ≠ '"') : doubled (c :: s) = c :: doubled s := by
  unfold doubled; rw [List.flatMap_cons, if_neg hc]; rfl

theorem doubled_quote (s : Txt) : doubled ('"' :: s) = '"' :: '"' :: doubled s := by
  unfold doubled; rw [List.flatMap_cons, if_pos rfl]; rfl

/-- Inside of quotes everything up to the closing quote is taken literally, pairs of quotes are quotes. -/
theorem excel_quoted (d : Char) (s r : Txt) (hr : r ≠ []) (f : Txt) (row : List Txt) (rows : List (List Txt)) :
    run d true ⟨.inQuoted, f, row, rows⟩ (csvTokens (doubled s ++ '"' :: r)) =
      run d true ⟨.quoteInQuoted, f ++ s, row, rows⟩ (csvTokens r) := by
  induction hn : s.length using Nat.strongRecOn generalizing s f with
  | _ n ih =>
    cases s with
    | nil =>
      rw [show doubled [] = [] from rfl, List.nil_append, csvTokens_plain '"' r (by decide) (by decide) hr,
        run_cons d true _ ⟨.quoteInQuoted, f, row, rows⟩ _ _ (by simp [step]), emit_ch, List.append_nil]
    | cons c s =>
      by_cases hc : c = '"'
      · subst hc
        rw [doubled_quote, List.cons_append, List.cons_append, csvTokens_plain '"' _ (by decide) (by decide) (by simp),
          run_cons d true _ ⟨.quoteInQuoted, f, row, rows⟩ _ _ (by simp [step]), emit_ch,
          csvTokens_plain '"' _ (by decide) (by decide) (by simp),
          run_cons d true _ ⟨.inQuoted, f ++ ['"'], row, rows⟩ _ _ (by simp [step, isEnd, add]), emit_ch,
          ih s.length (by simp at hn; omega) s _ rfl]
        simp
      · by_cases hcr : ∃ r', c = '\r' ∧ doubled s ++ '"' :: r = '\n' :: r'
        · obtain ⟨r', rfl, he⟩ := hcr
          cases s with
          | nil => simp [doubled] at he
          | cons c' s =>
            by_cases hc' : c' = '"'
            · subst hc'
              rw [doubled_quote] at he
              simp at he
            · rw [doubled_cons c' s hc'] at he
              simp only [List.cons_append, List.cons.injEq] at he
              obtain ⟨rfl, -⟩ := he
              rw [doubled_cons _ _ hc, doubled_cons _ _ hc', List.cons_append, List.cons_append, csvTokens_crlf,
                run_cons d true _ _ _ _ (step_quoted_ch d true f row rows '\r' (by decide)), emit_ch,
                run_cons d true _ _ _ _ (step_quoted_ch d true _ row rows '\n' (by decide)), emit_ch,
                run_cons d true _ _ _ _ (step_quoted_eol d true _ row rows), emit_quoted,
                ih s.length (by simp at hn; omega) s _ rfl]
              simp
        · by_cases hb : c = '\r' ∨ c = '\n'
          · rw [doubled_cons _ _ hc, List.cons_append, csvTokens_break c _ hb (by
                intro r' h; exact hcr ⟨r', h⟩),
              run_cons d true _ _ _ _ (step_quoted_ch d true f row rows c hc), emit_ch,
              run_cons d true _ _ _ _ (step_quoted_eol d true _ row rows), emit_quoted,
              ih s.length (by simp at hn; omega) s _ rfl]
            simp
          · rw [doubled_cons _ _ hc, List.cons_append, csvTokens_plain c _ (by tauto) (by tauto) (by simp),
              run_cons d true _ _ _ _ (step_quoted_ch d true f row rows c hc), emit_ch,
              ih s.length (by simp at hn; omega) s _ rfl]
            simp

theorem excel_plain (d : Char) (s r : Txt) (hs : ∀ c ∈ s, c ≠ d ∧ c ≠ '\r' ∧ c ≠ '\n') (hr : r ≠ []) (f : Txt)
    (row : List Txt) (rows : List (List Txt)) :
    run d true ⟨.inField, f, row, rows⟩ (csvTokens (s ++ r)) = run d true ⟨.inField, f ++ s, row, rows⟩ (csvTokens r) := by
  induction s generalizing f with
  | nil => simp
  | cons c s ih =>
    obtain ⟨h1, h3, h4⟩ := hs c (by simp)
    rw [List.cons_append, csvTokens_plain c _ h3 h4 (by simp [hr]),
      run_cons d true _ ⟨.inField, f ++ [c], row, rows⟩ _ _ (by simp [step, isEnd, h1, h3, h4, add]), emit_ch,
      ih (fun c hc => hs c (by simp [hc]))]
    simp

/-- States in which a field may end. -/
def Ending (st : CsvState) : Prop := st = .inField ∨ st = .quoteInQuoted

/-- A written field followed by more text. -/
theorem excel_field (d : Char) (s r : Txt) (hne : s ≠ []) (hr : r ≠ [])
    (st : CsvState) (hst : st = .startField ∨ st = .startRecord) (row : List Txt) (rows : List (List Txt)) :
    ∃ st', Ending st' ∧ run d true ⟨st, [], row, rows⟩ (csvTokens (writeField d s ++ r)) =
      run d true ⟨st', s, row, rows⟩ (csvTokens r) := by
  unfold writeField
  by_cases hq : (s.any (fun c => c = d || c = '"' || c = '\r' || c = '\n')) = true
  · rw [if_pos hq]
    refine ⟨.quoteInQuoted, Or.inr rfl, ?_⟩
    rw [← doubled, List.cons_append, List.cons_append, csvTokens_plain '"' _ (by decide) (by decide) (by simp),
      run_cons d true _ ⟨.inQuoted, [], row, rows⟩ _ _ (by
        rcases hst with rfl | rfl <;> simp [step, stepStartField, isEnd]), emit_ch, List.append_assoc,
      List.singleton_append, excel_quoted d s r hr, List.nil_append]
  · rw [if_neg hq]
    refine ⟨.inField, Or.inl rfl, ?_⟩
    have hs' : ∀ c ∈ s, c ≠ d ∧ c ≠ '"' ∧ c ≠ '\r' ∧ c ≠ '\n' := by
      intro c hc
      simp only [List.any_eq_true, not_exists, not_and] at hq
      have := hq c hc
      simp only [Bool.or_eq_true, decide_eq_true_eq, not_or] at this
      tauto
    cases s with
    | nil => exact absurd rfl hne
    | cons c s =>
      obtain ⟨h1, h2, h3, h4⟩ := hs' c (by simp)
      rw [List.cons_append, csvTokens_plain c _ h3 h4 (by simp [hr]),
        run_cons d true _ ⟨.inField, [c], row, rows⟩ _ _ (by
          rcases hst with rfl | rfl <;> simp [step, stepStartField, isEnd, h1, h2, h3, h4, add]), emit_ch,
        excel_plain d s r (fun c hc => ⟨(hs' c (by simp [hc])).1, (hs' c (by simp [hc])).2.2⟩) hr]
      simp

/-- The end of a row. -/
theorem excel_crlf (d : Char) (st : CsvState) (hst : st = .startField ∨ Ending st) (s : Txt) (row : List Txt)
    (rows : List (List Txt)) (r : Txt) :
    run d true ⟨st, s, row, rows⟩ (csvTokens ('\r' :: '\n' :: r)) =
      run d true ⟨.startRecord, [], [], rows ++ [row ++ [s]]⟩ (csvTokens r) := by
  rw [csvTokens_crlf, run_cons d true _ ⟨.eatCrnl, [], row ++ [s], rows⟩ _ _ (by
      rcases hst with rfl | rfl | rfl <;> simp [step, stepStartField, isEnd, afterEnd, save]), emit_ch,
    run_cons d true _ ⟨.eatCrnl, [], row ++ [s], rows⟩ _ _ (by simp [step]), emit_ch,
    run_cons d true _ ⟨.startRecord, [], row ++ [s], rows⟩ _ _ (by simp [step])]
  simp [emit]

/-- The delimiter. -/
theorem excel_delim (d : Char) (hd : d ≠ '"' ∧ d ≠ '\r' ∧ d ≠ '\n') (st : CsvState)
    (hst : st = .startField ∨ st = .startRecord ∨ Ending st) (s : Txt) (row : List Txt)
    (rows : List (List Txt)) (r : Txt) (hr : r ≠ []) :
    run d true ⟨st, s, row, rows⟩ (csvTokens (d :: r)) = run d true ⟨.startField, [], row ++ [s], rows⟩ (csvTokens r) := by
  rw [csvTokens_plain d r hd.2.1 hd.2.2 hr, run_cons d true _ ⟨.startField, [], row ++ [s], rows⟩ _ _ (by
      rcases hst with rfl | rfl | rfl | rfl <;> simp [step, stepStartField, isEnd, hd, save]), emit_ch]

theorem excel_fields (d : Char) (hd : d ≠ '"' ∧ d ≠ '\r' ∧ d ≠ '\n') (fs : List Txt) (hne : fs ≠ [])
    (st : CsvState) (hst : st = .startField ∨ (st = .startRecord ∧ fs ≠ [[]])) (row : List Txt) (rows : List (List Txt)) (r : Txt) :
    run d true ⟨st, [], row, rows⟩ (csvTokens (writeFields d fs ++ '\r' :: '\n' :: r)) =
      run d true ⟨.startRecord, [], [], rows ++ [row ++ fs]⟩ (csvTokens r) := by
  induction fs generalizing st row with
  | nil => exact absurd rfl hne
  | cons s fs ih =>
    have hst' : st = .startField ∨ st = .startRecord := by tauto
    cases fs with
    | nil =>
      rw [writeFields]
      by_cases hs : s = []
      · subst hs
        have : st = .startField := by
          rcases hst with h | h
          · exact h
          · exact absurd rfl h.2
        subst this
        rw [show writeField d [] = [] from rfl, List.nil_append, excel_crlf d _ (Or.inl rfl)]
      · obtain ⟨st', h1, h2⟩ := excel_field d s ('\r' :: '\n' :: r) hs (by simp) st hst' row rows
        rw [h2, excel_crlf d _ (Or.inr h1)]
    | cons s' fs =>
      rw [writeFields]
      · rw [List.append_assoc, List.cons_append]
        have hmore : writeFields d (s' :: fs) ++ '\r' :: '\n' :: r ≠ [] := by simp
        have hend : run d true ⟨st, [], row, rows⟩ (csvTokens (writeField d s ++ d :: (writeFields d (s' :: fs) ++ '\r' :: '\n' :: r))) =
            run d true ⟨.startField, [], row ++ [s], rows⟩ (csvTokens (writeFields d (s' :: fs) ++ '\r' :: '\n' :: r)) := by
          by_cases hs : s = []
          · subst hs
            rw [show writeField d [] = [] from rfl, List.nil_append, excel_delim d hd st (by tauto) _ _ _ _ hmore]
          · obtain ⟨st', h1, h2⟩ := excel_field d s (d :: (writeFields d (s' :: fs) ++ '\r' :: '\n' :: r)) hs (by simp) st hst' row rows
            rw [h2, excel_delim d hd _ (by tauto) _ _ _ _ hmore]
        rw [hend, ih (by simp) .startField (Or.inl rfl)]
        simp
      · simp

theorem excel_row (d : Char) (hd : d ≠ '"' ∧ d ≠ '\r' ∧ d ≠ '\n') (fs : List Txt) (rows : List (List Txt)) (r : Txt) :
    run d true ⟨.startRecord, [], [], rows⟩ (csvTokens (writeRow d fs ++ r)) =
      run d true ⟨.startRecord, [], [], rows ++ [fs]⟩ (csvTokens r) := by
  unfold writeRow
  by_cases h1 : fs = [[]]
  · subst h1
    rw [if_pos rfl]
    simp only [List.cons_append, List.nil_append]
    rw [csvTokens_plain '"' _ (by decide) (by decide) (by simp), csvTokens_plain '"' _ (by decide) (by decide) (by simp),
      run_cons d true _ ⟨.inQuoted, [], [], rows⟩ _ _ (by simp [step, stepStartField, isEnd]), emit_ch,
      run_cons d true _ ⟨.quoteInQuoted, [], [], rows⟩ _ _ (by simp [step]), emit_ch, excel_crlf d _ (Or.inr (Or.inr rfl))]
    simp
  · rw [if_neg h1]
    by_cases h0 : fs = []
    · subst h0
      simp only [writeFields, List.nil_append, List.cons_append]
      rw [csvTokens_crlf, run_cons d true _ ⟨.eatCrnl, [], [], rows⟩ _ _ (by simp [step]), emit_ch,
        run_cons d true _ ⟨.eatCrnl, [], [], rows⟩ _ _ (by simp [step]), emit_ch,
        run_cons d true _ ⟨.startRecord, [], [], rows⟩ _ _ (by simp [step])]
      simp [emit]
    · rw [List.append_assoc]
      exact excel_fields d hd fs h0 .startRecord (Or.inr ⟨rfl, h1⟩) [] rows r

theorem excel_rows (d : Char) (hd : d ≠ '"' ∧ d ≠ '\r' ∧ d ≠ '\n') (rows : List (List Txt)) (acc : List (List Txt)) :
    run d true ⟨.startRecord, [], [], acc⟩ (csvTokens (writeRows d rows)) = .ok ⟨.startRecord, [], [], acc ++ rows⟩ := by
  induction rows generalizing acc with
  | nil => simp [writeRows, csvTokens, run]
  | cons fs rows ih =>
    unfold writeRows at ih ⊢
    rw [List.flatMap_cons, excel_row d hd fs, ih]
    simp

end CsvReader

/-! ### C155 -/

/-- **C155.** `csv.reader` reads what `csv.writer` has written: the same rows of the same texts, whatever
characters they contain, empty texts and empty rows included. -/
theorem C155_round_trip (d : Char) (hd : d ≠ '"' ∧ d ≠ '\r' ∧ d ≠ '\n') (rows : List (List Txt)) :
    csvRows d true (writeRows d rows) = .ok rows := by
  unfold csvRows
  rw [show ({} : CsvReader) = ⟨.startRecord, [], [], []⟩ from rfl, CsvReader.excel_rows d hd rows []]
  simp [CsvReader.finish]

example : csvRows ',' true (writeRows ',' [["a\",\r\nb".toList, "".toList], ["".toList], [], ["\"".toList, "x".toList]]) =
    .ok [["a\",\r\nb".toList, "".toList], ["".toList], [], ["\"".toList, "x".toList]] :=
  C155_round_trip ',' (by decide) _

/-- Different tables are different files. -/
theorem C155_distinct (d : Char) (hd : d ≠ '"' ∧ d ≠ '\r' ∧ d ≠ '\n') (rows rows' : List (List Txt))
    (h : writeRows d rows = writeRows d rows') : rows = rows' := by
  have h1 := C155_round_trip d hd rows
  rw [h, C155_round_trip d hd rows'] at h1
  exact (Except.ok.inj h1).symm

example : writeRows ',' [["a,b".toList]] ≠ writeRows ',' [["a".toList, "b".toList]] := fun h => by
  have := C155_distinct ',' (by decide) _ _ h
  revert this
  decide

/-- A text of numbers for the examples. -/
def tally (v : Nat) : Txt := List.replicate v '1'

/-- **C155.** The file of `export_results`: one row for each metric with a score. -/
theorem C155_export {S} (num : S → Txt) (ms : List (MetricObj S)) :
    csvRows ',' true (exportFile num ms) = .ok (["Metric".toList, "Value".toList] ::
      ms.filterMap (fun m => match m.score with
        | .unset => none
        | .na => some [m.name.toList, "n/a".toList]
        | .num v => some [m.name.toList, num v])) := by
  unfold exportFile
  rw [C155_round_trip ',' (by decide)]
  congr 2
  induction ms with
  | nil => rfl
  | cons m ms ih =>
    have hstep : (exportResults (m :: ms)).1 = match m.score with
        | .unset => (exportResults ms).1
        | v => ⟨m.name, v⟩ :: (exportResults ms).1 := by
      unfold exportResults
      rw [List.foldr_cons]
      cases m.score <;> rfl
    rw [hstep, List.filterMap_cons]
    cases hs : m.score with
    | unset => exact ih
    | na => exact congrArg (_ :: ·) ih
    | num v => exact congrArg (_ :: ·) ih

example : csvRows ',' true (exportFile tally [⟨"RMSE", [], .unset⟩, ⟨"PSNR, \"x\"", [], .num 3⟩]) =
    .ok [["Metric".toList, "Value".toList], ["PSNR, \"x\"".toList, "111".toList]] :=
  C155_export tally [⟨"RMSE", [], .unset⟩, ⟨"PSNR, \"x\"", [], .num 3⟩]

/-- **C155.** The file of `MultipleMetrics.export_results`: the names, then the values. -/
theorem C155_multiple {S} (num : S → Txt) (results : ODict Key S) :
    csvRows ',' true (multipleFile num results) = .ok [results.map (fun kv => (kv.1.getD "").toList), results.map (fun kv => num kv.2)] :=
  C155_round_trip ',' (by decide) _

example : csvRows ',' true (multipleFile tally [(some "SNR_r", 1), (some "SNR_m", 2)]) =
    .ok [["SNR_r".toList, "SNR_m".toList], ["1".toList, "11".toList]] :=
  C155_multiple tally [(some "SNR_r", 1), (some "SNR_m", 2)]

/-- **C155.** The file of `ImageArray.describe`. -/
theorem C155_describe {V} (num : V → Txt) (stats : List (String × V)) :
    csvRows ',' true (statsFile num stats) = .ok [stats.map (fun s => s.1.toList), stats.map (fun s => num s.2)] :=
  C155_round_trip ',' (by decide) _

example : csvRows ',' true (statsFile tally [("mean", 1), ("maximum", 3)]) =
    .ok [["mean".toList, "maximum".toList], ["1".toList, "111".toList]] :=
  C155_describe tally [("mean", 1), ("maximum", 3)]

/-- **C155.** The file of `BatchMetrics.export_results` after a calculation: the header and one row for each pair
with its number, its two names as given and the values of the columns. -/
theorem C155_batch {L I R S : Type} (env : BatchEnv L I R) (metrics : List (BMetric I S)) (g : Option R)
    (rois : Option (List (Option R))) (num : S → Txt) (names : List Pair) (join : Txt → Txt) (hne : names ≠ [])
    (st : BatchState L S)
    (h : batchCalculate env metrics g rois (names.map (fun p => ⟨join p.reference, join p.modified⟩)) [] = .ok st) :
    ∃ file table, batchFile num names st.results = .ok file ∧ csvRows ',' true file = .ok table ∧
      table.length = names.length + 1 ∧
      ∀ (i : Nat) p, names[i]? = some p → ∃ d, ODict.get st.results (decimal i) = .ok d ∧
        table[0]? = some (["pair_num".toList, "reference_image".toList, "modified_image".toList]
          ++ d.map (fun kv => (kv.1.getD "").toList)) ∧
        table[i + 1]? = some ([decimal i, p.reference, p.modified] ++ d.map (fun kv => num kv.2)) := by
  obtain ⟨header, rows, h1, h2, h3⟩ := C65_rows env metrics g rois names join hne [] st (.inl rfl) h
  refine ⟨_, (header :: rows).map (fun r => r.map (cellText num)), by unfold batchFile; rw [h1],
    C155_round_trip ',' (by decide) _, by simp [h2], ?_⟩
  intro i p hp
  obtain ⟨d, e1, e2, e3⟩ := h3 i p hp
  refine ⟨d, e1, ?_, ?_⟩
  · rw [List.map_cons, List.getElem?_cons_zero, e2]
    simp [cellText, Function.comp_def]
  · rw [List.map_cons, List.getElem?_cons_succ, List.getElem?_map, e3]
    simp [cellText, Function.comp_def]

example (st : BatchState Nat Nat) (h : batchCalculate ToyBatch.env ToyBatch.metrics none none ToyBatch.pairs [] = .ok st) :
    ∃ file table, batchFile tally ToyBatch.pairs st.results = .ok file ∧ csvRows ',' true file = .ok table ∧
      table.length = 3 := by
  obtain ⟨f, t, h1, h2, h3, -⟩ := C155_batch _ _ _ _ tally ToyBatch.pairs id (by decide) st h
  exact ⟨f, t, h1, h2, h3⟩

/-! ### A result file as pair file -/

/-- Characters that mean nothing in a csv file. -/
def PlainText (s : Txt) : Prop := ∀ c ∈ s, c ∉ [',', ';', '\t', '"', '\r', '\n']

theorem writeField_plain (s : Txt) (h : PlainText s) : writeField ',' s = s := by
  unfold writeField
  rw [if_neg]
  intro hh
  obtain ⟨c, hc, he⟩ := List.any_eq_true.1 hh
  have := h c hc
  simp only [List.mem_cons, List.not_mem_nil, or_false, not_or] at this
  simp only [Bool.or_eq_true, decide_eq_true_eq] at he
  tauto

theorem mem_writeFields_plain (fs : List Txt) (h : ∀ s ∈ fs, PlainText s) (c : Char) (hc : c ∈ writeFields ',' fs) :
    c = ',' ∨ c ∉ [',', ';', '\t', '"', '\r', '\n'] := by
  induction fs with
  | nil => simp [writeFields] at hc
  | cons s fs ih =>
    cases fs with
    | nil =>
      rw [writeFields, writeField_plain s (h s (by simp))] at hc
      exact Or.inr (h s (by simp) c hc)
    | cons s' fs =>
      rw [writeFields, writeField_plain s (h s (by simp))] at hc
      · rcases List.mem_append.1 hc with hc | hc
        · exact Or.inr (h s (by simp) c hc)
        · rcases List.mem_cons.1 hc with rfl | hc
          · exact Or.inl rfl
          · exact ih (fun s hs => h s (by simp [hs])) hc
      · simp

/-- The delimiter of a header of at least two plain names. -/
theorem sniff_plain (s s' : Txt) (fs : List Txt) (h : ∀ t ∈ s :: s' :: fs, PlainText t) (hs' : s'.head? ≠ some ' ') (r : Txt) :
    sniff (firstLine (writeRow ',' (s :: s' :: fs) ++ r)) = .ok (',', false) := by
  have h1 : firstLine (writeRow ',' (s :: s' :: fs) ++ r) = writeFields ',' (s :: s' :: fs) := by
    unfold firstLine writeRow
    rw [if_neg (by simp), List.append_assoc, List.takeWhile_append_of_pos]
    · simp
    · intro c hc
      rcases mem_writeFields_plain _ h c hc with rfl | h'
      · decide
      · simp only [List.mem_cons, List.not_mem_nil, or_false, not_or] at h'
        simp [h']
  have hcomma : ',' ∈ writeFields ',' (s :: s' :: fs) := by
    rw [writeFields]
    · simp
    · simp
  have hother : ∀ c ∈ [';', '\t'], c ∉ writeFields ',' (s :: s' :: fs) := by
    intro c hc hm
    rcases mem_writeFields_plain _ h c hm with rfl | h'
    · simp at hc
    · simp only [List.mem_cons, List.not_mem_nil, or_false, not_or] at h' hc
      tauto
  rw [h1]
  unfold sniff
  rw [List.filter_cons_of_pos (by simpa using hcomma)]
  simp only
  congr 2
  rw [show writeFields ',' (s :: s' :: fs) = writeField ',' s ++ ',' :: writeFields ',' (s' :: fs) from rfl]
  apply allSpaced_false
  rcases fs with _ | ⟨f, fs⟩
  · rw [writeFields, writeField_plain s' (h s' (by simp))]
    exact hs'
  · rw [show writeFields ',' (s' :: f :: fs) = writeField ',' s' ++ ',' :: writeFields ',' (f :: fs) from rfl,
      writeField_plain s' (h s' (by simp))]
    cases s' with
    | nil => simp
    | cons c s' => exact hs'

/-- The position of a name that occurs once. -/
theorem dictGet_at (pre post row : List Txt) (key : Txt) (hpost : key ∉ post) :
    dictGet (pre ++ key :: post) row key = row[pre.length]? := by
  unfold dictGet
  have h : (pre ++ key :: post).zipIdx.reverse.find? (fun e => e.1 = key) = some (key, pre.length) := by
    rw [List.zipIdx_append, List.reverse_append, List.find?_append, List.zipIdx_cons, List.reverse_cons, List.find?_append]
    have : (post.zipIdx (0 + pre.length + 1)).reverse.find? (fun e => decide (e.1 = key)) = none := by
      rw [List.find?_eq_none]
      intro e he hk
      simp only [decide_eq_true_eq] at hk
      rw [List.mem_reverse] at he
      have := List.fst_mem_of_mem_zipIdx he
      rw [hk] at this
      exact hpost this
    rw [this]
    simp
  rw [h]
  rfl

section Batch
variable {L I R S : Type} (env : BatchEnv L I R) (metrics : List (BMetric I S)) (g : Option R)
  (rois : Option (List (Option R)))

theorem mem_foldl_addKey (ks acc : List Key) (k : Key) (h : k ∈ ks.foldl addKey acc) : k ∈ acc ∨ k ∈ ks := by
  induction ks generalizing acc with
  | nil => exact Or.inl h
  | cons x ks ih =>
    rcases ih _ h with h1 | h1
    · unfold addKey at h1
      split at h1
      · exact Or.inl h1
      · rcases List.mem_append.1 h1 with h2 | h2
        · exact Or.inl h2
        · simp only [List.mem_cons, List.not_mem_nil, or_false] at h2
          subst h2
          exact Or.inr (by simp)
    · exact Or.inr (by simp [h1])

/-- The columns of plain names are plain and different from the columns of the pairs. -/
theorem columns_plain (hm : ∀ b ∈ metrics, ∀ n, b.name = some n →
      PlainText n.toList ∧ n ≠ "reference_image" ∧ n ≠ "modified_image")
    (k : Key) (hk : k ∈ batchColumns metrics) :
    PlainText (k.getD "").toList ∧ (k.getD "").toList ≠ "reference_image".toList ∧
      (k.getD "").toList ≠ "modified_image".toList := by
  unfold batchColumns at hk
  rcases mem_foldl_addKey _ _ _ hk with h | h
  · simp at h
  · obtain ⟨b, hb, hkb⟩ := List.mem_flatMap.1 h
    have key : ∀ (n suf : String), suf.toList ∈ ["_r".toList, "_m".toList] → PlainText n.toList →
        PlainText (n ++ suf).toList ∧ (n ++ suf).toList ≠ "reference_image".toList ∧
          (n ++ suf).toList ≠ "modified_image".toList := by
      intro n suf hs hp
      rw [String.toList_append]
      refine ⟨?_, ?_, ?_⟩
      · intro c hc
        rcases List.mem_append.1 hc with h | h
        · exact hp c h
        · simp only [List.mem_cons, List.not_mem_nil, or_false] at hs
          rcases hs with hs | hs <;> rw [hs] at h <;> clear hc hs <;> revert c <;> decide
      · intro he
        have := congrArg List.getLast? he
        simp only [List.mem_cons, List.not_mem_nil, or_false] at hs
        rcases hs with hs | hs <;> rw [hs] at this <;> simp at this
      · intro he
        have := congrArg List.getLast? he
        simp only [List.mem_cons, List.not_mem_nil, or_false] at hs
        rcases hs with hs | hs <;> rw [hs] at this <;> simp at this
    cases hn : b.name with
    | none =>
      have : k = none := by
        unfold metricKeys at hkb
        rw [hn] at hkb
        cases hr : b.run with
        | inl _ => rw [hr] at hkb; simpa using hkb
        | inr _ => rw [hr] at hkb; simpa using hkb
      subst this
      refine ⟨?_, by decide, by decide⟩
      intro c hc
      simp at hc
    | some n =>
      obtain ⟨h1, h2, h3⟩ := hm b hb n hn
      unfold metricKeys at hkb
      rw [hn] at hkb
      cases hr : b.run with
      | inl _ =>
        rw [hr] at hkb
        simp only [Option.map_some, List.mem_cons, List.not_mem_nil, or_false] at hkb
        rcases hkb with rfl | rfl
        · exact key n "_r" (by simp) h1
        · exact key n "_m" (by simp) h1
      | inr _ =>
        rw [hr] at hkb
        simp only [List.mem_cons, List.not_mem_nil, or_false] at hkb
        subst hkb
        exact ⟨h1, fun e => h2 (String.toList_inj.1 e), fun e => h3 (String.toList_inj.1 e)⟩

/-- **C155, partial.** The result file of a batch can be given as pair file: its pairs are those of the batch in the
same order, for all names of files without quotes. The names of the metrics are those of the package or others
without delimiters, quotes and line breaks; the text of a number contains no quote. Missing: names with quotes, see
`C155_pairs_refuted`. -/
theorem C155_pairs_partial (num : S → Txt) (hnum : ∀ v, '"' ∉ num v)
    (hm : ∀ b ∈ metrics, ∀ n, b.name = some n → PlainText n.toList ∧ n ≠ "reference_image" ∧ n ≠ "modified_image")
    (names : List Pair) (join : Txt → Txt) (hne : names ≠ []) (hq : ∀ p ∈ names, '"' ∉ p.reference ∧ '"' ∉ p.modified)
    (st : BatchState L S)
    (h : batchCalculate env metrics g rois (names.map (fun p => ⟨join p.reference, join p.modified⟩)) [] = .ok st) :
    ∃ file, batchFile num names st.results = .ok file ∧
      readPairs file = .ok (names.map (fun p => (some p.reference, some p.modified))) := by
  obtain ⟨header, rows, h1, h2, h3⟩ := C65_rows env metrics g rois names join hne [] st (.inl rfl) h
  have hcols := batchLoop_columns env metrics g rois _ 0 _ st (fun hn => absurd rfl hn) (by intro k hk; omega) h
  simp only [List.length_map, Nat.zero_add] at hcols
  have hpos : 0 < names.length := List.length_pos_iff.2 hne
  obtain ⟨d0, hd0, hk0⟩ := hcols 0 hpos
  obtain ⟨d, e1, e2, -⟩ := h3 0 names[0] (List.getElem?_eq_getElem hpos)
  obtain rfl : d0 = d := by rw [hd0] at e1; exact Except.ok.inj e1
  set post : List Txt := d0.map (fun kv => (kv.1.getD "").toList) with hpost
  have hplain : ∀ s ∈ post, PlainText s ∧ s ≠ "reference_image".toList ∧ s ≠ "modified_image".toList := by
    intro s hs
    rw [hpost] at hs
    obtain ⟨kv, hkv, rfl⟩ := List.mem_map.1 hs
    apply columns_plain metrics hm
    rw [← hk0]
    exact List.mem_map_of_mem hkv
  set head : List Txt := "pair_num".toList :: "reference_image".toList :: "modified_image".toList :: post with hhead
  have hheader : header.map (cellText num) = head := by
    rw [e2, hhead, hpost]
    simp [cellText, Function.comp_def]
  have hheadplain : ∀ s ∈ head, PlainText s := by
    intro s hs
    rw [hhead] at hs
    simp only [List.mem_cons] at hs
    rcases hs with rfl | rfl | rfl | hs
    · unfold PlainText; decide
    · unfold PlainText; decide
    · unfold PlainText; decide
    · exact (hplain s hs).1
  set table : List (List Txt) := rows.map (fun r => r.map (cellText num)) with htable
  have htl : table.length = names.length := by rw [htable, List.length_map, h2]
  have hrow : ∀ (i : Nat) p, names[i]? = some p → ∃ vs : List S, table[i]? = some (decimal i :: p.reference :: p.modified :: vs.map num) := by
    intro i p hp
    obtain ⟨d, -, -, e3⟩ := h3 i p hp
    refine ⟨d.map Prod.snd, ?_⟩
    rw [htable, List.getElem?_map, e3]
    simp [cellText, Function.comp_def]
  have hmem : ∀ fs ∈ table, ∃ (i : Nat) (p : Pair) (vs : List S), p ∈ names ∧ fs = decimal i :: p.reference :: p.modified :: vs.map num := by
    intro fs hfs
    obtain ⟨i, hi, rfl⟩ := List.mem_iff_getElem.1 hfs
    have hi' : i < names.length := by omega
    obtain ⟨vs, hv⟩ := hrow i names[i] (List.getElem?_eq_getElem hi')
    rw [List.getElem?_eq_getElem hi] at hv
    exact ⟨i, names[i], vs, List.getElem_mem hi', Option.some.inj hv⟩
  refine ⟨writeRows ',' (head :: table), ?_, ?_⟩
  · unfold batchFile
    rw [h1]
    simp only [List.map_cons, hheader, htable]
  · have hs : sniff (firstLine (writeRows ',' (head :: table))) = .ok (',', false) := by
      rw [writeRows, List.flatMap_cons, hhead]
      exact sniff_plain _ _ _ hheadplain (by decide) _
    have hr : csvRows ',' false (writeRows ',' (head :: table)) = .ok (head :: table) := by
      apply csvRows_writeRows ',' (by decide)
      intro fs hfs s hs
      rcases List.mem_cons.1 hfs with rfl | hfs
      · intro hc
        have := hheadplain s hs _ hc
        simp at this
      · obtain ⟨i, p, vs, hp, rfl⟩ := hmem fs hfs
        simp only [List.mem_cons, List.mem_map] at hs
        rcases hs with rfl | rfl | rfl | ⟨v, -, rfl⟩
        · intro hc
          have := decimal_isDigit i _ hc
          revert this; decide
        · exact (hq p hp).1
        · exact (hq p hp).2
        · exact hnum v
    have hf : (head :: table).filter (· ≠ []) = head :: table := by
      rw [List.filter_eq_self]
      intro fs hfs
      rcases List.mem_cons.1 hfs with rfl | hfs
      · simp [hhead]
      · obtain ⟨i, p, vs, hp, rfl⟩ := hmem fs hfs
        simp
    unfold readPairs
    rw [hs]
    simp only
    rw [hr]
    simp only
    rw [hf]
    simp only
    rw [if_pos (by rw [hhead]; simp)]
    congr 1
    clear_value table head post
    apply List.ext_getElem?
    intro i
    rw [List.getElem?_map, List.getElem?_map (l := names)]
    by_cases hi : i < names.length
    · obtain ⟨vs, hv⟩ := hrow i names[i] (List.getElem?_eq_getElem hi)
      rw [hv, List.getElem?_eq_getElem hi]
      have href := dictGet_at ["pair_num".toList] ("modified_image".toList :: post)
        (decimal i :: names[i].reference :: names[i].modified :: vs.map num) "reference_image".toList (by
          intro hc
          rcases List.mem_cons.1 hc with hc | hc
          · revert hc; decide
          · exact (hplain _ hc).2.1 rfl)
      have hmod := dictGet_at ["pair_num".toList, "reference_image".toList] post
        (decimal i :: names[i].reference :: names[i].modified :: vs.map num) "modified_image".toList (by
          intro hc
          exact (hplain _ hc).2.2 rfl)
      simp only [List.cons_append, List.nil_append] at href hmod
      rw [hhead]
      simp only [Option.map_some]
      rw [href, hmod]
      rfl
    · rw [List.getElem?_eq_none (by omega), List.getElem?_eq_none (by omega)]
      rfl

end Batch

example (st : BatchState Nat Nat) (h : batchCalculate ToyBatch.env ToyBatch.metrics none none
      ([⟨"a, b".toList, "m;".toList⟩, ⟨"c".toList, "".toList⟩].map (fun p : Pair => ⟨'/' :: p.reference, '/' :: p.modified⟩)) [] = .ok st) :
    ∃ file, batchFile tally [⟨"a, b".toList, "m;".toList⟩, ⟨"c".toList, "".toList⟩] st.results = .ok file ∧
      readPairs file = .ok [(some "a, b".toList, some "m;".toList), (some "c".toList, some "".toList)] :=
  C155_pairs_partial _ _ _ _ tally (by intro v hv; have := List.eq_of_mem_replicate hv; revert this; decide)
    (by
      intro b hb n hn
      unfold ToyBatch.metrics at hb
      simp only [List.mem_cons, List.not_mem_nil, or_false] at hb
      rcases hb with rfl | rfl
      · obtain rfl : "T" = n := Option.some.inj hn
        exact ⟨by unfold PlainText; decide, by decide, by decide⟩
      · obtain rfl : "D" = n := Option.some.inj hn
        exact ⟨by unfold PlainText; decide, by decide, by decide⟩)
    [⟨"a, b".toList, "m;".toList⟩, ⟨"c".toList, "".toList⟩] ('/' :: ·) (by simp) (by decide) st h

/-- **C155, refuted** for names with quotes: the pairs of the result file of `ToyBatch.metrics` are not those of the
batch. -/
theorem C155_pairs_refuted : ∃ (names : List Pair) (st : BatchState Nat Nat) (file : Txt),
    batchCalculate ToyBatch.env ToyBatch.metrics none none names [] = .ok st ∧
    batchFile tally names st.results = .ok file ∧
    readPairs file ≠ .ok (names.map (fun p => (some p.reference, some p.modified))) := by
  obtain ⟨st, hst, hres⟩ : ∃ st : BatchState Nat Nat,
      batchCalculate ToyBatch.env ToyBatch.metrics none none [⟨"a\"b".toList, "m".toList⟩] [] = .ok st ∧
      st.results = [(decimal 0, [(some "T_r", 3), (some "T_m", 1), (some "D", 4)])] := ⟨_, rfl, by decide +kernel⟩
  obtain ⟨file, hfile, hpairs⟩ : ∃ file, batchFile tally [⟨"a\"b".toList, "m".toList⟩]
      [(decimal 0, [(some "T_r", 3), (some "T_m", 1), (some "D", 4)])] = .ok file ∧
      readPairs file ≠ .ok [(some "a\"b".toList, some "m".toList)] :=
    ⟨writeRows ',' [["pair_num".toList, "reference_image".toList, "modified_image".toList, "T_r".toList, "T_m".toList, "D".toList],
      ["0".toList, "a\"b".toList, "m".toList, "111".toList, "1".toList, "1111".toList]], by decide +kernel, by decide +kernel⟩
  exact ⟨_, st, file, hst, by rw [hres]; exact hfile, hpairs⟩

end Viqa
