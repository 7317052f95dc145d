import Verif.Model.PairFile
import Mathlib.Data.List.Nodup
import Mathlib.Data.List.Basic
import Mathlib.Data.List.TakeWhile

/-!
Properties of pair files: C73, C74 and C105.
-/

namespace Viqa

/-! ### The state machine on written text -/

theorem csvTokens_plain (c : Char) (r : Txt) (h1 : c ≠ '\r') (h2 : c ≠ '\n') (hr : r ≠ []) :
    csvTokens (c :: r) = .ch c :: csvTokens r := by
  rw [csvTokens]
  · rw [if_neg (by simp [h1, h2, hr])]
  · intro r' h
    exact absurd h h1

theorem csvTokens_crlf (r : Txt) : csvTokens ('\r' :: '\n' :: r) = .ch '\r' :: .ch '\n' :: .eol :: csvTokens r := by
  rw [csvTokens]

theorem csvTokens_break (c : Char) (r : Txt) (h : c = '\r' ∨ c = '\n') (hn : ∀ r', ¬ (c = '\r' ∧ r = '\n' :: r')) :
    csvTokens (c :: r) = .ch c :: .eol :: csvTokens r := by
  rw [csvTokens]
  · rw [if_pos (by tauto)]
  · intro r' h1 h2
    exact hn r' ⟨h1, h2⟩

namespace CsvReader

theorem run_cons (d : Char) (dq : Bool) (r r' : CsvReader) (t : CsvTok) (ts : List CsvTok)
    (h : r.step d dq t = .ok r') : run d dq r (t :: ts) = run d dq (r'.emit t) ts := by
  rw [run, h]

theorem emit_ch (r : CsvReader) (c : Char) : r.emit (.ch c) = r := by
  unfold emit; rw [if_neg (by simp)]

theorem emit_quoted (f : Txt) (row : List Txt) (rows : List (List Txt)) (t : CsvTok) :
    emit ⟨.inQuoted, f, row, rows⟩ t = ⟨.inQuoted, f, row, rows⟩ := by
  unfold emit; rw [if_neg (by simp)]

theorem step_quoted_ch (d : Char) (dq : Bool) (f : Txt) (row : List Txt) (rows : List (List Txt)) (c : Char) (hc : c ≠ '"') :
    step d dq ⟨.inQuoted, f, row, rows⟩ (.ch c) = .ok ⟨.inQuoted, f ++ [c], row, rows⟩ := by
  simp [step, hc, add]

theorem step_quoted_eol (d : Char) (dq : Bool) (f : Txt) (row : List Txt) (rows : List (List Txt)) :
    step d dq ⟨.inQuoted, f, row, rows⟩ .eol = .ok ⟨.inQuoted, f, row, rows⟩ := rfl

/-- Inside of quotes everything up to the closing quote is taken literally. -/
theorem run_quoted (d : Char) (s r : Txt) (hs : '"' ∉ s) (hr : r ≠ []) (f : Txt) (row : List Txt) (rows : List (List Txt)) :
    run d false ⟨.inQuoted, f, row, rows⟩ (csvTokens (s ++ '"' :: r)) =
      run d false ⟨.inField, f ++ s, row, rows⟩ (csvTokens r) := by
  induction hn : s.length using Nat.strongRecOn generalizing s f with
  | _ n ih =>
    cases s with
    | nil =>
      rw [List.nil_append, csvTokens_plain '"' r (by decide) (by decide) hr,
        run_cons d false _ ⟨.inField, f, row, rows⟩ _ _ (by simp [step]), emit_ch, List.append_nil]
    | cons c s =>
      have hc : c ≠ '"' := by rintro rfl; exact hs (by simp)
      have hs' : '"' ∉ s := fun h => hs (by simp [h])
      by_cases hcr : ∃ r', c = '\r' ∧ s ++ '"' :: r = '\n' :: r'
      · obtain ⟨r', rfl, he⟩ := hcr
        cases s with
        | nil => simp at he
        | cons c' s =>
          simp only [List.cons_append, List.cons.injEq] at he
          obtain ⟨rfl, -⟩ := he
          have hs'' : '"' ∉ s := fun h => hs (by simp [h])
          rw [List.cons_append, List.cons_append, csvTokens_crlf,
            run_cons d false _ _ _ _ (step_quoted_ch d false f row rows '\r' (by decide)), emit_ch,
            run_cons d false _ _ _ _ (step_quoted_ch d false _ row rows '\n' (by decide)), emit_ch,
            run_cons d false _ _ _ _ (step_quoted_eol d false _ row rows), emit_quoted,
            ih s.length (by simp at hn; omega) s hs'' _ rfl]
          simp
      · by_cases hb : c = '\r' ∨ c = '\n'
        · rw [List.cons_append, csvTokens_break c _ hb (by
              intro r' h; exact hcr ⟨r', h⟩),
            run_cons d false _ _ _ _ (step_quoted_ch d false f row rows c hc), emit_ch,
            run_cons d false _ _ _ _ (step_quoted_eol d false _ row rows), emit_quoted,
            ih s.length (by simp at hn; omega) s hs' _ rfl]
          simp
        · rw [List.cons_append, csvTokens_plain c _ (by tauto) (by tauto) (by simp),
            run_cons d false _ _ _ _ (step_quoted_ch d false f row rows c hc), emit_ch,
            ih s.length (by simp at hn; omega) s hs' _ rfl]
          simp

theorem run_plain (d : Char) (s r : Txt) (hs : ∀ c ∈ s, c ≠ d ∧ c ≠ '\r' ∧ c ≠ '\n') (hr : r ≠ []) (f : Txt)
    (row : List Txt) (rows : List (List Txt)) :
    run d false ⟨.inField, f, row, rows⟩ (csvTokens (s ++ r)) = run d false ⟨.inField, f ++ s, row, rows⟩ (csvTokens r) := by
  induction s generalizing f with
  | nil => simp
  | cons c s ih =>
    obtain ⟨h1, h3, h4⟩ := hs c (by simp)
    rw [List.cons_append, csvTokens_plain c _ h3 h4 (by simp [hr]),
      run_cons d false _ ⟨.inField, f ++ [c], row, rows⟩ _ _ (by simp [step, isEnd, h1, h3, h4, add]), emit_ch,
      ih (fun c hc => hs c (by simp [hc]))]
    simp

/-- A written field followed by more text: the field is collected, unless it is empty and not quoted. -/
theorem run_field (d : Char) (hd : d ≠ '"' ∧ d ≠ '\r' ∧ d ≠ '\n') (s r : Txt) (hs : '"' ∉ s) (hne : s ≠ []) (hr : r ≠ [])
    (st : CsvState) (hst : st = .startField ∨ st = .startRecord) (row : List Txt) (rows : List (List Txt)) :
    run d false ⟨st, [], row, rows⟩ (csvTokens (writeField d s ++ r)) =
      run d false ⟨.inField, s, row, rows⟩ (csvTokens r) := by
  unfold writeField
  by_cases hq : (s.any (fun c => c = d || c = '"' || c = '\r' || c = '\n')) = true
  · rw [if_pos hq]
    have hflat : s.flatMap (fun c => if c = '"' then ['"', '"'] else [c]) = s := by
      have : ∀ c ∈ s, (fun c => if c = '"' then ['"', '"'] else [c]) c = [c] := by
        intro c hc
        exact if_neg (by rintro rfl; exact hs hc)
      rw [List.flatMap_congr (g := fun c => [c]) this]
      simp
    rw [hflat, List.cons_append, List.cons_append, csvTokens_plain '"' _ (by decide) (by decide) (by simp),
      run_cons d false _ ⟨.inQuoted, [], row, rows⟩ _ _ (by
        rcases hst with rfl | rfl <;> simp [step, stepStartField, isEnd]), emit_ch, List.append_assoc,
      List.singleton_append, run_quoted d s r hs hr, List.nil_append]
  · rw [if_neg hq]
    have hs' : ∀ c ∈ s, c ≠ d ∧ c ≠ '"' ∧ c ≠ '\r' ∧ c ≠ '\n' := by
      intro c hc
      simp only [List.any_eq_true, not_exists, not_and] at hq
      have := hq c hc
      simp only [Bool.or_eq_true, decide_eq_true_eq, not_or] at this
      tauto
    cases s with
    | nil => exact absurd rfl hne
    | cons c s =>
      obtain ⟨h1, h2, h3, h4⟩ := hs' c (by simp)
      rw [List.cons_append, csvTokens_plain c _ h3 h4 (by simp [hr]),
        run_cons d false _ ⟨.inField, [c], row, rows⟩ _ _ (by
          rcases hst with rfl | rfl <;> simp [step, stepStartField, isEnd, h1, h2, h3, h4, add]), emit_ch,
        run_plain d s r (fun c hc => ⟨(hs' c (by simp [hc])).1, (hs' c (by simp [hc])).2.2⟩) hr]
      simp

/-- The end of a row. -/
theorem run_crlf (d : Char) (st : CsvState) (hst : st = .startField ∨ st = .inField) (s : Txt) (row : List Txt)
    (rows : List (List Txt)) (r : Txt) :
    run d false ⟨st, s, row, rows⟩ (csvTokens ('\r' :: '\n' :: r)) =
      run d false ⟨.startRecord, [], [], rows ++ [row ++ [s]]⟩ (csvTokens r) := by
  rw [csvTokens_crlf, run_cons d false _ ⟨.eatCrnl, [], row ++ [s], rows⟩ _ _ (by
      rcases hst with rfl | rfl <;> simp [step, stepStartField, isEnd, afterEnd, save]), emit_ch,
    run_cons d false _ ⟨.eatCrnl, [], row ++ [s], rows⟩ _ _ (by simp [step]), emit_ch,
    run_cons d false _ ⟨.startRecord, [], row ++ [s], rows⟩ _ _ (by simp [step])]
  simp [emit]

/-- The delimiter. -/
theorem run_delim (d : Char) (hd : d ≠ '"' ∧ d ≠ '\r' ∧ d ≠ '\n') (st : CsvState)
    (hst : st = .startField ∨ st = .inField ∨ st = .startRecord) (s : Txt) (row : List Txt)
    (rows : List (List Txt)) (r : Txt) (hr : r ≠ []) :
    run d false ⟨st, s, row, rows⟩ (csvTokens (d :: r)) = run d false ⟨.startField, [], row ++ [s], rows⟩ (csvTokens r) := by
  rw [csvTokens_plain d r hd.2.1 hd.2.2 hr, run_cons d false _ ⟨.startField, [], row ++ [s], rows⟩ _ _ (by
      rcases hst with rfl | rfl | rfl <;> simp [step, stepStartField, isEnd, hd, save]), emit_ch]

theorem run_fields (d : Char) (hd : d ≠ '"' ∧ d ≠ '\r' ∧ d ≠ '\n') (fs : List Txt) (hne : fs ≠ []) (hq : ∀ s ∈ fs, '"' ∉ s)
    (st : CsvState) (hst : st = .startField ∨ (st = .startRecord ∧ fs ≠ [[]])) (row : List Txt) (rows : List (List Txt)) (r : Txt) :
    run d false ⟨st, [], row, rows⟩ (csvTokens (writeFields d fs ++ '\r' :: '\n' :: r)) =
      run d false ⟨.startRecord, [], [], rows ++ [row ++ fs]⟩ (csvTokens r) := by
  induction fs generalizing st row with
  | nil => exact absurd rfl hne
  | cons s fs ih =>
    have hst' : st = .startField ∨ st = .startRecord := by tauto
    cases fs with
    | nil =>
      rw [writeFields]
      by_cases hs : s = []
      · subst hs
        have : st = .startField := by
          rcases hst with h | h
          · exact h
          · exact absurd rfl h.2
        subst this
        rw [show writeField d [] = [] from rfl, List.nil_append, run_crlf d _ (Or.inl rfl)]
      · rw [run_field d hd s _ (hq s (by simp)) hs (by simp) st hst', run_crlf d _ (Or.inr rfl)]
    | cons s' fs =>
      rw [writeFields]
      · rw [List.append_assoc, List.cons_append]
        have hmore : writeFields d (s' :: fs) ++ '\r' :: '\n' :: r ≠ [] := by simp
        have hend : run d false ⟨st, [], row, rows⟩ (csvTokens (writeField d s ++ d :: (writeFields d (s' :: fs) ++ '\r' :: '\n' :: r))) =
            run d false ⟨.startField, [], row ++ [s], rows⟩ (csvTokens (writeFields d (s' :: fs) ++ '\r' :: '\n' :: r)) := by
          by_cases hs : s = []
          · subst hs
            rw [show writeField d [] = [] from rfl, List.nil_append, run_delim d hd st (by tauto) _ _ _ _ hmore]
          · rw [run_field d hd s _ (hq s (by simp)) hs (by simp) st hst', run_delim d hd _ (by tauto) _ _ _ _ hmore]
        rw [hend, ih (by simp) (fun s hs => hq s (by simp [hs])) .startField (Or.inl rfl)]
        simp
      · simp

theorem run_row (d : Char) (hd : d ≠ '"' ∧ d ≠ '\r' ∧ d ≠ '\n') (fs : List Txt) (hq : ∀ s ∈ fs, '"' ∉ s)
    (rows : List (List Txt)) (r : Txt) :
    run d false ⟨.startRecord, [], [], rows⟩ (csvTokens (writeRow d fs ++ r)) =
      run d false ⟨.startRecord, [], [], rows ++ [fs]⟩ (csvTokens r) := by
  unfold writeRow
  by_cases h1 : fs = [[]]
  · subst h1
    rw [if_pos rfl]
    simp only [List.cons_append, List.nil_append]
    rw [csvTokens_plain '"' _ (by decide) (by decide) (by simp), csvTokens_plain '"' _ (by decide) (by decide) (by simp),
      run_cons d false _ ⟨.inQuoted, [], [], rows⟩ _ _ (by simp [step, stepStartField, isEnd]), emit_ch,
      run_cons d false _ ⟨.inField, [], [], rows⟩ _ _ (by simp [step]), emit_ch, run_crlf d _ (Or.inr rfl)]
    simp
  · rw [if_neg h1]
    by_cases h0 : fs = []
    · subst h0
      simp only [writeFields, List.nil_append, List.cons_append]
      rw [csvTokens_crlf, run_cons d false _ ⟨.eatCrnl, [], [], rows⟩ _ _ (by simp [step]), emit_ch,
        run_cons d false _ ⟨.eatCrnl, [], [], rows⟩ _ _ (by simp [step]), emit_ch,
        run_cons d false _ ⟨.startRecord, [], [], rows⟩ _ _ (by simp [step])]
      simp [emit]
    · rw [List.append_assoc]
      exact run_fields d hd fs h0 hq .startRecord (Or.inr ⟨rfl, h1⟩) [] rows r

theorem run_rows (d : Char) (hd : d ≠ '"' ∧ d ≠ '\r' ∧ d ≠ '\n') (rows : List (List Txt)) (hq : ∀ fs ∈ rows, ∀ s ∈ fs, '"' ∉ s)
    (acc : List (List Txt)) :
    run d false ⟨.startRecord, [], [], acc⟩ (csvTokens (writeRows d rows)) = .ok ⟨.startRecord, [], [], acc ++ rows⟩ := by
  induction rows generalizing acc with
  | nil => simp [writeRows, csvTokens, run]
  | cons fs rows ih =>
    unfold writeRows at ih ⊢
    rw [List.flatMap_cons, run_row d hd fs (hq fs (by simp)), ih (fun fs h => hq fs (by simp [h]))]
    simp

end CsvReader

/-- Rows without quotes are read as written, whatever else they contain. -/
theorem csvRows_writeRows (d : Char) (hd : d ≠ '"' ∧ d ≠ '\r' ∧ d ≠ '\n') (rows : List (List Txt))
    (hq : ∀ fs ∈ rows, ∀ s ∈ fs, '"' ∉ s) : csvRows d false (writeRows d rows) = .ok rows := by
  unfold csvRows
  rw [show ({} : CsvReader) = ⟨.startRecord, [], [], []⟩ from rfl, CsvReader.run_rows d hd rows hq []]
  simp [CsvReader.finish]

/-! ### C74 -/

/-- The header of the pair file with a delimiter. -/
def pairHeader : List Txt := ["reference_image".toList, "modified_image".toList]

theorem allSpaced_false (d : Char) (w r : Txt) (h : r.head? ≠ some ' ') : allSpaced d (w ++ d :: r) = false := by
  induction w with
  | nil => simp [allSpaced, h]
  | cons c w ih => rw [List.cons_append, allSpaced, ih, Bool.and_false]

theorem firstLine_header (d : Char) (hd : d ∈ [',', ';', '\t']) (r : Txt) :
    firstLine (writeRow d pairHeader ++ r) = writeFields d pairHeader := by
  simp only [List.mem_cons, List.not_mem_nil, or_false] at hd
  rcases hd with rfl | rfl | rfl <;> rfl

theorem sniff_header (d : Char) (hd : d ∈ [',', ';', '\t']) : sniff (writeFields d pairHeader) = .ok (d, false) := by
  simp only [List.mem_cons, List.not_mem_nil, or_false] at hd
  rcases hd with rfl | rfl | rfl <;> decide

/-- **C74, partial.** A pair file written with comma, semicolon or tabulator is read back as the same pairs in the same
order, for all names without quotes: delimiters, line breaks, spaces and empty names are preserved.
Missing: names with quotes, see `C74_refuted`. -/
theorem C74_round_trip_partial (d : Char) (hd : d ∈ [',', ';', '\t']) (ps : List (Txt × Txt))
    (hq : ∀ p ∈ ps, '"' ∉ p.1 ∧ '"' ∉ p.2) :
    readPairs (writeRows d (pairHeader :: ps.map (fun p => [p.1, p.2]))) = .ok (ps.map (fun p => (some p.1, some p.2))) := by
  have hd' : d ≠ '"' ∧ d ≠ '\r' ∧ d ≠ '\n' := by
    simp only [List.mem_cons, List.not_mem_nil, or_false] at hd
    rcases hd with rfl | rfl | rfl <;> decide
  have h1 : sniff (firstLine (writeRows d (pairHeader :: ps.map (fun p => [p.1, p.2])))) = .ok (d, false) := by
    rw [writeRows, List.flatMap_cons, firstLine_header d hd, sniff_header d hd]
  have h2 : csvRows d false (writeRows d (pairHeader :: ps.map (fun p => [p.1, p.2]))) =
      .ok (pairHeader :: ps.map (fun p => [p.1, p.2])) := by
    apply csvRows_writeRows d hd'
    intro fs hfs s hs
    simp only [List.mem_cons, List.mem_map] at hfs
    rcases hfs with rfl | ⟨p, hp, rfl⟩
    · simp only [pairHeader, List.mem_cons, List.not_mem_nil, or_false] at hs
      rcases hs with rfl | rfl <;> decide
    · simp only [List.mem_cons, List.not_mem_nil, or_false] at hs
      rcases hs with rfl | rfl
      · exact (hq p hp).1
      · exact (hq p hp).2
  have h3 : (pairHeader :: ps.map (fun p => [p.1, p.2])).filter (· ≠ []) = pairHeader :: ps.map (fun p => [p.1, p.2]) := by
    rw [List.filter_eq_self]
    intro fs hfs
    simp only [List.mem_cons, List.mem_map] at hfs
    rcases hfs with rfl | ⟨p, hp, rfl⟩
    · decide
    · simp
  unfold readPairs
  rw [h1]
  simp only
  rw [h2]
  simp only
  rw [h3]
  simp only
  rw [if_pos (by decide), List.map_map]
  congr 1

/-- **C74, refuted** for names with quotes. -/
theorem C74_refuted : readPairs (writeRows ',' [pairHeader, ["a\"b".toList, "c".toList]]) =
    .ok [(some "a\"b\"".toList, some "c".toList)] := by decide +kernel

/-! ### Names with quotes are never read back -/

namespace CsvReader

theorem step_shape (d : Char) (dq : Bool) (r r' : CsvReader) (t : CsvTok) (h : r.step d dq t = .ok r') :
    r'.rows = r.rows ∧ (r'.row = r.row ∨ r'.row = r.row ++ [r.field]) := by
  have hsf : ∀ t, (stepStartField d r t).rows = r.rows ∧
      ((stepStartField d r t).row = r.row ∨ (stepStartField d r t).row = r.row ++ [r.field]) := by
    intro t
    unfold stepStartField
    split
    · exact ⟨rfl, Or.inr rfl⟩
    · split
      · exact ⟨rfl, Or.inl rfl⟩
      · split
        · exact ⟨rfl, Or.inl rfl⟩
        · split
          · exact ⟨rfl, Or.inl rfl⟩
          · split
            · exact ⟨rfl, Or.inr rfl⟩
            · exact ⟨rfl, Or.inl rfl⟩
  unfold step at h
  split at h
  · split at h
    · cases h; exact ⟨rfl, Or.inl rfl⟩
    · split at h
      · cases h; exact ⟨rfl, Or.inl rfl⟩
      · cases h; exact hsf _
  · cases h; exact hsf _
  · split at h
    · cases h; exact ⟨rfl, Or.inr rfl⟩
    · split at h
      · cases h; exact ⟨rfl, Or.inl rfl⟩
      · split at h
        · cases h; exact ⟨rfl, Or.inr rfl⟩
        · cases h; exact ⟨rfl, Or.inl rfl⟩
  · split at h
    · cases h; exact ⟨rfl, Or.inl rfl⟩
    · split at h
      · cases h; exact ⟨rfl, Or.inl rfl⟩
      · cases h; exact ⟨rfl, Or.inl rfl⟩
  · split at h
    · cases h; exact ⟨rfl, Or.inr rfl⟩
    · split at h
      · cases h; exact ⟨rfl, Or.inl rfl⟩
      · split at h
        · cases h; exact ⟨rfl, Or.inl rfl⟩
        · split at h
          · cases h; exact ⟨rfl, Or.inr rfl⟩
          · cases h; exact ⟨rfl, Or.inl rfl⟩
  · split at h
    · cases h; exact ⟨rfl, Or.inl rfl⟩
    · split at h
      · cases h; exact ⟨rfl, Or.inl rfl⟩
      · cases h

/-- The row after the rows `acc` starts with `pre` and the field `f`. -/
def Begins (acc : List (List Txt)) (pre : List Txt) (f : Txt) (r : CsvReader) : Prop :=
  (r.rows = acc ∧ ∃ tail, r.row = pre ++ f :: tail) ∨ ∃ tail more, r.rows = acc ++ (pre ++ f :: tail) :: more

theorem begins_run (d : Char) (dq : Bool) (acc : List (List Txt)) (pre : List Txt) (f : Txt) (ts : List CsvTok)
    (r r' : CsvReader) (h : Begins acc pre f r) (hr : run d dq r ts = .ok r') : Begins acc pre f r' := by
  induction ts generalizing r with
  | nil => rw [run] at hr; cases hr; exact h
  | cons t ts ih =>
    rw [run] at hr
    cases hs : r.step d dq t with
    | error e => rw [hs] at hr; cases hr
    | ok q =>
      rw [hs] at hr
      refine ih (q.emit t) ?_ hr
      obtain ⟨h1, h2⟩ := step_shape d dq r q t hs
      have hq : Begins acc pre f q := by
        rcases h with ⟨e1, tail, e2⟩ | ⟨tail, more, e⟩
        · left
          refine ⟨h1.trans e1, ?_⟩
          rcases h2 with h2 | h2
          · exact ⟨tail, h2.trans e2⟩
          · exact ⟨tail ++ [r.field], by rw [h2, e2]; simp⟩
        · right
          exact ⟨tail, more, h1.trans e⟩
      unfold emit
      split
      · rcases hq with ⟨e1, tail, e2⟩ | ⟨tail, more, e⟩
        · exact Or.inr ⟨tail, [], by rw [← e1, e2]⟩
        · exact Or.inr ⟨tail, more ++ [q.row], by simp [e]⟩
      · exact hq

theorem begins_finish (acc : List (List Txt)) (pre : List Txt) (f : Txt) (r : CsvReader) (h : Begins acc pre f r) :
    r.finish = acc ∨ ∃ tail more, r.finish = acc ++ (pre ++ f :: tail) :: more := by
  unfold finish
  split
  · right
    rcases h with ⟨e1, tail, e2⟩ | ⟨tail, more, e⟩
    · exact ⟨tail ++ [r.field], [], by rw [e1, e2]; simp⟩
    · exact ⟨tail, more ++ [r.row ++ [r.field]], by simp [e]⟩
  · rcases h with ⟨e1, tail, e2⟩ | ⟨tail, more, e⟩
    · exact Or.inl e1
    · exact Or.inr ⟨tail, more, e⟩

/-- The doubling of quotes. -/
def doubled (s : Txt) : Txt := s.flatMap (fun c => if c = '"' then ['"', '"'] else [c])

theorem length_doubled (s : Txt) : s.length ≤ (doubled s).length := by
  unfold doubled
  induction s with
  | nil => simp
  | cons c s ih =>
    rw [List.flatMap_cons, List.length_append, List.length_cons]
    split <;> simp only [List.length_cons, List.length_nil] <;> omega

theorem mem_doubled (s : Txt) (c : Char) (h : c ∈ doubled s) : c ∈ s := by
  unfold doubled at h
  obtain ⟨x, hx, hc⟩ := List.mem_flatMap.1 h
  split at hc
  · rename_i hq
    simp only [List.mem_cons, List.not_mem_nil, or_false, or_self] at hc
    rw [hc, ← hq]; exact hx
  · simp only [List.mem_cons, List.not_mem_nil, or_false] at hc
    rw [hc]; exact hx

theorem split_first_quote (s : Txt) (h : '"' ∈ s) : ∃ p q, s = p ++ '"' :: q ∧ '"' ∉ p := by
  induction s with
  | nil => cases h
  | cons c s ih =>
    by_cases hc : c = '"'
    · exact ⟨[], s, by rw [hc]; rfl, by simp⟩
    · have : '"' ∈ s := by
        simp only [List.mem_cons] at h
        rcases h with h | h
        · exact absurd h.symm hc
        · exact h
      obtain ⟨p, q, rfl, hp⟩ := ih this
      refine ⟨c :: p, q, rfl, ?_⟩
      simp only [List.mem_cons, not_or]
      exact ⟨fun h => hc h.symm, hp⟩

theorem csvTokens_head (c : Char) (r : Txt) : ∃ ts, csvTokens (c :: r) = .ch c :: ts := by
  by_cases h : ∃ r', c = '\r' ∧ r = '\n' :: r'
  · obtain ⟨r', rfl, rfl⟩ := h
    exact ⟨_, csvTokens_crlf r'⟩
  · rw [csvTokens]
    · split
      · exact ⟨_, rfl⟩
      · exact ⟨_, rfl⟩
    · intro r' h1 h2
      exact h ⟨r', h1, h2⟩

/-- Characters that end a field that is not quoted. -/
def nonSep (d : Char) (c : Char) : Bool := c ≠ d && c ≠ '\r' && c ≠ '\n'

theorem split_sep (d : Char) (w : Txt) (c : Char) (hc : nonSep d c = false) (rest : Txt) :
    ∃ c' rest', w ++ c :: rest = (w ++ c :: rest).takeWhile (nonSep d) ++ c' :: rest' ∧ nonSep d c' = false := by
  induction w with
  | nil => exact ⟨c, rest, by simp [hc], hc⟩
  | cons x w ih =>
    by_cases hx : nonSep d x = true
    · obtain ⟨c', rest', h, h'⟩ := ih
      refine ⟨c', rest', ?_, h'⟩
      rw [List.cons_append, List.takeWhile_cons, if_pos hx, List.cons_append, ← h]
    · simp only [Bool.not_eq_true] at hx
      exact ⟨x, w ++ c :: rest, by rw [List.cons_append, List.takeWhile_cons, hx]; rfl, hx⟩

/-- A field with a quote, followed by a delimiter or line break, is read as something else. -/
theorem run_quote_wrong (d : Char) (hd : d ≠ '"' ∧ d ≠ '\r' ∧ d ≠ '\n') (s : Txt) (hs : '"' ∈ s) (c : Char)
    (hc : nonSep d c = false) (rest : Txt) (st : CsvState) (hst : st = .startField ∨ st = .startRecord) (row : List Txt)
    (acc : List (List Txt)) (r' : CsvReader)
    (h : run d false ⟨st, [], row, acc⟩ (csvTokens (writeField d s ++ c :: rest)) = .ok r') :
    ∃ f, f ≠ s ∧ Begins acc row f r' := by
  obtain ⟨p, q, rfl, hp⟩ := split_first_quote s hs
  have hw : writeField d (p ++ '"' :: q) ++ c :: rest = '"' :: (p ++ '"' :: ('"' :: doubled q ++ '"' :: c :: rest)) := by
    unfold writeField
    rw [if_pos (by simp [List.any_append])]
    rw [List.flatMap_append, List.flatMap_cons]
    have hflat : p.flatMap (fun c => if c = '"' then ['"', '"'] else [c]) = p := by
      rw [List.flatMap_congr (g := fun c => [c])]
      · simp
      · intro x hx
        exact if_neg (by rintro rfl; exact hp hx)
    rw [hflat]
    simp [doubled]
  rw [hw, csvTokens_plain '"' _ (by decide) (by decide) (by simp),
    run_cons d false _ ⟨.inQuoted, [], row, acc⟩ _ _ (by
      rcases hst with rfl | rfl <;> simp [step, stepStartField, isEnd]), emit_ch,
    run_quoted d p _ hp (by simp)] at h
  have hW : '"' :: doubled q ++ '"' :: c :: rest = ('"' :: doubled q ++ ['"']) ++ c :: rest := by simp
  obtain ⟨c', rest', he, hc'⟩ := split_sep d ('"' :: doubled q ++ ['"']) c hc rest
  rw [hW, he, run_plain d _ _ (by
    intro x hx
    have := List.mem_takeWhile_imp hx
    simpa [nonSep, and_assoc] using this) (by simp)] at h
  obtain ⟨ts, hts⟩ := csvTokens_head c' rest'
  generalize hG : (('"' :: doubled q ++ ['"']) ++ c :: rest).takeWhile (nonSep d) = G at h
  refine ⟨p ++ G, ?_, ?_⟩
  · intro heq
    have hGq : G = '"' :: q := List.append_cancel_left heq
    have hqs : ∀ x ∈ q, nonSep d x = true := by
      intro x hx
      exact List.mem_takeWhile_imp (l := ('"' :: doubled q ++ ['"']) ++ c :: rest) (by rw [hG, hGq]; simp [hx])
    have hquote : nonSep d '"' = true := by
      simp [nonSep, hd.1.symm]
    rw [List.takeWhile_append_of_pos (by
      intro x hx
      simp only [List.mem_append, List.mem_cons, List.not_mem_nil, or_false] at hx
      rcases hx with (rfl | hx) | rfl
      · exact hquote
      · exact hqs x (mem_doubled q x hx)
      · exact hquote), List.takeWhile_cons, hc] at hG
    have hl := congrArg List.length hG
    rw [hGq] at hl
    have := length_doubled q
    simp at hl
    omega
  · rw [hts] at h
    have hstep : ∃ st', step d false ⟨.inField, [] ++ p ++ G, row, acc⟩ (.ch c') = .ok ⟨st', [], row ++ [p ++ G], acc⟩ := by
      by_cases hcd : c' = d
      · subst hcd
        exact ⟨.startField, by simp [step, isEnd, hd.2.1, hd.2.2, save]⟩
      · have : c' = '\r' ∨ c' = '\n' := by
          simp only [nonSep, ne_eq, hcd, not_false_eq_true, decide_true, Bool.true_and, Bool.and_eq_false_iff,
            decide_eq_false_iff_not, not_not] at hc'
          exact hc'
        exact ⟨.eatCrnl, by rcases this with rfl | rfl <;> simp [step, isEnd, afterEnd, save]⟩
    obtain ⟨st', hst'⟩ := hstep
    rw [run_cons d false _ _ _ _ hst', emit_ch] at h
    exact begins_run d false acc row (p ++ G) ts _ r' (Or.inl ⟨rfl, [], rfl⟩) h

end CsvReader

theorem dictGet_reference (row : List Txt) : dictGet pairHeader row "reference_image".toList = row[0]? := by
  have h : pairHeader.zipIdx.reverse.find? (fun e => e.1 = "reference_image".toList) = some ("reference_image".toList, 0) := by
    decide
  unfold dictGet
  rw [h]
  rfl

theorem dictGet_modified (row : List Txt) : dictGet pairHeader row "modified_image".toList = row[1]? := by
  have h : pairHeader.zipIdx.reverse.find? (fun e => e.1 = "modified_image".toList) = some ("modified_image".toList, 1) := by
    decide
  unfold dictGet
  rw [h]
  rfl

open CsvReader in
/-- **C74, refuted** for every file with a name that contains a quote: the pairs read are not the pairs
written. -/
theorem C74_quotes_refuted (d : Char) (hd : d ∈ [',', ';', '\t']) (ps : List (Txt × Txt))
    (hq : ∃ p ∈ ps, '"' ∈ p.1 ∨ '"' ∈ p.2) :
    readPairs (writeRows d (pairHeader :: ps.map (fun p => [p.1, p.2]))) ≠ .ok (ps.map (fun p => (some p.1, some p.2))) := by
  have hd' : d ≠ '"' ∧ d ≠ '\r' ∧ d ≠ '\n' := by
    simp only [List.mem_cons, List.not_mem_nil, or_false] at hd
    rcases hd with rfl | rfl | rfl <;> decide
  have hsd : nonSep d d = false := by simp [nonSep]
  have hsr : nonSep d '\r' = false := by simp [nonSep]
  -- the first pair with a quote
  obtain ⟨as, p, bs, rfl, hp, has⟩ : ∃ as p bs, ps = as ++ p :: bs ∧ ('"' ∈ p.1 ∨ '"' ∈ p.2) ∧
      ∀ a ∈ as, '"' ∉ a.1 ∧ '"' ∉ a.2 := by
    clear hd hd' hsd hsr
    induction ps with
    | nil => obtain ⟨p, h, -⟩ := hq; cases h
    | cons a ps ih =>
      by_cases ha : '"' ∈ a.1 ∨ '"' ∈ a.2
      · exact ⟨[], a, ps, rfl, ha, by simp⟩
      · obtain ⟨p, hp, hpq⟩ := hq
        have : p ∈ ps := by
          simp only [List.mem_cons] at hp
          rcases hp with rfl | hp
          · exact absurd hpq ha
          · exact hp
        obtain ⟨as, p', bs, e, h1, h2⟩ := ih ⟨p, this, hpq⟩
        refine ⟨a :: as, p', bs, by rw [e]; rfl, h1, ?_⟩
        intro x hx
        simp only [List.mem_cons] at hx
        rcases hx with rfl | hx
        · exact not_or.1 ha
        · exact h2 x hx
  have hsn : sniff (firstLine (writeRows d (pairHeader :: (as ++ p :: bs).map (fun p => [p.1, p.2])))) = .ok (d, false) := by
    rw [writeRows, List.flatMap_cons, firstLine_header d hd, sniff_header d hd]
  intro hcon
  unfold readPairs at hcon
  rw [hsn] at hcon
  simp only at hcon
  -- the rows that are read
  have key : ∀ rows, csvRows d false (writeRows d (pairHeader :: (as ++ p :: bs).map (fun p => [p.1, p.2]))) = .ok rows →
      rows = pairHeader :: as.map (fun p => [p.1, p.2]) ∨ ∃ row more,
        rows = (pairHeader :: as.map (fun p => [p.1, p.2])) ++ row :: more ∧ row ≠ [] ∧
          (row[0]? ≠ some p.1 ∨ row[1]? ≠ some p.2) := by
    intro rows hrows
    unfold csvRows at hrows
    have htext : writeRows d (pairHeader :: (as ++ p :: bs).map (fun p => [p.1, p.2])) =
        writeRows d (pairHeader :: as.map (fun p => [p.1, p.2])) ++
          (writeField d p.1 ++ d :: (writeField d p.2 ++ '\r' :: '\n' :: writeRows d (bs.map (fun p => [p.1, p.2])))) := by
      simp [writeRows, List.flatMap_append, writeRow, writeFields]
    have hpre : ∀ (rows : List (List Txt)) (acc : List (List Txt)) (r : Txt), (∀ fs ∈ rows, ∀ s ∈ fs, '"' ∉ s) →
        run d false ⟨.startRecord, [], [], acc⟩ (csvTokens (writeRows d rows ++ r)) =
          run d false ⟨.startRecord, [], [], acc ++ rows⟩ (csvTokens r) := by
      intro rows
      induction rows with
      | nil => intro acc r _; simp [writeRows]
      | cons fs rows ih =>
        intro acc r hfs
        rw [writeRows, List.flatMap_cons, List.append_assoc, run_row d hd' fs (hfs fs (by simp))]
        have := ih (acc ++ [fs]) r (fun fs h => hfs fs (by simp [h]))
        rw [writeRows] at this
        rw [this]
        simp
    rw [htext, show ({} : CsvReader) = ⟨.startRecord, [], [], []⟩ from rfl, hpre _ _ _ (by
      intro fs hfs s hs
      simp only [List.mem_cons, List.mem_map] at hfs
      rcases hfs with rfl | ⟨a, ha, rfl⟩
      · simp only [pairHeader, List.mem_cons, List.not_mem_nil, or_false] at hs
        rcases hs with rfl | rfl <;> decide
      · simp only [List.mem_cons, List.not_mem_nil, or_false] at hs
        rcases hs with rfl | rfl
        · exact (has a ha).1
        · exact (has a ha).2), List.nil_append] at hrows
    generalize hacc : pairHeader :: as.map (fun p => [p.1, p.2]) = acc at hrows ⊢
    split at hrows
    · cases hrows
    · rename_i r' hr'
      cases hrows
      by_cases h1 : '"' ∈ p.1
      · obtain ⟨f, hf, hb⟩ := run_quote_wrong d hd' p.1 h1 d hsd _ .startRecord (Or.inr rfl) [] acc r' hr'
        rcases begins_finish acc [] f r' hb with h | ⟨tail, more, h⟩
        · exact Or.inl h
        · exact Or.inr ⟨_, more, h, by simp, Or.inl (by simpa using hf)⟩
      · have h2 : '"' ∈ p.2 := hp.resolve_left h1
        have hfirst : run d false ⟨.startRecord, [], [], acc⟩ (csvTokens (writeField d p.1 ++ d ::
            (writeField d p.2 ++ '\r' :: '\n' :: writeRows d (bs.map (fun p => [p.1, p.2]))))) =
            run d false ⟨.startField, [], [p.1], acc⟩ (csvTokens
              (writeField d p.2 ++ '\r' :: '\n' :: writeRows d (bs.map (fun p => [p.1, p.2])))) := by
          by_cases hs : p.1 = []
          · rw [hs, show writeField d [] = [] from rfl, List.nil_append, run_delim d hd' _ (by tauto) _ _ _ _ (by simp)]
            simp
          · rw [run_field d hd' p.1 _ h1 hs (by simp) _ (Or.inr rfl), run_delim d hd' _ (by tauto) _ _ _ _ (by simp)]
            simp
        rw [hfirst] at hr'
        obtain ⟨f, hf, hb⟩ := run_quote_wrong d hd' p.2 h2 '\r' hsr _ .startField (Or.inl rfl) [p.1] acc r' hr'
        rcases begins_finish acc [p.1] f r' hb with h | ⟨tail, more, h⟩
        · exact Or.inl h
        · exact Or.inr ⟨_, more, h, by simp, Or.inr (by simpa using hf)⟩
  cases hrows : csvRows d false (writeRows d (pairHeader :: (as ++ p :: bs).map (fun p => [p.1, p.2]))) with
  | error e => rw [hrows] at hcon; cases hcon
  | ok rows =>
    rw [hrows] at hcon
    simp only at hcon
    have hfil : (pairHeader :: as.map (fun p => [p.1, p.2])).filter (· ≠ []) = pairHeader :: as.map (fun p => [p.1, p.2]) := by
      rw [List.filter_eq_self]
      intro fs hfs
      simp only [List.mem_cons, List.mem_map] at hfs
      rcases hfs with rfl | ⟨p, hp, rfl⟩
      · decide
      · simp
    rcases key rows hrows with h | ⟨row, more, h, hne, hw⟩
    · rw [h, hfil] at hcon
      simp only at hcon
      rw [if_pos (by decide)] at hcon
      have := congrArg List.length (Except.ok.inj hcon)
      simp at this
    · rw [h, List.filter_append, hfil, List.filter_cons, if_pos (by simpa using hne)] at hcon
      simp only [List.cons_append] at hcon
      rw [if_pos (by decide)] at hcon
      have hl := congrArg (fun l => l[as.length]?) (Except.ok.inj hcon)
      simp only [List.map_append, List.map_map, List.map_cons] at hl
      rw [List.getElem?_append_right (by simp), List.getElem?_append_right (by simp)] at hl
      simp only [List.length_map, Nat.sub_self, List.getElem?_cons_zero, Option.some.injEq, Prod.mk.injEq] at hl
      rw [dictGet_reference, dictGet_modified] at hl
      rcases hw with hw | hw
      · exact hw hl.1
      · exact hw hl.2

/-- **C74, refuted**: with a quote and a comma even the other name is wrong. -/
theorem C74_comma_refuted : readPairs (writeRows ',' [pairHeader, ["\"x,".toList, "y".toList]]) =
    .ok [(some "\"x".toList, some ",y\r\n".toList)] := by decide +kernel

example : readPairs (writeRows ';' (pairHeader :: [("a;b\r\nc".toList, "".toList)].map (fun p => [p.1, p.2]))) =
    .ok [(some "a;b\r\nc".toList, some "".toList)] :=
  C74_round_trip_partial ';' (by decide) [("a;b\r\nc".toList, "".toList)] (by decide)

/-! ### C73 -/

theorem mem_pairRows (refs mods : List Txt) (r m : Txt) :
    (r, m) ∈ pairRows refs mods ↔ r ∈ refs ∧ m ∈ mods ∧ stem r = m.take 3 := by
  unfold pairRows
  simp only [List.mem_flatMap, List.mem_filterMap]
  constructor
  · rintro ⟨r', hr', m', hm', h⟩
    split at h
    · rename_i hs
      simp only [Option.some.injEq, Prod.mk.injEq] at h
      obtain ⟨rfl, rfl⟩ := h
      exact ⟨hr', hm', hs⟩
    · cases h
  · rintro ⟨h1, h2, h3⟩
    exact ⟨r, h1, m, h2, by rw [if_pos h3]⟩

theorem nodup_pairRows (refs mods : List Txt) (hr : refs.Nodup) (hm : mods.Nodup) : (pairRows refs mods).Nodup := by
  unfold pairRows
  rw [List.nodup_flatMap]
  constructor
  · intro r _
    apply hm.filterMap
    intro m m' p hp hp'
    simp only [Option.mem_def] at hp hp'
    split at hp
    · split at hp'
      · simp only [Option.some.injEq] at hp hp'
        rw [← hp'] at hp
        exact (Prod.mk.inj hp).2
      · cases hp'
    · cases hp
  · apply hr.imp
    intro r r' hne
    rw [Function.onFun, List.disjoint_left]
    intro p hp hp'
    simp only [List.mem_filterMap] at hp hp'
    obtain ⟨m, -, h⟩ := hp
    obtain ⟨m', -, h'⟩ := hp'
    split at h
    · split at h'
      · simp only [Option.some.injEq] at h h'
        rw [← h'] at h
        exact hne (Prod.mk.inj h).1
      · cases h'
    · cases h

namespace Spec

/-- The names belong together: the name of the modified image starts with the name of the reference image
up to its first dot. -/
def BelongTogether (r m : Txt) : Prop := ∃ a b, r = a ++ b ∧ '.' ∉ a ∧ (b = [] ∨ ∃ e, b = '.' :: e) ∧ a <+: m

end Spec

theorem stem_spec (r a b : Txt) (h : r = a ++ b) (ha : '.' ∉ a) (hb : b = [] ∨ ∃ e, b = '.' :: e) : stem r = a := by
  subst h
  unfold stem
  rw [List.takeWhile_append_of_pos (by
    intro c hc
    simp only [ne_eq, decide_not, Bool.not_eq_eq_eq_not, Bool.not_true, decide_eq_false_iff_not]
    rintro rfl
    exact ha hc)]
  rcases hb with rfl | ⟨e, rfl⟩ <;> simp

theorem stem_cases (r : Txt) : ∃ b, r = stem r ++ b ∧ '.' ∉ stem r ∧ (b = [] ∨ ∃ e, b = '.' :: e) := by
  induction r with
  | nil => exact ⟨[], rfl, by simp [stem], Or.inl rfl⟩
  | cons c r ih =>
    by_cases hc : c = '.'
    · subst hc
      exact ⟨'.' :: r, by simp [stem], by simp [stem], Or.inr ⟨r, rfl⟩⟩
    · obtain ⟨b, h1, h2, h3⟩ := ih
      have hs : stem (c :: r) = c :: stem r := by simp [stem, hc]
      refine ⟨b, by rw [hs, List.cons_append, ← h1], ?_, h3⟩
      rw [hs]
      simp only [List.mem_cons, not_or]
      exact ⟨fun h => hc h.symm, h2⟩

/-- **C73, partial.** If the names of the reference images have three characters before the first dot, the rows are
exactly the pairs of names that belong together, each once. Missing: names of other lengths, see `C73_refuted`. -/
theorem C73_pairs_partial (refs mods : List Txt) (hr : refs.Nodup) (hm : mods.Nodup)
    (h3 : ∀ r ∈ refs, ∃ a b, r = a ++ b ∧ '.' ∉ a ∧ (b = [] ∨ ∃ e, b = '.' :: e) ∧ a.length = 3) :
    (pairRows refs mods).Nodup ∧
    ∀ r m, (r, m) ∈ pairRows refs mods ↔ r ∈ refs ∧ m ∈ mods ∧ Spec.BelongTogether r m := by
  refine ⟨nodup_pairRows refs mods hr hm, ?_⟩
  intro r m
  rw [mem_pairRows]
  constructor
  · rintro ⟨h1, h2, h⟩
    obtain ⟨b, hb1, hb2, hb3⟩ := stem_cases r
    exact ⟨h1, h2, stem r, b, hb1, hb2, hb3, by rw [h]; exact List.take_prefix _ _⟩
  · rintro ⟨h1, h2, a, b, e1, e2, e3, e4⟩
    obtain ⟨a', b', f1, f2, f3, f4⟩ := h3 r h1
    have ha : stem r = a := stem_spec r a b e1 e2 e3
    have ha' : stem r = a' := stem_spec r a' b' f1 f2 f3
    refine ⟨h1, h2, ?_⟩
    rw [ha, ← f4, ← ha', ha]
    exact (List.prefix_iff_eq_take.1 e4)

/-- **C73, refuted** for every reference image with more than three characters before the first dot: it never
appears, although modified images of every name starting with it exist. -/
theorem C73_refuted (a ext : Txt) (ha : '.' ∉ a) (hl : 3 < a.length) (refs mods : List Txt) :
    ¬ ∃ m, (a ++ '.' :: ext, m) ∈ pairRows refs mods := by
  rintro ⟨m, h⟩
  obtain ⟨-, -, h⟩ := (mem_pairRows refs mods _ m).1 h
  rw [stem_spec _ a ('.' :: ext) rfl ha (Or.inr ⟨ext, rfl⟩)] at h
  have := congrArg List.length h
  simp only [List.length_take] at this
  omega

/-- **C73**: the file of the script is read back as these pairs, for names without quotes. -/
theorem C73_file_partial (refs mods : List Txt) (hq : ∀ n ∈ refs ++ mods, '"' ∉ n) :
    readPairs (pairFile refs mods) = .ok ((pairRows refs mods).map (fun p => (some p.1, some p.2))) := by
  apply C74_round_trip_partial ',' (by decide)
  rintro ⟨r, m⟩ hp
  obtain ⟨h1, h2, -⟩ := (mem_pairRows refs mods r m).1 hp
  exact ⟨hq r (by simp [h1]), hq m (by simp [h2])⟩

example : pairRows ["001.raw".toList, "002.raw".toList] ["001_a.raw".toList, "002_a.raw".toList, "001_b.raw".toList] =
    [("001.raw".toList, "001_a.raw".toList), ("001.raw".toList, "001_b.raw".toList), ("002.raw".toList, "002_a.raw".toList)] := by
  decide

example : Spec.BelongTogether "0001.raw".toList "0001_a.raw".toList :=
  ⟨"0001".toList, ".raw".toList, by decide, by decide, Or.inr ⟨"raw".toList, by decide⟩, ⟨"_a.raw".toList, by decide⟩⟩

/-! ### C105 -/

/-- **C105, refuted**: the argument `copy` is not optional as stated in the usage. With the three required arguments
the script always fails. -/
theorem C105_optional_refuted (m r c : Txt) : csvArgs [m, r, c] = .error .indexError := rfl

/-- **C105, refuted**: copying into an existing directory without `images` fails as soon as there is a pair. -/
theorem C105_existing_refuted (refs mods : List Txt) (h : pairRows refs mods ≠ []) :
    writeToCsv refs mods true false true = .error .fileNotFound := by
  unfold writeToCsv csvDirs
  rw [if_pos ⟨rfl, h, rfl⟩]

/-- **C105, partial**: with the fourth argument, and without copying or into a new directory or one that
contains `images`, the pairs are written. -/
theorem C105_written_partial (m r c w : Txt) (refs mods : List Txt) (csvExists imagesExists : Bool)
    (h : w ≠ "copy".toList ∨ csvExists = false ∨ imagesExists = true) :
    ∃ copy, csvArgs [m, r, c, w] = .ok (some (m, r, c, copy)) ∧ (copy = true ↔ w = "copy".toList) ∧
      writeToCsv refs mods csvExists imagesExists copy = .ok (pairRows refs mods) := by
  refine ⟨w = "copy".toList, rfl, by simp, ?_⟩
  unfold writeToCsv csvDirs
  rw [if_neg]
  rintro ⟨h1, -, h3⟩
  simp only [decide_eq_true_eq] at h1
  rcases h with h | h | h
  · exact h h1
  · simp [h, h1] at h3
  · cases csvExists <;> simp [h, h1] at h3

example : ("001.raw".toList, "001_a.raw".toList) ∈ pairRows ["001.raw".toList, "002.raw".toList] ["001_a.raw".toList, "002_a.raw".toList] :=
  ((C73_pairs_partial _ _ (by decide) (by decide) (by
    intro r hr
    simp only [List.mem_cons, List.not_mem_nil, or_false] at hr
    rcases hr with rfl | rfl
    · exact ⟨"001".toList, ".raw".toList, by decide, by decide, .inr ⟨"raw".toList, by decide⟩, by decide⟩
    · exact ⟨"002".toList, ".raw".toList, by decide, by decide, .inr ⟨"raw".toList, by decide⟩, by decide⟩)).2 _ _).2
    ⟨by decide, by decide, "001".toList, ".raw".toList, by decide, by decide, .inr ⟨"raw".toList, by decide⟩, "_a.raw".toList, by decide⟩

example : ∃ copy, csvArgs ["m".toList, "r".toList, "c".toList, "no".toList] = .ok (some ("m".toList, "r".toList, "c".toList, copy)) ∧
    (copy = true ↔ "no".toList = "copy".toList) ∧
    writeToCsv ["001.raw".toList] ["001_a.raw".toList] true false copy = .ok [("001.raw".toList, "001_a.raw".toList)] :=
  C105_written_partial _ _ _ _ _ _ _ _ (.inl (by decide))

end Viqa
