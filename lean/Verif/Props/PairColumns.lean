import Verif.Props.PairFile
import Verif.Props.ResultFile

/-!
C156: pair files written by hand. C157: pair files with further columns.
-/

namespace Viqa

namespace CsvReader

/-- What the reader sees after the last character of a line: `\r\n`, `\n`, `\r` or nothing more in the file. -/
inductive LineEnd where
  | crlf | lf | cr | eof
  deriving DecidableEq

/-- The characters. -/
def LineEnd.text : LineEnd → Txt
  | .crlf => ['\r', '\n']
  | .lf => ['\n']
  | .cr => ['\r']
  | .eof => []

/-- Lines of a file after one another. -/
theorem csvTokens_line (e : LineEnd) (w r : Txt) (hw : w ≠ []) (hp : ∀ c ∈ w, c ≠ '\r' ∧ c ≠ '\n')
    (he : e = .eof → r = []) (hcr : e = .cr → r.head? ≠ some '\n') :
    csvTokens (w ++ e.text ++ r) = w.map .ch ++ e.text.map .ch ++ .eol :: csvTokens r := by
  induction w with
  | nil => exact absurd rfl hw
  | cons c w ih =>
    obtain ⟨h1, h2⟩ := hp c (by simp)
    by_cases hw' : w = []
    · subst hw'
      cases e with
      | crlf =>
        simp only [LineEnd.text, List.cons_append, List.nil_append, List.map_cons, List.map_nil]
        rw [csvTokens_plain c _ h1 h2 (by simp), csvTokens_crlf]
      | lf =>
        simp only [LineEnd.text, List.cons_append, List.nil_append, List.map_cons, List.map_nil]
        rw [csvTokens_plain c _ h1 h2 (by simp), csvTokens_break '\n' _ (Or.inr rfl) (by simp)]
      | cr =>
        simp only [LineEnd.text, List.cons_append, List.nil_append, List.map_cons, List.map_nil]
        rw [csvTokens_plain c _ h1 h2 (by simp), csvTokens_break '\r' _ (Or.inl rfl) (by
          intro r' h
          apply hcr rfl
          rw [h.2]; rfl)]
      | eof =>
        rw [he rfl]
        simp [LineEnd.text, csvTokens]
    · rw [List.cons_append, List.cons_append, csvTokens_plain c _ h1 h2 (by simp [hw']),
        ih hw' (fun c hc => hp c (by simp [hc]))]
      simp

theorem run_next (d : Char) (dq skip : Bool) (r r' : CsvReader) (t : CsvTok) (ts : List CsvTok)
    (h : r.step d dq t skip = .ok r') : run d dq r (t :: ts) skip = run d dq (r'.emit t) ts skip := by
  rw [run, h]

theorem run_blanks (d : Char) (skip : Bool) (n : Nat) (hn : skip = true ∨ n = 0) (st : CsvState)
    (hst : st = .startField ∨ st = .startRecord) (row : List Txt) (acc : List (List Txt)) (ts : List CsvTok) :
    run d false ⟨st, [], row, acc⟩ ((List.replicate n ' ').map .ch ++ ts) skip =
      run d false ⟨if n = 0 then st else .startField, [], row, acc⟩ ts skip := by
  induction n generalizing st with
  | zero => simp
  | succ n ih =>
    have hs : skip = true := by simpa using hn
    subst hs
    rw [List.replicate_succ, List.map_cons, List.cons_append, run_next d false true _ ⟨.startField, [], row, acc⟩ _ _ (by
      rcases hst with rfl | rfl <;> simp [step, stepStartField, isEnd]), emit_ch, ih (Or.inl rfl) _ (Or.inl rfl)]
    simp

/-- A field without quotes, delimiters and line breaks. -/
def PlainField (d : Char) (s : Txt) : Prop := ∀ c ∈ s, c ≠ d ∧ c ≠ '"' ∧ c ≠ '\r' ∧ c ≠ '\n'

theorem run_rest (d : Char) (skip : Bool) (s : Txt) (hs : PlainField d s) (f : Txt) (row : List Txt)
    (acc : List (List Txt)) (ts : List CsvTok) :
    run d false ⟨.inField, f, row, acc⟩ (s.map .ch ++ ts) skip = run d false ⟨.inField, f ++ s, row, acc⟩ ts skip := by
  induction s generalizing f with
  | nil => simp
  | cons c s ih =>
    obtain ⟨h1, -, h3, h4⟩ := hs c (by simp)
    rw [List.map_cons, List.cons_append, run_next d false skip _ ⟨.inField, f ++ [c], row, acc⟩ _ _ (by
      simp [step, isEnd, h1, h3, h4, add]), emit_ch, ih (fun c hc => hs c (by simp [hc]))]
    simp

theorem run_plainField (d : Char) (skip : Bool) (s : Txt) (hs : PlainField d s) (hb : skip = false ∨ s.head? ≠ some ' ')
    (st : CsvState) (hst : st = .startField ∨ st = .startRecord) (row : List Txt) (acc : List (List Txt)) (ts : List CsvTok) :
    run d false ⟨st, [], row, acc⟩ (s.map .ch ++ ts) skip =
      run d false ⟨if s = [] then st else .inField, s, row, acc⟩ ts skip := by
  cases s with
  | nil => simp
  | cons c s =>
    obtain ⟨h1, h2, h3, h4⟩ := hs c (by simp)
    have hb' : ¬ (c = ' ' ∧ skip = true) := by
      rintro ⟨rfl, rfl⟩
      simp at hb
    rw [List.map_cons, List.cons_append, run_next d false skip _ ⟨.inField, [c], row, acc⟩ _ _ (by
      rcases hst with rfl | rfl <;> simp [step, stepStartField, isEnd, h1, h2, h3, h4, hb', add]), emit_ch,
      run_rest d skip s (fun c hc => hs c (by simp [hc]))]
    simp

theorem run_sep (d : Char) (hd : d ≠ '"' ∧ d ≠ ' ' ∧ d ≠ '\r' ∧ d ≠ '\n') (skip : Bool) (st : CsvState)
    (hst : st = .startField ∨ st = .inField ∨ st = .startRecord) (s : Txt) (row : List Txt) (acc : List (List Txt))
    (ts : List CsvTok) :
    run d false ⟨st, s, row, acc⟩ (.ch d :: ts) skip = run d false ⟨.startField, [], row ++ [s], acc⟩ ts skip := by
  rw [run_next d false skip _ ⟨.startField, [], row ++ [s], acc⟩ _ _ (by
      rcases hst with rfl | rfl | rfl <;> simp [step, stepStartField, isEnd, hd, save]), emit_ch]

theorem run_lineEnd (d : Char) (skip : Bool) (e : LineEnd) (st : CsvState) (hst : st = .startField ∨ st = .inField)
    (s : Txt) (row : List Txt) (acc : List (List Txt)) (ts : List CsvTok) :
    run d false ⟨st, s, row, acc⟩ (e.text.map .ch ++ .eol :: ts) skip =
      run d false ⟨.startRecord, [], [], acc ++ [row ++ [s]]⟩ ts skip := by
  have hend : ∀ c, c = '\r' ∨ c = '\n' → step d false ⟨st, s, row, acc⟩ (.ch c) skip = .ok ⟨.eatCrnl, [], row ++ [s], acc⟩ := by
    intro c hc
    rcases hst with rfl | rfl <;> rcases hc with rfl | rfl <;> simp [step, stepStartField, isEnd, afterEnd, save]
  have heol : run d false ⟨.eatCrnl, [], row ++ [s], acc⟩ (.eol :: ts) skip =
      run d false ⟨.startRecord, [], [], acc ++ [row ++ [s]]⟩ ts skip := by
    rw [run_next d false skip _ ⟨.startRecord, [], row ++ [s], acc⟩ _ _ (by simp [step])]
    simp [emit]
  cases e with
  | crlf =>
    simp only [LineEnd.text, List.map_cons, List.map_nil, List.cons_append, List.nil_append]
    rw [run_next d false skip _ _ _ _ (hend '\r' (Or.inl rfl)), emit_ch,
      run_next d false skip _ ⟨.eatCrnl, [], row ++ [s], acc⟩ _ _ (by simp [step]), emit_ch, heol]
  | lf =>
    simp only [LineEnd.text, List.map_cons, List.map_nil, List.cons_append, List.nil_append]
    rw [run_next d false skip _ _ _ _ (hend '\n' (Or.inr rfl)), emit_ch, heol]
  | cr =>
    simp only [LineEnd.text, List.map_cons, List.map_nil, List.cons_append, List.nil_append]
    rw [run_next d false skip _ _ _ _ (hend '\r' (Or.inl rfl)), emit_ch, heol]
  | eof =>
    simp only [LineEnd.text, List.map_nil, List.nil_append]
    rw [run_next d false skip _ ⟨.startRecord, [], row ++ [s], acc⟩ _ _ (by
      rcases hst with rfl | rfl <;> simp [step, stepStartField, isEnd, afterEnd, save])]
    simp [emit]

end CsvReader

/-! ### C156 -/

open CsvReader

/-- A line of a pair file written by hand: two names with blanks in front. -/
structure HandLine where
  blanks1 : Nat
  name1 : Txt
  blanks2 : Nat
  name2 : Txt

/-- Its text. -/
def HandLine.text (d : Char) (l : HandLine) : Txt :=
  List.replicate l.blanks1 ' ' ++ l.name1 ++ d :: (List.replicate l.blanks2 ' ' ++ l.name2)

/-- The header with `k` blanks after the delimiter. -/
def handHeader (k : Nat) : HandLine := ⟨0, "reference_image".toList, k, "modified_image".toList⟩

/-- A line that is understood: plain names; blanks are in front of names only if they are dropped (`skip`), and then names
do not begin with one. -/
def HandLine.Clear (d : Char) (skip : Bool) (l : HandLine) : Prop :=
  PlainField d l.name1 ∧ PlainField d l.name2 ∧
    ((skip = false ∧ l.blanks1 = 0 ∧ l.blanks2 = 0) ∨ (skip = true ∧ l.name1.head? ≠ some ' ' ∧ l.name2.head? ≠ some ' '))

theorem handLine_run (d : Char) (hd : d ≠ '"' ∧ d ≠ ' ' ∧ d ≠ '\r' ∧ d ≠ '\n') (skip : Bool) (l : HandLine)
    (h : l.Clear d skip) (e : LineEnd) (r : Txt) (he : e = .eof → r = []) (hcr : e = .cr → r.head? ≠ some '\n')
    (acc : List (List Txt)) :
    run d false ⟨.startRecord, [], [], acc⟩ (csvTokens (l.text d ++ e.text ++ r)) skip =
      run d false ⟨.startRecord, [], [], acc ++ [[l.name1, l.name2]]⟩ (csvTokens r) skip := by
  obtain ⟨h1, h2, h3⟩ := h
  have hb : ∀ n, (∃ c ∈ List.replicate n ' ', c = '\r' ∨ c = '\n') → False := by
    rintro n ⟨c, hc, h⟩
    rw [List.eq_of_mem_replicate hc] at h
    revert h; decide
  rw [csvTokens_line e _ _ (by simp [HandLine.text]) (by
    intro c hc
    simp only [HandLine.text, List.mem_append, List.mem_cons] at hc
    rcases hc with (hc | hc) | rfl | hc | hc
    · rw [List.eq_of_mem_replicate hc]; decide
    · exact (h1 c hc).2.2
    · exact hd.2.2
    · rw [List.eq_of_mem_replicate hc]; decide
    · exact (h2 c hc).2.2) he hcr]
  simp only [HandLine.text, List.map_append, List.map_cons, List.append_assoc, List.cons_append]
  rw [run_blanks d skip l.blanks1 (by tauto) _ (Or.inr rfl), run_plainField d skip l.name1 h1 (by tauto) _ (by
      split <;> simp), run_sep d hd skip _ (by split <;> [(split <;> simp); simp]),
    run_blanks d skip l.blanks2 (by tauto) _ (Or.inl rfl), run_plainField d skip l.name2 h2 (by tauto) _ (by simp),
    run_lineEnd d skip e _ (by split <;> simp)]
  simp

/-- The lines of a file, each ended in the same way; at the end of the file the line break may be missing. -/
def handFile (d : Char) (e : LineEnd) (last : Bool) : List HandLine → Txt
  | [] => []
  | [l] => l.text d ++ (if last then e.text else [])
  | l :: l' :: ls => l.text d ++ e.text ++ handFile d e last (l' :: ls)

theorem handFile_head (d : Char) (hd : d ≠ '\n') (e : LineEnd) (last skip : Bool) (l : HandLine) (ls : List HandLine)
    (h : l.Clear d skip) : (handFile d e last (l :: ls)).head? ≠ some '\n' := by
  have : ∀ r, (l.text d ++ r).head? ≠ some '\n' := by
    intro r hr
    have hm : (l.text d).head? = some '\n' := by
      have hne : l.text d ≠ [] := by simp [HandLine.text]
      cases ht : l.text d with
      | nil => exact absurd ht hne
      | cons c t => rw [ht] at hr; simpa using hr
    have := List.mem_of_mem_head? hm
    simp only [HandLine.text, List.mem_append, List.mem_cons] at this
    rcases this with (hc | hc) | hc | hc | hc
    · exact absurd (List.eq_of_mem_replicate hc) (by decide)
    · exact (h.1 _ hc).2.2.2 rfl
    · exact hd hc.symm
    · exact absurd (List.eq_of_mem_replicate hc) (by decide)
    · exact (h.2.1 _ hc).2.2.2 rfl
  cases ls with
  | nil => exact this _
  | cons l' ls => rw [handFile, List.append_assoc]; exact this _

theorem handFile_run (d : Char) (hd : d ≠ '"' ∧ d ≠ ' ' ∧ d ≠ '\r' ∧ d ≠ '\n') (skip : Bool) (e : LineEnd) (he : e ≠ .eof)
    (last : Bool) (ls : List HandLine) (h : ∀ l ∈ ls, l.Clear d skip) (acc : List (List Txt)) :
    run d false ⟨.startRecord, [], [], acc⟩ (csvTokens (handFile d e last ls)) skip =
      .ok ⟨.startRecord, [], [], acc ++ ls.map (fun l => [l.name1, l.name2])⟩ := by
  induction ls generalizing acc with
  | nil => simp [handFile, csvTokens, run]
  | cons l ls ih =>
    cases ls with
    | nil =>
      rw [handFile]
      cases last with
      | true =>
        have := handLine_run d hd skip l (h l (by simp)) e [] (by simp) (by simp) acc
        rw [List.append_nil] at this
        rw [if_pos rfl, this]
        simp [csvTokens, run]
      | false =>
        have := handLine_run d hd skip l (h l (by simp)) .eof [] (by simp) (by simp) acc
        rw [List.append_nil] at this
        simp only [LineEnd.text] at this
        rw [if_neg (by simp), this]
        simp [csvTokens, run]
    | cons l' ls =>
      rw [handFile, handLine_run d hd skip l (h l (by simp)) e _ (fun hh => absurd hh he)
        (fun _ => handFile_head d hd.2.2.2 e last skip l' ls (h l' (by simp))),
        ih (fun l hl => h l (by simp [hl]))]
      simp

theorem allSpaced_true (d : Char) (w : Txt) (h : d ∉ w) : allSpaced d w = true := by
  induction w with
  | nil => rfl
  | cons c w ih =>
    simp only [List.mem_cons, not_or] at h
    rw [allSpaced, ih h.2]
    simp [Ne.symm h.1]

theorem allSpaced_blank (d : Char) (hd : d ≠ ' ') (v w : Txt) (hv : d ∉ v) (hw : d ∉ w) :
    allSpaced d (v ++ d :: ' ' :: w) = true := by
  induction v with
  | nil => simp [allSpaced, allSpaced_true d w hw, Ne.symm hd]
  | cons c v ih =>
    simp only [List.mem_cons, not_or] at hv
    rw [List.cons_append, allSpaced, ih hv.2]
    simp [Ne.symm hv.1]

theorem sniff_handHeader (d : Char) (hd : d ∈ [',', ';', '\t']) (k : Nat) :
    sniff ((handHeader k).text d) = .ok (d, decide (0 < k)) := by
  have hspace : ∀ c ∈ [',', ';', '\t'], c ∉ List.replicate k ' ' := by
    intro c hc hm
    rw [List.eq_of_mem_replicate hm] at hc
    revert hc; decide
  have hmem : ∀ c ∈ [',', ';', '\t'], (c ∈ (handHeader k).text d ↔ c = d) := by
    intro c hc
    have hs := hspace c hc
    have h1 : c ∉ "reference_image".toList := by
      simp only [List.mem_cons, List.not_mem_nil, or_false] at hc
      rcases hc with rfl | rfl | rfl <;> decide
    have h2 : c ∉ "modified_image".toList := by
      simp only [List.mem_cons, List.not_mem_nil, or_false] at hc
      rcases hc with rfl | rfl | rfl <;> decide
    simp only [HandLine.text, handHeader, List.mem_append, List.mem_cons, hs, h1, h2, or_false, false_or,
      List.replicate_zero, List.not_mem_nil]
  have hskip : allSpaced d ((handHeader k).text d) = decide (0 < k) := by
    cases k with
    | zero =>
      rw [show (handHeader 0).text d = "reference_image".toList ++ d :: "modified_image".toList from rfl]
      rw [allSpaced_false d _ _ (by decide)]
      rfl
    | succ k =>
      have : (handHeader (k + 1)).text d = "reference_image".toList ++ d :: ' ' :: (List.replicate k ' ' ++ "modified_image".toList) := by
        simp [handHeader, HandLine.text, List.replicate_succ]
      rw [this, allSpaced_blank]
      · simp
      · rintro rfl; revert hd; decide
      · simp only [List.mem_cons, List.not_mem_nil, or_false] at hd
        rcases hd with rfl | rfl | rfl <;> decide
      · simp only [List.mem_append, not_or]
        constructor
        · intro hm
          rw [List.eq_of_mem_replicate hm] at hd
          revert hd; decide
        · simp only [List.mem_cons, List.not_mem_nil, or_false] at hd
          rcases hd with rfl | rfl | rfl <;> decide
  unfold sniff
  have hf : [',', '\t', ';'].filter (fun c => decide (c ∈ (handHeader k).text d)) = [d] := by
    have : [',', '\t', ';'].filter (fun c => decide (c ∈ (handHeader k).text d)) = [',', '\t', ';'].filter (fun c => decide (c = d)) := by
      apply List.filter_congr
      intro c hc
      rw [decide_eq_decide]
      exact hmem c (by simp only [List.mem_cons, List.not_mem_nil, or_false] at hc ⊢; tauto)
    rw [this]
    simp only [List.mem_cons, List.not_mem_nil, or_false] at hd
    rcases hd with rfl | rfl | rfl <;> decide
  rw [hf]
  simp only [hskip]

theorem firstLine_append (w r : Txt) (hw : ∀ c ∈ w, c ≠ '\r' ∧ c ≠ '\n') (hr : r = [] ∨ r.head? = some '\r' ∨ r.head? = some '\n') :
    firstLine (w ++ r) = w := by
  unfold firstLine
  rw [List.takeWhile_append_of_pos (by
    intro c hc
    have := hw c hc
    simp [this.1, this.2])]
  rcases hr with rfl | h | h
  · simp
  · cases r with
    | nil => simp
    | cons c r => simp only [List.head?_cons, Option.some.injEq] at h; subst h; simp
  · cases r with
    | nil => simp
    | cons c r => simp only [List.head?_cons, Option.some.injEq] at h; subst h; simp

/-- **C156, partial.** A pair file written by hand with comma, semicolon or tabulator, with any kind of line breaks, with
or without one at the end, and with any number of blanks in front of the names if there is at least one after the
delimiter of the header, has the pairs that are written there, in the same order.
Missing: blanks in a file whose header has none, see `C156_header_refuted`. -/
theorem C156_blanks_partial (d : Char) (hd : d ∈ [',', ';', '\t']) (e : LineEnd) (he : e ≠ .eof) (last : Bool) (k : Nat)
    (ls : List HandLine)
    (hplain : ∀ l ∈ ls, PlainField d l.name1 ∧ PlainField d l.name2)
    (hblank : (k = 0 ∧ ∀ l ∈ ls, l.blanks1 = 0 ∧ l.blanks2 = 0) ∨
      (0 < k ∧ ∀ l ∈ ls, l.name1.head? ≠ some ' ' ∧ l.name2.head? ≠ some ' ')) :
    readPairs (handFile d e last (handHeader k :: ls)) = .ok (ls.map (fun l => (some l.name1, some l.name2))) := by
  have hd' : d ≠ '"' ∧ d ≠ ' ' ∧ d ≠ '\r' ∧ d ≠ '\n' := by
    simp only [List.mem_cons, List.not_mem_nil, or_false] at hd
    rcases hd with rfl | rfl | rfl <;> decide
  have hhp : PlainField d "reference_image".toList ∧ PlainField d "modified_image".toList := by
    unfold PlainField
    simp only [List.mem_cons, List.not_mem_nil, or_false] at hd
    rcases hd with rfl | rfl | rfl <;> decide
  have hclear : ∀ l ∈ handHeader k :: ls, l.Clear d (decide (0 < k)) := by
    intro l hl
    rcases List.mem_cons.1 hl with rfl | hl'
    · refine ⟨hhp.1, hhp.2, ?_⟩
      rcases Nat.eq_zero_or_pos k with rfl | hk
      · exact Or.inl ⟨rfl, rfl, rfl⟩
      · refine Or.inr ⟨by simpa using hk, ?_, ?_⟩ <;> simp [handHeader]
    · refine ⟨(hplain l hl').1, (hplain l hl').2, ?_⟩
      rcases hblank with ⟨rfl, h⟩ | ⟨hk, h⟩
      · exact Or.inl ⟨rfl, h l hl'⟩
      · exact Or.inr ⟨by simpa using hk, h l hl'⟩
  have hline : firstLine (handFile d e last (handHeader k :: ls)) = (handHeader k).text d := by
    have hchars : ∀ c ∈ (handHeader k).text d, c ≠ '\r' ∧ c ≠ '\n' := by
      intro c hc
      simp only [HandLine.text, List.mem_append, List.mem_cons] at hc
      rcases hc with (hc | hc) | rfl | hc | hc
      · rw [List.eq_of_mem_replicate hc]; decide
      · exact (hhp.1 c hc).2.2
      · exact hd'.2.2
      · rw [List.eq_of_mem_replicate hc]; decide
      · exact (hhp.2 c hc).2.2
    cases ls with
    | nil =>
      rw [handFile]
      apply firstLine_append _ _ hchars
      cases last <;> cases e <;> simp [LineEnd.text]
    | cons l ls =>
      rw [handFile, List.append_assoc]
      apply firstLine_append _ _ hchars
      cases e <;> simp [LineEnd.text] at he ⊢
  have hrows : csvRows d false (handFile d e last (handHeader k :: ls)) (decide (0 < k)) =
      .ok (pairHeader :: ls.map (fun l => [l.name1, l.name2])) := by
    unfold csvRows
    rw [show ({} : CsvReader) = ⟨.startRecord, [], [], []⟩ from rfl, handFile_run d hd' _ e he last _ hclear]
    simp [finish, handHeader, pairHeader]
  have h3 : (pairHeader :: ls.map (fun l => [l.name1, l.name2])).filter (· ≠ []) =
      pairHeader :: ls.map (fun l => [l.name1, l.name2]) := by
    rw [List.filter_eq_self]
    intro fs hfs
    simp only [List.mem_cons, List.mem_map] at hfs
    rcases hfs with rfl | ⟨p, hp, rfl⟩
    · decide
    · simp
  unfold readPairs
  rw [hline, sniff_handHeader d hd k]
  simp only
  rw [hrows]
  simp only
  rw [h3]
  simp only
  rw [if_pos (by decide), List.map_map]
  congr 1

example : readPairs "reference_image; modified_image\na.png;  b 1.png\n c.png;d.png".toList =
    .ok [(some "a.png".toList, some "b 1.png".toList), (some "c.png".toList, some "d.png".toList)] :=
  C156_blanks_partial ';' (by decide) .lf (by decide) false 1
    [⟨0, "a.png".toList, 2, "b 1.png".toList⟩, ⟨1, "c.png".toList, 0, "d.png".toList⟩]
    (by unfold PlainField; decide) (Or.inr (by decide))

/-- **C156, refuted** for files whose header has no blank: a blank written after the delimiter of a row becomes part of the
name, for all names. -/
theorem C156_header_refuted (d : Char) (hd : d ∈ [',', ';', '\t']) (e : LineEnd) (he : e ≠ .eof) (last : Bool) (n m : Nat)
    (a b : Txt) (ha : PlainField d a) (hb : PlainField d b) :
    readPairs (handFile d e last [handHeader 0, ⟨n, a, m, b⟩]) =
      .ok [(some (List.replicate n ' ' ++ a), some (List.replicate m ' ' ++ b))] := by
  have hs : ∀ n s, PlainField d s → PlainField d (List.replicate n ' ' ++ s) := by
    intro n s h c hc
    rcases List.mem_append.1 hc with hc | hc
    · rw [List.eq_of_mem_replicate hc]
      simp only [List.mem_cons, List.not_mem_nil, or_false] at hd
      rcases hd with rfl | rfl | rfl <;> decide
    · exact h c hc
  have := C156_blanks_partial d hd e he last 0 [⟨0, List.replicate n ' ' ++ a, 0, List.replicate m ' ' ++ b⟩]
    (by simpa using ⟨hs n a ha, hs m b hb⟩) (Or.inl ⟨rfl, by simp⟩)
  rw [← show handFile d e last [handHeader 0, ⟨0, List.replicate n ' ' ++ a, 0, List.replicate m ' ' ++ b⟩] =
    handFile d e last [handHeader 0, ⟨n, a, m, b⟩] by simp [handFile, HandLine.text, List.append_assoc]]
  exact this

example : readPairs "reference_image,modified_image\na.png, b.png\n".toList = .ok [(some "a.png".toList, some " b.png".toList)] :=
  C156_header_refuted ',' (by decide) .lf (by decide) true 0 1 "a.png".toList "b.png".toList
    (by unfold PlainField; decide) (by unfold PlainField; decide)

/-! ### C157 -/

/-- A name of a column that the sniffer cannot mistake: no delimiter, quote or line break. -/
def ColumnName (s : Txt) : Prop := ∀ c ∈ s, c ∉ [',', ';', '\t', '"', '\r', '\n']

theorem writeField_column (d : Char) (hd : d ∈ [',', ';', '\t']) (s : Txt) (h : ColumnName s) : writeField d s = s := by
  unfold writeField
  rw [if_neg]
  simp only [List.any_eq_true, not_exists, not_and]
  intro c hc
  have := h c hc
  simp only [List.mem_cons, List.not_mem_nil, or_false, not_or] at this hd
  simp only [Bool.or_eq_true, decide_eq_true_eq, not_or]
  refine ⟨⟨⟨?_, this.2.2.2.1⟩, this.2.2.2.2.1⟩, this.2.2.2.2.2⟩
  rcases hd with rfl | rfl | rfl <;> tauto

theorem mem_writeFields_column (d : Char) (hd : d ∈ [',', ';', '\t']) (fs : List Txt) (h : ∀ s ∈ fs, ColumnName s) (c : Char)
    (hc : c ∈ writeFields d fs) : c = d ∨ c ∉ [',', ';', '\t', '"', '\r', '\n'] := by
  induction fs with
  | nil => cases hc
  | cons s fs ih =>
    cases fs with
    | nil =>
      rw [writeFields, writeField_column d hd s (h s (by simp))] at hc
      exact Or.inr (h s (by simp) c hc)
    | cons s' fs =>
      rw [show writeFields d (s :: s' :: fs) = writeField d s ++ d :: writeFields d (s' :: fs) from rfl,
        writeField_column d hd s (h s (by simp))] at hc
      rcases List.mem_append.1 hc with hc | hc
      · exact Or.inr (h s (by simp) c hc)
      · rcases List.mem_cons.1 hc with rfl | hc
        · exact Or.inl rfl
        · exact ih (fun s hs => h s (by simp [hs])) hc

/-- A column after the first that does not begin with a blank keeps the sniffer from dropping blanks. -/
theorem allSpaced_columns (d : Char) (hd : d ∈ [',', ';', '\t']) (s : Txt) (fs : List Txt) (h : ∀ s ∈ fs, ColumnName s)
    (t : Txt) (ht : t ∈ fs) (htb : t.head? ≠ some ' ') : allSpaced d (writeFields d (s :: fs)) = false := by
  have hds : d ≠ ' ' := by rintro rfl; revert hd; decide
  induction fs generalizing s with
  | nil => cases ht
  | cons s' fs ih =>
    rw [show writeFields d (s :: s' :: fs) = writeField d s ++ d :: writeFields d (s' :: fs) from rfl]
    by_cases hst : t = s'
    · subst hst
      apply allSpaced_false
      cases fs with
      | nil =>
        rw [writeFields, writeField_column d hd t (h t (by simp))]
        exact htb
      | cons f fs =>
        rw [show writeFields d (t :: f :: fs) = writeField d t ++ d :: writeFields d (f :: fs) from rfl,
          writeField_column d hd t (h t (by simp))]
        cases t with
        | nil => simpa using hds
        | cons c t => exact htb
    · have htf : t ∈ fs := by
        rcases List.mem_cons.1 ht with h' | h'
        · exact absurd h' hst
        · exact h'
      have := ih s' (fun s hs => h s (by simp [hs])) htf
      have happ : ∀ v w, allSpaced d w = false → allSpaced d (v ++ w) = false := by
        intro v w hw
        induction v with
        | nil => exact hw
        | cons c v ihv => rw [List.cons_append, allSpaced, ihv, Bool.and_false]
      rw [← List.singleton_append (l := writeFields d (s' :: fs)), ← List.append_assoc]
      exact happ _ _ this

theorem dictGet_index (header row : List Txt) (key : Txt) (i : Nat) (hi : header[i]? = some key)
    (hu : ∀ j, header[j]? = some key → j = i) : dictGet header row key = row[i]? := by
  obtain ⟨hlt, hk⟩ := List.getElem?_eq_some_iff.1 hi
  have hsplit : header = header.take i ++ key :: header.drop (i + 1) := by
    rw [← hk, List.getElem_cons_drop, List.take_append_drop]
  have hpost : key ∉ header.drop (i + 1) := by
    intro hm
    obtain ⟨j, hj⟩ := List.mem_iff_getElem?.1 hm
    rw [List.getElem?_drop] at hj
    have := hu _ hj
    omega
  rw [hsplit, dictGet_at _ _ _ _ hpost, List.length_take, min_eq_left hlt.le]

/-- **C157, partial.** A pair file may have further columns, in any order: for every header in which both names occur once
(and whose names contain no delimiter, quote or line break), the pair of a row consists of its fields in these two
columns, whatever the other columns contain (except quotes); a field that is missing is `None`.
Missing: headers with one of the other delimiters in a name, see `C157_delimiter_refuted`. -/
theorem C157_columns_partial (d : Char) (hd : d ∈ [',', ';', '\t']) (header : List Txt) (rows : List (List Txt)) (i j : Nat)
    (hi : header[i]? = some "reference_image".toList) (hj : header[j]? = some "modified_image".toList)
    (hui : ∀ k, header[k]? = some "reference_image".toList → k = i)
    (huj : ∀ k, header[k]? = some "modified_image".toList → k = j)
    (hcol : ∀ s ∈ header, ColumnName s) (hq : ∀ fs ∈ rows, ∀ s ∈ fs, '"' ∉ s) (hne : ∀ fs ∈ rows, fs ≠ []) :
    readPairs (writeRows d (header :: rows)) = .ok (rows.map (fun r => (r[i]?, r[j]?))) := by
  have hd' : d ≠ '"' ∧ d ≠ '\r' ∧ d ≠ '\n' := by
    simp only [List.mem_cons, List.not_mem_nil, or_false] at hd
    rcases hd with rfl | rfl | rfl <;> decide
  obtain ⟨s, fs, rfl⟩ : ∃ s fs, header = s :: fs := by
    cases header with
    | nil => simp at hi
    | cons s fs => exact ⟨s, fs, rfl⟩
  have hij : i ≠ j := by
    rintro rfl
    rw [hi] at hj
    revert hj; decide
  obtain ⟨t, htf, htb⟩ : ∃ t ∈ fs, t.head? ≠ some ' ' := by
    rcases Nat.eq_zero_or_pos i with rfl | hi0
    · obtain ⟨j', rfl⟩ : ∃ j', j = j' + 1 := ⟨j - 1, by omega⟩
      exact ⟨_, List.mem_of_getElem? (by simpa using hj), by decide⟩
    · obtain ⟨i', rfl⟩ : ∃ i', i = i' + 1 := ⟨i - 1, by omega⟩
      exact ⟨_, List.mem_of_getElem? (by simpa using hi), by decide⟩
  have hdm : d ∈ writeFields d (s :: fs) := by
    cases fs with
    | nil => cases htf
    | cons f fs =>
      rw [show writeFields d (s :: f :: fs) = writeField d s ++ d :: writeFields d (f :: fs) from rfl]
      simp
  have hline : firstLine (writeRows d ((s :: fs) :: rows)) = writeFields d (s :: fs) := by
    rw [writeRows, List.flatMap_cons, writeRow, if_neg (by rintro ⟨⟩; cases htf), List.append_assoc]
    apply firstLine_append
    · intro c hc
      rcases mem_writeFields_column d hd _ hcol c hc with rfl | h
      · exact hd'.2
      · simp only [List.mem_cons, List.not_mem_nil, or_false, not_or] at h
        exact ⟨h.2.2.2.2.1, h.2.2.2.2.2⟩
    · simp
  have hsniff : sniff (writeFields d (s :: fs)) = .ok (d, false) := by
    unfold sniff
    have hf : [',', '\t', ';'].filter (fun c => decide (c ∈ writeFields d (s :: fs))) = [d] := by
      have : [',', '\t', ';'].filter (fun c => decide (c ∈ writeFields d (s :: fs))) = [',', '\t', ';'].filter (fun c => decide (c = d)) := by
        apply List.filter_congr
        intro c hc
        rw [decide_eq_decide]
        constructor
        · intro h
          rcases mem_writeFields_column d hd _ hcol c h with h | h
          · exact h
          · simp only [List.mem_cons, List.not_mem_nil, or_false, not_or] at h hc
            tauto
        · rintro rfl; exact hdm
      rw [this]
      simp only [List.mem_cons, List.not_mem_nil, or_false] at hd
      rcases hd with rfl | rfl | rfl <;> decide
    rw [hf]
    simp only [allSpaced_columns d hd s fs (fun s hs => hcol s (by simp [hs])) t htf htb]
  have hrows : csvRows d false (writeRows d ((s :: fs) :: rows)) = .ok ((s :: fs) :: rows) := by
    apply csvRows_writeRows d hd'
    intro fs' hfs
    rcases List.mem_cons.1 hfs with rfl | hfs
    · intro t ht hm
      have := hcol t ht _ hm
      simp at this
    · exact hq fs' hfs
  have hfil : ((s :: fs) :: rows).filter (· ≠ []) = (s :: fs) :: rows := by
    rw [List.filter_eq_self]
    intro fs' hfs
    rcases List.mem_cons.1 hfs with rfl | hfs
    · simp
    · simpa using hne fs' hfs
  unfold readPairs
  rw [hline, hsniff]
  simp only
  rw [hrows]
  simp only
  rw [hfil]
  simp only
  rw [if_pos ⟨List.mem_of_getElem? hi, List.mem_of_getElem? hj⟩]
  congr 1
  apply List.map_congr_left
  intro r hr
  rw [dictGet_index _ r _ i hi hui, dictGet_index _ r _ j hj huj]

example : readPairs (writeRows ';' [["size".toList, "modified_image".toList, "reference_image".toList],
    ["3,5; or 4".toList, "b.png".toList, "a.png".toList, "rest".toList], ["1".toList, "d.png".toList]]) =
    .ok [(some "a.png".toList, some "b.png".toList), (none, some "d.png".toList)] :=
  C157_columns_partial ';' (by decide) _ _ 2 1 rfl rfl
    (by intro k hk; rcases k with _ | _ | _ | k <;> simp_all)
    (by intro k hk; rcases k with _ | _ | _ | k <;> simp_all)
    (by unfold ColumnName; decide) (by decide) (by decide)

namespace CsvReader

/-- Rows that are complete stay, and the only error of the reader is `csv.Error`. -/
theorem step_rows (d : Char) (dq skip : Bool) (r : CsvReader) (t : CsvTok) :
    (∃ r', step d dq r t skip = .ok r' ∧ r'.rows = r.rows) ∨ ∃ m, step d dq r t skip = .error (.valueError m) := by
  have hsf : (stepStartField d r t skip).rows = r.rows := by
    unfold stepStartField
    split
    · rfl
    · split
      · rfl
      · split_ifs <;> rfl
  unfold step
  split
  · split
    · exact Or.inl ⟨_, rfl, rfl⟩
    · split_ifs
      · exact Or.inl ⟨_, rfl, rfl⟩
      · exact Or.inl ⟨_, rfl, hsf⟩
  · exact Or.inl ⟨_, rfl, hsf⟩
  · split_ifs
    · exact Or.inl ⟨_, rfl, rfl⟩
    · split
      · exact Or.inl ⟨_, rfl, rfl⟩
      · split_ifs <;> exact Or.inl ⟨_, rfl, rfl⟩
  · split
    · exact Or.inl ⟨_, rfl, rfl⟩
    · split_ifs <;> exact Or.inl ⟨_, rfl, rfl⟩
  · split_ifs
    · exact Or.inl ⟨_, rfl, rfl⟩
    · split
      · exact Or.inl ⟨_, rfl, rfl⟩
      · split_ifs <;> exact Or.inl ⟨_, rfl, rfl⟩
  · split
    · exact Or.inl ⟨_, rfl, rfl⟩
    · split_ifs
      · exact Or.inl ⟨_, rfl, rfl⟩
      · exact Or.inr ⟨_, rfl⟩

theorem run_keeps (d : Char) (dq skip : Bool) (r : CsvReader) (ts : List CsvTok) :
    (∃ r' l, run d dq r ts skip = .ok r' ∧ r'.rows = r.rows ++ l) ∨ ∃ m, run d dq r ts skip = .error (.valueError m) := by
  induction ts generalizing r with
  | nil => exact Or.inl ⟨r, [], rfl, by simp⟩
  | cons t ts ih =>
    rcases step_rows d dq skip r t with ⟨r', h, hr⟩ | ⟨m, h⟩
    · rw [run_next d dq skip r r' t ts h]
      have he : ∃ l, (r'.emit t).rows = r.rows ++ l := by
        unfold emit
        split_ifs
        · exact ⟨[r'.row], by rw [← hr]⟩
        · exact ⟨[], by rw [hr]; simp⟩
      obtain ⟨l, hl⟩ := he
      rcases ih (r'.emit t) with ⟨r'', l', h', hr'⟩ | hm
      · exact Or.inl ⟨r'', l ++ l', h', by rw [hr', hl, List.append_assoc]⟩
      · exact Or.inr hm
    · exact Or.inr ⟨m, by rw [run, h]⟩

end CsvReader

/-- **C157, refuted** for semicolons and tabulators if the name of a further column contains a comma: the comma is taken for
the delimiter, and the file is refused, whatever its rows are. -/
theorem C157_delimiter_refuted (d : Char) (hd : d ∈ [';', '\t']) (u v : Txt) (hu : ColumnName u) (hv : ColumnName v)
    (hvb : v.head? ≠ some ' ') (rows : List (List Txt)) :
    ∃ m, readPairs (writeRows d (["reference_image".toList, "modified_image".toList, u ++ ',' :: v] :: rows)) =
      .error (.valueError m) := by
  have hd1 : d ∈ [',', ';', '\t'] := by simp only [List.mem_cons] at hd ⊢; tauto
  have hd2 : d ≠ ',' ∧ d ≠ '\r' ∧ d ≠ '\n' ∧ d ≠ '"' := by
    simp only [List.mem_cons, List.not_mem_nil, or_false] at hd
    rcases hd with rfl | rfl <;> decide
  have hcol : ColumnName "reference_image".toList ∧ ColumnName "modified_image".toList := by
    unfold ColumnName; decide
  have hlast : writeField d (u ++ ',' :: v) = u ++ ',' :: v := by
    unfold writeField
    rw [if_neg]
    simp only [List.any_eq_true, not_exists, not_and]
    intro c hc
    have : c = ',' ∨ c ∉ [',', ';', '\t', '"', '\r', '\n'] := by
      rcases List.mem_append.1 hc with hc | hc
      · exact Or.inr (hu c hc)
      · rcases List.mem_cons.1 hc with rfl | hc
        · exact Or.inl rfl
        · exact Or.inr (hv c hc)
    simp only [Bool.or_eq_true, decide_eq_true_eq, not_or]
    rcases this with rfl | this
    · exact ⟨⟨⟨Ne.symm hd2.1, by decide⟩, by decide⟩, by decide⟩
    · simp only [List.mem_cons, List.not_mem_nil, or_false, not_or] at this hd
      refine ⟨⟨⟨?_, this.2.2.2.1⟩, this.2.2.2.2.1⟩, this.2.2.2.2.2⟩
      rcases hd with rfl | rfl <;> tauto
  set l : HandLine := ⟨0, "reference_image".toList ++ d :: ("modified_image".toList ++ d :: u), 0, v⟩ with hl
  have htext : writeFields d ["reference_image".toList, "modified_image".toList, u ++ ',' :: v] = l.text ',' := by
    rw [writeFields, writeFields, writeFields, writeField_column d hd1 _ hcol.1, writeField_column d hd1 _ hcol.2, hlast]
    · simp [hl, HandLine.text]
    · simp
    · simp
  have hpl : ∀ s, ColumnName s → PlainField ',' s := by
    intro s h c hc
    have := h c hc
    simp only [List.mem_cons, List.not_mem_nil, or_false, not_or] at this
    tauto
  have hname : PlainField ',' l.name1 := by
    intro c hc
    simp only [hl, List.mem_append, List.mem_cons] at hc
    rcases hc with hc | rfl | hc | rfl | hc
    · exact hpl _ hcol.1 c hc
    · exact ⟨hd2.1, hd2.2.2.2, hd2.2.1, hd2.2.2.1⟩
    · exact hpl _ hcol.2 c hc
    · exact ⟨hd2.1, hd2.2.2.2, hd2.2.1, hd2.2.2.1⟩
    · exact hpl _ hu c hc
  have hfile : writeRows d (["reference_image".toList, "modified_image".toList, u ++ ',' :: v] :: rows) =
      l.text ',' ++ LineEnd.crlf.text ++ writeRows d rows := by
    rw [writeRows, List.flatMap_cons, writeRow, if_neg (by simp), htext]
    rfl
  have hline : firstLine (l.text ',' ++ LineEnd.crlf.text ++ writeRows d rows) = l.text ',' := by
    rw [List.append_assoc]
    apply firstLine_append
    · intro c hc
      simp only [HandLine.text, hl, List.replicate_zero, List.nil_append] at hc
      rcases List.mem_append.1 hc with hc | hc
      · exact (hname c hc).2.2
      · rcases List.mem_cons.1 hc with rfl | hc
        · decide
        · exact (hpl v hv c hc).2.2
    · simp [LineEnd.text]
  have hsniff : sniff (l.text ',') = .ok (',', false) := by
    have hm : ',' ∈ l.text ',' := by simp [HandLine.text]
    unfold sniff
    rw [List.filter_cons_of_pos (by simpa using hm)]
    simp only
    rw [show l.text ',' = l.name1 ++ ',' :: v by simp [HandLine.text, hl], allSpaced_false _ _ _ hvb]
  have hrun := handLine_run ',' (by decide) false l ⟨hname, hpl v hv, Or.inl ⟨rfl, rfl, rfl⟩⟩ .crlf (writeRows d rows)
    (by simp) (by simp) []
  unfold readPairs
  rw [hfile, hline, hsniff]
  simp only
  unfold csvRows
  rw [show ({} : CsvReader) = ⟨.startRecord, [], [], []⟩ from rfl, hrun]
  rcases run_keeps ',' false false ⟨.startRecord, [], [], [] ++ [[l.name1, l.name2]]⟩ (csvTokens (writeRows d rows)) with
    ⟨r', k, h, hr⟩ | ⟨m, h⟩
  · rw [h]
    simp only
    have hf : ∃ k', r'.finish = [l.name1, l.name2] :: k' := by
      unfold finish
      split_ifs
      · rw [hr]; exact ⟨_, rfl⟩
      · rw [hr]; exact ⟨_, rfl⟩
    obtain ⟨k', hk⟩ := hf
    rw [hk, List.filter_cons_of_pos (by simp)]
    simp only
    rw [if_neg]
    · exact ⟨_, rfl⟩
    · have h1 : "reference_image".toList ≠ l.name1 := by
        intro h
        have := congrArg List.length h
        simp [hl] at this
      have h2 : "modified_image".toList ≠ l.name1 := by
        intro h
        have := congrArg List.head? h
        simp [hl] at this
      simp only [List.mem_cons, List.not_mem_nil, or_false, h1, h2, false_or]
      rintro ⟨h3, h4⟩
      rw [← h4] at h3
      revert h3; decide
  · rw [h]
    exact ⟨m, rfl⟩

example : ∃ m, readPairs "reference_image;modified_image;size,mm\r\na.png;b.png;1\r\n".toList = .error (.valueError m) :=
  C157_delimiter_refuted ';' (by decide) "size".toList "mm".toList (by unfold ColumnName; decide) (by unfold ColumnName; decide)
    (by decide) [["a.png".toList, "b.png".toList, "1".toList]]

end Viqa
