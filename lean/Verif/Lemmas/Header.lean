import Verif.Lemmas.Text
import Verif.Spec.Header

set_option linter.unusedSimpArgs false

/-! Helper lemmas about mhd headers. -/

namespace Viqa
open Spec

theorem splitEq_ne_nil (s : Txt) : splitEq s ≠ [] := by
  fun_induction splitEq s <;> simp

theorem splitEq_nosep (v : Txt) (h : ¬ HasSep v) : splitEq v = [v] := by
  fun_induction splitEq v with
  | case1 cs ih => exact absurd ⟨[], cs, rfl⟩ h
  | case2 => rfl
  | case3 c cs hne hs ih => exact absurd hs (splitEq_ne_nil cs)
  | case4 c cs hne p ps hs ih =>
    have : ¬ HasSep cs := fun ⟨a, b, hab⟩ => h ⟨c :: a, b, by simp [hab]⟩
    rw [ih this] at hs
    cases hs
    rfl

theorem splitEq_entry (k v : Txt) (hk : '=' ∉ k) (hv : ¬ HasSep v) :
    splitEq (k ++ (eqSep ++ v)) = [k, v] := by
  induction k with
  | nil =>
    simp only [eqSep, List.nil_append, List.cons_append]
    rw [splitEq, splitEq_nosep v hv]
  | cons c k ih =>
    simp only [List.mem_cons, not_or] at hk
    have ih := ih hk.2
    rw [List.cons_append, splitEq, ih]
    · intro cs hc hcs
      subst hc
      cases k with
      | nil => simp [eqSep] at hcs
      | cons d k =>
        simp only [List.cons_append, List.cons.injEq] at hcs
        exact hk.2 (by simp [hcs.1])

theorem headerEntry_good (e : Txt × Txt) (h : GoodEntry e) :
    headerEntry (headerLine e) = .ok e := by
  unfold headerEntry headerLine
  rw [splitEq_entry e.1 e.2 h.1 h.2.1]

theorem splitChar_ne_nil (c : Char) (s : Txt) : splitChar c s ≠ [] := by
  induction s with
  | nil => simp [splitChar]
  | cons d s ih =>
    rw [splitChar]; split
    · simp
    · split <;> simp

theorem splitChar_line (c : Char) (l r : Txt) (h : c ∉ l) :
    splitChar c (l ++ c :: r) = l :: splitChar c r := by
  induction l with
  | nil => simp [splitChar]
  | cons d l ih =>
    simp only [List.mem_cons, not_or] at h
    rw [List.cons_append, splitChar, if_neg (Ne.symm h.1), ih h.2]

theorem splitChar_none (c : Char) (l : Txt) (h : c ∉ l) : splitChar c l = [l] := by
  induction l with
  | nil => simp [splitChar]
  | cons d l ih =>
    simp only [List.mem_cons, not_or] at h
    rw [splitChar, if_neg (Ne.symm h.1), ih h.2]

theorem headerLine_nonl (e : Txt × Txt) (h : GoodEntry e) : '\n' ∉ headerLine e := by
  obtain ⟨-, -, h1, h2⟩ := h
  simp [headerLine, eqSep, h1, h2]

/-- Splitting a header text followed by a last, unterminated line. -/
theorem splitChar_header (es : List (Txt × Txt)) (h : ∀ e ∈ es, GoodEntry e) (l : Txt)
    (hl : '\n' ∉ l) :
    splitChar '\n' (headerText es ++ l) = es.map headerLine ++ [l] := by
  induction es with
  | nil => simpa [headerText] using splitChar_none '\n' l hl
  | cons e es ih =>
    have he := headerLine_nonl e (h e (by simp))
    have ih := ih (fun e he => h e (by simp [he]))
    simp only [headerText, List.flatMap_cons, List.append_assoc, List.cons_append, List.nil_append,
      List.map_cons] at ih ⊢
    rw [splitChar_line '\n' _ _ he, ih]

theorem mapM_headerEntry (es : List (Txt × Txt)) (h : ∀ e ∈ es, GoodEntry e) :
    (es.map headerLine).mapM headerEntry = .ok es := by
  induction es with
  | nil => rfl
  | cons e es ih =>
    rw [List.map_cons, List.mapM_cons, headerEntry_good e (h e (by simp)),
      ih (fun e he => h e (by simp [he]))]
    rfl

/-- Header lines that are terminated by a newline are read, an unterminated last line is
ignored. -/
theorem parseHeader_text (es : List (Txt × Txt)) (h : ∀ e ∈ es, GoodEntry e) (l : Txt)
    (hl : '\n' ∉ l) : parseHeader (headerText es ++ l) = .ok es := by
  unfold parseHeader
  rw [splitChar_header es h l hl, List.dropLast_concat, mapM_headerEntry es h]

theorem nodup_fst_unique {α β} (es : List (α × β)) (hn : (es.map Prod.fst).Nodup) (a b : α × β)
    (ha : a ∈ es) (hb : b ∈ es) (hk : a.1 = b.1) : a = b := by
  induction es with
  | nil => simp at ha
  | cons e es ih =>
    simp only [List.map_cons, List.nodup_cons, List.mem_map, not_exists, not_and] at hn
    rcases List.mem_cons.1 ha with ha | ha <;> rcases List.mem_cons.1 hb with hb | hb
    · rw [ha, hb]
    · exact absurd (by rw [← hk, ha]) (hn.1 b hb)
    · exact absurd (by rw [hk, hb]) (hn.1 a ha)
    · exact ih hn.2 ha hb

theorem headerGet_mem (es : List (Txt × Txt)) (hn : (es.map Prod.fst).Nodup) (key : String) (v : Txt)
    (h : (key.toList, v) ∈ es) : headerGet es key = .ok v := by
  have h2 : ∀ (l : List (Txt × Txt)), (∀ e ∈ l, e ∈ es) → (key.toList, v) ∈ l →
      l.find? (fun e => decide (e.1 = key.toList)) = some (key.toList, v) := by
    intro l hl hm
    induction l with
    | nil => simp at hm
    | cons e l ih =>
      by_cases hk : e.1 = key.toList
      · have : e = (key.toList, v) := nodup_fst_unique es hn _ _ (hl e (by simp)) h hk
        rw [List.find?_cons_of_pos (by simpa using hk), this]
      · rw [List.find?_cons_of_neg (by simpa using hk)]
        apply ih (fun e he => hl e (by simp [he]))
        rcases List.mem_cons.1 hm with hm | hm
        · exact absurd (by rw [← hm]) hk
        · exact hm
  unfold headerGet
  rw [h2 es.reverse (by simp) (by simpa using h)]

theorem headerGet_not_mem (es : List (Txt × Txt)) (key : String)
    (h : key.toList ∉ es.map Prod.fst) : headerGet es key = .error (.keyError key) := by
  unfold headerGet
  have : es.reverse.find? (fun e => decide (e.1 = key.toList)) = none := by
    rw [List.find?_eq_none]
    intro e he
    simp only [List.mem_reverse] at he
    simp only [decide_eq_true_eq]
    intro hk
    exact h (List.mem_map.2 ⟨e, he, hk⟩)
  rw [this]

theorem splitWs_word (w r : Txt) (hw : w ≠ []) (hd : ∀ c ∈ w, c.isDigit = true)
    (hr : r = [] ∨ ∃ r', r = ' ' :: r') : splitWs (w ++ r) = w :: splitWs r := by
  induction w with
  | nil => exact absurd rfl hw
  | cons c w ih =>
    have hc := isDigit_ne (hd c (by simp))
    have hcw : ¬ (c = ' ' ∨ c = '\t' ∨ c = '\n' ∨ c = '\r') := by
      simp only [not_or]; exact ⟨hc.2.2.2.2.2.2.1, hc.2.2.2.2.2.2.2.1, hc.2.2.2.2.2.2.2.2.1,
        hc.2.2.2.2.2.2.2.2.2.1⟩
    cases w with
    | nil =>
      rcases hr with hr | ⟨r', hr⟩ <;> subst hr
      · simp [splitWs, hcw]
      · rw [List.cons_append, List.nil_append, splitWs.eq_def]
        simp only [hcw, if_false]
        simp
    | cons d w =>
      have hd' := isDigit_ne (hd d (by simp))
      have hdw : ¬ (d = ' ' ∨ d = '\t' ∨ d = '\n' ∨ d = '\r') := by
        simp only [not_or]; exact ⟨hd'.2.2.2.2.2.2.1, hd'.2.2.2.2.2.2.2.1, hd'.2.2.2.2.2.2.2.2.1,
          hd'.2.2.2.2.2.2.2.2.2.1⟩
      have ih := ih (by simp) (fun e he => hd e (by simp [he]))
      rw [List.cons_append] at ih
      rw [List.cons_append, List.cons_append, splitWs.eq_def]
      simp only [hcw, hdw, if_false]
      rw [ih]

theorem splitWs_sizes (ns : List Nat) : splitWs (sizesText ns) = ns.map decimal := by
  induction ns with
  | nil => rfl
  | cons n ns ih =>
    cases ns with
    | nil =>
      have := splitWs_word (decimal n) [] (decimal_ne_nil n) (decimal_isDigit n) (Or.inl rfl)
      simpa [sizesText, splitWs] using this
    | cons m ns =>
      have := splitWs_word (decimal n) (' ' :: sizesText (m :: ns)) (decimal_ne_nil n)
        (decimal_isDigit n) (Or.inr ⟨_, rfl⟩)
      rw [sizesText]
      · rw [this, splitWs.eq_def]
        simp [ih]
      · simp

theorem parseInt_decimal (n : Nat) : parseInt (decimal n) = .ok (n : Int) := by
  have hd := decimal_isDigit n
  have hn := decimal_ne_nil n
  have hv := digitsVal_decimal n
  generalize decimal n = s at *
  cases s with
  | nil => exact absurd rfl hn
  | cons c s =>
    have hc := isDigit_ne (hd c (by simp))
    have hall : (c :: s).all Char.isDigit = true := List.all_eq_true.2 hd
    unfold parseInt
    split
    · rename_i ds heq; cases heq; exact absurd rfl hc.2.2.2.2.2.2.2.2.2.2.1
    · rename_i ds heq; cases heq; exact absurd rfl hc.2.2.2.2.2.2.2.2.2.2.2.1
    · simp only [hv]; rw [if_pos ⟨by simp, hall⟩]; simp

theorem mapM_parseInt (ns : List Nat) :
    (ns.map decimal).mapM parseInt = .ok (ns.map (fun n : Nat => (n : Int))) := by
  induction ns with
  | nil => rfl
  | cons n ns ih => rw [List.map_cons, List.mapM_cons, parseInt_decimal, ih]; rfl

end Viqa
