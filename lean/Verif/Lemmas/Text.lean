import Verif.Model.Loading
import Verif.Spec.Text

set_option linter.unusedSimpArgs false

/-! Helper lemmas about text processing. -/

namespace Viqa
open Spec

theorem digit_lt (n : Nat) (h : n < 10) :
    (Char.ofNat (48 + n)).isDigit = true ∧ digitVal (Char.ofNat (48 + n)) = n := by
  have : ∀ m : Fin 10, (Char.ofNat (48 + m.val)).isDigit = true ∧
      digitVal (Char.ofNat (48 + m.val)) = m.val := by decide
  exact this ⟨n, h⟩

theorem decimal_ne_nil (n : Nat) : decimal n ≠ [] := by
  rw [decimal]; split <;> simp

theorem decimal_isDigit (n : Nat) : ∀ c ∈ decimal n, c.isDigit = true := by
  induction n using decimal.induct with
  | case1 n h => rw [decimal, if_pos h]; simpa using (digit_lt n h).1
  | case2 n h ih =>
    rw [decimal, if_neg h]
    intro c hc
    rcases List.mem_append.1 hc with hc | hc
    · exact ih c hc
    · have := (digit_lt (n % 10) (Nat.mod_lt _ (by decide))).1
      simp only [List.mem_singleton] at hc
      rw [hc]; exact this

theorem digitsVal_append (a : Txt) (c : Char) :
    digitsVal (a ++ [c]) = 10 * digitsVal a + digitVal c := by
  simp [digitsVal, List.foldl_append]

theorem digitsVal_decimal (n : Nat) : digitsVal (decimal n) = n := by
  induction n using decimal.induct with
  | case1 n h =>
    rw [decimal, if_pos h]
    simpa [digitsVal] using (digit_lt n h).2
  | case2 n h ih =>
    rw [decimal, if_neg h, digitsVal_append, ih, (digit_lt (n % 10) (Nat.mod_lt _ (by decide))).2]
    omega

/-! ### Runs of digits -/

theorem takeWhile_append_of_all {p : Char → Bool} (a r : Txt) (ha : ∀ c ∈ a, p c = true)
    (hr : ∀ c, r.head? = some c → p c = false) :
    (a ++ r).takeWhile p = a ∧ (a ++ r).dropWhile p = r := by
  induction a with
  | nil =>
    cases r with
    | nil => simp
    | cons c r => have := hr c rfl; simp [List.takeWhile_cons, List.dropWhile_cons, this]
  | cons d a ih =>
    have hd := ha d (by simp)
    have := ih (fun c hc => ha c (by simp [hc]))
    simp [List.takeWhile_cons, List.dropWhile_cons, hd, this]

theorem takeDigits_append (a r : Txt) (ha : ∀ c ∈ a, c.isDigit = true)
    (hr : ∀ c, r.head? = some c → c.isDigit = false) : takeDigits (a ++ r) = (a, r) := by
  have := takeWhile_append_of_all a r ha hr
  simp [takeDigits, this]

theorem takeDigits_spec (s : Txt) : s = (takeDigits s).1 ++ (takeDigits s).2 ∧
    (∀ c ∈ (takeDigits s).1, c.isDigit = true) ∧
    (∀ c, (takeDigits s).2.head? = some c → c.isDigit = false) := by
  refine ⟨by simp [takeDigits], ?_, ?_⟩
  · intro c hc
    simp only [takeDigits] at hc
    exact List.all_eq_true.1 (List.all_takeWhile) c hc
  · intro c hc
    simp only [takeDigits] at hc
    have := List.head?_dropWhile_not Char.isDigit s
    rw [hc] at this
    simpa using this

/-- Three non-empty digit strings. -/
def IsDims (a b c : Txt) : Prop := IsNumber a ∧ IsNumber b ∧ IsNumber c

theorem matchDims_append (a b c r : Txt) (h : IsDims a b c)
    (hr : ∀ d, r.head? = some d → d.isDigit = false) :
    matchDims (a ++ 'x' :: (b ++ 'x' :: (c ++ r))) = some (a, b, c) := by
  obtain ⟨⟨ha, da⟩, ⟨hb, db⟩, ⟨hc, dc⟩⟩ := h
  simp only [matchDims]
  rw [takeDigits_append a _ da (by simp)]
  simp only [ha, if_false]
  rw [takeDigits_append b _ db (by simp)]
  simp only [hb, if_false]
  rw [takeDigits_append c _ dc hr]
  simp [hc]

theorem matchDims_some {s a b c : Txt} (h : matchDims s = some (a, b, c)) :
    IsDims a b c ∧ ∃ r, s = a ++ 'x' :: (b ++ 'x' :: (c ++ r)) ∧
      ∀ d, r.head? = some d → d.isDigit = false := by
  simp only [matchDims] at h
  obtain ⟨e1, d1, n1⟩ := takeDigits_spec s
  split at h
  · cases h
  · rename_i ha
    split at h
    · rename_i r1 hr1
      obtain ⟨e2, d2, n2⟩ := takeDigits_spec r1
      split at h
      · cases h
      · rename_i hb
        split at h
        · rename_i r2 hr2
          obtain ⟨e3, d3, n3⟩ := takeDigits_spec r2
          split at h
          · cases h
          · rename_i hc
            cases h
            refine ⟨⟨⟨ha, d1⟩, ⟨hb, d2⟩, ⟨hc, d3⟩⟩, (takeDigits r2).2, ?_, n3⟩
            rw [← e3, ← hr2, ← e2, ← hr1]; exact e1
        · cases h
    · cases h

/-- Any occurrence of the pattern at the start of a text is found (greedily, the last
number is extended as far as possible). -/
theorem matchDims_isSome_of_prefix (a b c r : Txt) (h : IsDims a b c) :
    ∃ c', matchDims (a ++ 'x' :: (b ++ 'x' :: (c ++ r))) = some (a, b, c') := by
  obtain ⟨e, d, n⟩ := takeDigits_spec r
  refine ⟨c ++ (takeDigits r).1, ?_⟩
  have hc : IsDims a b (c ++ (takeDigits r).1) := by
    obtain ⟨h1, h2, h3, h6⟩ := h
    refine ⟨h1, h2, by simp [h3], ?_⟩
    intro x hx
    rcases List.mem_append.1 hx with hx | hx
    · exact h6 x hx
    · exact d x hx
  have := matchDims_append a b _ (takeDigits r).2 hc n
  rw [List.append_assoc, ← e] at this
  exact this

theorem matchDims_head {s : Txt} (h : ∀ c, s.head? = some c → c.isDigit = false) :
    matchDims s = none := by
  cases s with
  | nil => rfl
  | cons c s =>
    have hc : c.isDigit = false := h c rfl
    simp [matchDims, takeDigits, List.takeWhile_cons, hc]

theorem searchDims_prefix (pre s : Txt) (h : ∀ c ∈ pre, c.isDigit = false) :
    searchDims (pre ++ s) = searchDims s := by
  induction pre with
  | nil => rfl
  | cons c pre ih =>
    have hc := h c (by simp)
    rw [List.cons_append, searchDims, matchDims_head (by simp [hc])]
    exact ih (fun d hd => h d (by simp [hd]))

theorem searchDims_of_match {s : Txt} {m} (hs : matchDims s = some m) : searchDims s = some m := by
  cases s with
  | nil => simp [matchDims, takeDigits] at hs
  | cons c s => rw [searchDims, hs]

theorem searchDims_some {s a b c : Txt} (h : searchDims s = some (a, b, c)) :
    IsDims a b c ∧ ∃ pre r, s = pre ++ (a ++ 'x' :: (b ++ 'x' :: (c ++ r))) := by
  induction s with
  | nil => simp [searchDims] at h
  | cons x s ih =>
    rw [searchDims] at h
    split at h
    · rename_i m hm
      cases h
      obtain ⟨h1, r, h2, -⟩ := matchDims_some hm
      exact ⟨h1, [], r, by simpa using h2⟩
    · obtain ⟨h1, pre, r, h2⟩ := ih h
      exact ⟨h1, x :: pre, r, by simp [h2]⟩

theorem searchDims_isSome (pre a b c r : Txt) (h : IsDims a b c) :
    (searchDims (pre ++ (a ++ 'x' :: (b ++ 'x' :: (c ++ r))))).isSome := by
  induction pre with
  | nil =>
    obtain ⟨c', hc⟩ := matchDims_isSome_of_prefix a b c r h
    rw [List.nil_append, searchDims_of_match hc]; rfl
  | cons x pre ih =>
    rw [List.cons_append, searchDims]
    split
    · rfl
    · exact ih

/-! ### Bit depth -/

theorem matchBitTail_some {s t : Txt} (h : matchBitTail s = some t) :
    t ∈ bitTails ∧ ∃ r, s = t ++ r := by
  unfold matchBitTail at h
  simp only at h
  split at h
  all_goals
    split at h
    · simp only [Option.some.injEq] at h
      subst h
      refine ⟨by decide, ?_⟩
      exact ⟨_, rfl⟩
    · simp only [Option.some.injEq] at h
      subst h
      refine ⟨by decide, ?_⟩
      exact ⟨_, rfl⟩
    · cases h

theorem matchBitTail_isSome (t r : Txt) (h : t ∈ bitTails) : (matchBitTail (t ++ r)).isSome := by
  simp only [bitTails, List.mem_cons, List.not_mem_nil, or_false] at h
  rcases h with h | h | h | h | h | h <;> subst h <;>
    simp only [List.cons_append, List.nil_append, matchBitTail] <;> (try split) <;> (try split) <;>
    (try subst_vars) <;> simp_all

theorem matchBitTail_eq (t r : Txt) (h : t ∈ bitTails) (hr : r.head? ≠ some 's') :
    matchBitTail (t ++ r) = some t := by
  simp only [bitTails, List.mem_cons, List.not_mem_nil, or_false] at h
  cases r with
  | nil => rcases h with h | h | h | h | h | h <;> subst h <;> rfl
  | cons c r =>
    have hc : c ≠ 's' := by simpa using hr
    rcases h with h | h | h | h | h | h <;> subst h <;>
      simp only [List.cons_append, List.nil_append, matchBitTail] <;> (try split) <;>
      (try split) <;> simp_all <;> (rename_i hx he; exact hx _ he.symm)

theorem matchBitTail_none (c : Char) (s : Txt) (h : c ≠ 'f' ∧ c ≠ 'u' ∧ c ≠ 'b') :
    matchBitTail (c :: s) = none := by
  rcases hm : matchBitTail (c :: s) with _ | t
  · rfl
  · obtain ⟨ht, r, hr⟩ := matchBitTail_some hm
    simp only [bitTails, List.mem_cons, List.not_mem_nil, or_false] at ht
    rcases ht with ht | ht | ht | ht | ht | ht <;> subst ht <;> simp_all

theorem isDigit_ne {c : Char} (h : c.isDigit = true) :
    c ≠ 'f' ∧ c ≠ 'u' ∧ c ≠ 'b' ∧ c ≠ 'x' ∧ c ≠ '_' ∧ c ≠ '.' ∧ c ≠ ' ' ∧ c ≠ '\t' ∧ c ≠ '\n' ∧
      c ≠ '\r' ∧ c ≠ '-' ∧ c ≠ '+' ∧ c ≠ '=' := by
  refine ⟨?_, ?_, ?_, ?_, ?_, ?_, ?_, ?_, ?_, ?_, ?_, ?_, ?_⟩ <;> (rintro rfl; revert h; decide)

theorem matchBits_some {s t : Txt} (h : matchBits s = some t) : IsBits t ∧ ∃ r, s = t ++ r := by
  unfold matchBits at h
  split at h
  · cases h
  · rename_i d r
    split at h
    · rename_i hd
      simp only at h
      split at h
      · rename_i m hm
        cases h
        split at hm
        · rename_i e r'
          split at hm
          · rename_i he
            simp only [Option.map_eq_some_iff] at hm
            obtain ⟨tl, htl, rfl⟩ := hm
            obtain ⟨h1, q, h2⟩ := matchBitTail_some htl
            refine ⟨⟨[d, e], tl, by simp, h1, ?_, by simp⟩, q, by simp [h2]⟩
            simp [hd, he]
          · cases hm
        · cases hm
      · simp only [Option.map_eq_some_iff] at h
        obtain ⟨tl, htl, rfl⟩ := h
        obtain ⟨h1, q, h2⟩ := matchBitTail_some htl
        refine ⟨⟨[d], tl, by simp, h1, ?_, by simp⟩, q, by simp [h2]⟩
        simp [hd]
    · cases h

theorem matchBits_isSome (t r : Txt) (h : IsBits t) : (matchBits (t ++ r)).isSome := by
  obtain ⟨ds, tail, rfl, ht, hd, hl⟩ := h
  have h1 := matchBitTail_isSome tail r ht
  rcases ds with _ | ⟨d, _ | ⟨e, _ | ⟨f, ds⟩⟩⟩
  · simp at hl
  · have hd' : d.isDigit = true := hd d (by simp)
    simp only [List.cons_append, List.nil_append, matchBits, hd', if_true]
    split
    · rfl
    · simpa using h1
  · have hd' : d.isDigit = true := hd d (by simp)
    have he' : e.isDigit = true := hd e (by simp)
    simp only [List.cons_append, List.nil_append, matchBits, hd', he', if_true]
    obtain ⟨x, hx⟩ := Option.isSome_iff_exists.1 h1
    simp [hx]
  · simp at hl

/-- A bit depth that is not followed by `s` is matched as a whole. -/
theorem matchBits_eq (ds tail r : Txt) (ht : tail ∈ bitTails) (hd : ∀ c ∈ ds, c.isDigit = true)
    (hl : ds.length = 1 ∨ ds.length = 2) (hr : r.head? ≠ some 's') :
    matchBits (ds ++ (tail ++ r)) = some (ds ++ tail) := by
  have h1 := matchBitTail_eq tail r ht hr
  rcases ds with _ | ⟨d, _ | ⟨e, _ | ⟨f, ds⟩⟩⟩
  · simp at hl
  · have hd' : d.isDigit = true := hd d (by simp)
    simp only [List.cons_append, List.nil_append, matchBits, hd', if_true, h1]
    split
    · rename_i m hm
      exfalso
      have hcons : ∃ c q, tail ++ r = c :: q ∧ c.isDigit = false := by
        simp only [bitTails, List.mem_cons, List.not_mem_nil, or_false] at ht
        rcases ht with h | h | h | h | h | h <;> subst h <;> exact ⟨_, _, rfl, by decide⟩
      obtain ⟨c, q, hcq, hc⟩ := hcons
      rw [hcq] at hm
      simp [hc] at hm
    · simp
  · have hd' : d.isDigit = true := hd d (by simp)
    have he' : e.isDigit = true := hd e (by simp)
    simp [matchBits, hd', he', h1]
  · simp at hl

theorem matchBits_nondigit {s : Txt} (h : ∀ c, s.head? = some c → c.isDigit = false) :
    matchBits s = none := by
  cases s with
  | nil => rfl
  | cons c s =>
    have hc : c.isDigit = false := h c rfl
    simp [matchBits, hc]

theorem searchBits_prefix (pre s : Txt) (h : ∀ c ∈ pre, c.isDigit = false) :
    searchBits (pre ++ s) = searchBits s := by
  induction pre with
  | nil => rfl
  | cons c pre ih =>
    have hc := h c (by simp)
    rw [List.cons_append, searchBits, matchBits_nondigit (by simp [hc])]
    exact ih (fun d hd => h d (by simp [hd]))

/-- A run of digits followed by `x` or `_` contains no bit depth. -/
theorem searchBits_digits (ds : Txt) (c : Char) (s : Txt) (hds : ∀ d ∈ ds, d.isDigit = true)
    (hc : c = 'x' ∨ c = '_') : searchBits (ds ++ c :: s) = searchBits s := by
  have hcd : c.isDigit = false := by rcases hc with rfl | rfl <;> decide
  have hcn : matchBitTail (c :: s) = none :=
    matchBitTail_none c s (by rcases hc with rfl | rfl <;> decide)
  induction ds with
  | nil => rw [List.nil_append, searchBits, matchBits_nondigit (by simp [hcd])]
  | cons d ds ih =>
    have hd := hds d (by simp)
    have ih := ih (fun e he => hds e (by simp [he]))
    rw [List.cons_append, searchBits]
    have : matchBits (d :: (ds ++ c :: s)) = none := by
      cases ds with
      | nil => simp [matchBits, hd, hcd, hcn]
      | cons e ds =>
        have he := hds e (by simp)
        have h2 : matchBitTail (e :: (ds ++ c :: s)) = none :=
          matchBitTail_none _ _ ⟨(isDigit_ne he).1, (isDigit_ne he).2.1, (isDigit_ne he).2.2.1⟩
        have h3 : matchBitTail (ds ++ c :: s) = none := by
          cases ds with
          | nil => exact hcn
          | cons f ds =>
            have hf := hds f (by simp)
            exact matchBitTail_none _ _ ⟨(isDigit_ne hf).1, (isDigit_ne hf).2.1, (isDigit_ne hf).2.2.1⟩
        simp [matchBits, hd, he, h2, h3]
    rw [this]
    exact ih

theorem searchBits_of_match {s : Txt} {m} (hs : matchBits s = some m) : searchBits s = some m := by
  cases s with
  | nil => simp [matchBits] at hs
  | cons c s => rw [searchBits, hs]

theorem searchBits_some {s t : Txt} (h : searchBits s = some t) :
    IsBits t ∧ ∃ pre r, s = pre ++ (t ++ r) := by
  induction s with
  | nil => simp [searchBits] at h
  | cons x s ih =>
    rw [searchBits] at h
    split at h
    · rename_i m hm
      cases h
      obtain ⟨h1, r, h2⟩ := matchBits_some hm
      exact ⟨h1, [], r, by simpa using h2⟩
    · obtain ⟨h1, pre, r, h2⟩ := ih h
      exact ⟨h1, x :: pre, r, by simp [h2]⟩

theorem searchBits_isSome (pre t r : Txt) (h : IsBits t) :
    (searchBits (pre ++ (t ++ r))).isSome := by
  induction pre with
  | nil =>
    obtain ⟨m, hm⟩ := Option.isSome_iff_exists.1 (matchBits_isSome t r h)
    rw [List.nil_append, searchBits_of_match hm]; rfl
  | cons x pre ih =>
    rw [List.cons_append, searchBits]
    split
    · rfl
    · exact ih

/-! ### splitext -/

theorem splitLast_append (c : Char) (root ext : Txt) (h : c ∉ ext) :
    splitLast c (root ++ c :: ext) = some (root, c :: ext) := by
  have hn : splitLast c ext = none := by
    induction ext with
    | nil => rfl
    | cons e ext ih =>
      simp only [List.mem_cons, not_or] at h
      rw [splitLast, ih h.2]
      simp [Ne.symm h.1]
  induction root with
  | nil => rw [List.nil_append, splitLast, hn]; simp
  | cons r root ih => rw [List.cons_append, splitLast, ih]

theorem splitLast_none (c : Char) (s : Txt) (h : c ∉ s) : splitLast c s = none := by
  induction s with
  | nil => rfl
  | cons e s ih =>
    simp only [List.mem_cons, not_or] at h
    rw [splitLast, ih h.2]
    simp [Ne.symm h.1]

theorem splitext_append (root ext : Txt) (h : '.' ∉ ext) (hr : ∃ c ∈ root, c ≠ '.') :
    splitext (root ++ '.' :: ext) = (root, '.' :: ext) := by
  obtain ⟨c, hc, hc'⟩ := hr
  have : root.any (· ≠ '.') = true := List.any_eq_true.2 ⟨c, hc, by simpa using hc'⟩
  unfold splitext
  rw [splitLast_append '.' root ext h]
  simp only [this, if_true]

theorem splitext_dots (root ext : Txt) (h : '.' ∉ ext) (hr : ∀ c ∈ root, c = '.') :
    splitext (root ++ '.' :: ext) = (root ++ '.' :: ext, []) := by
  have : root.any (· ≠ '.') = false := by
    rw [List.any_eq_false]; intro x hx; simp [hr x hx]
  unfold splitext
  rw [splitLast_append '.' root ext h]
  simp only [this]
  simp

theorem splitext_none (s : Txt) (h : '.' ∉ s) : splitext s = (s, []) := by
  unfold splitext
  rw [splitLast_none '.' s h]

end Viqa
