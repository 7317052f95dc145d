import Verif.Props.Loading

/-!
More on the size check of binary data (C02): sizes with a sign in an mhd header.
-/

namespace Viqa

open Spec

/-- White space as used by `str.split()`. -/
def Blank (c : Char) : Prop := c = ' ' ∨ c = '\t' ∨ c = '\n' ∨ c = '\r'

theorem splitWs_nonblank (w r : Txt) (hw : w ≠ []) (hd : ∀ c ∈ w, ¬ Blank c)
    (hr : r = [] ∨ ∃ r', r = ' ' :: r') : splitWs (w ++ r) = w :: splitWs r := by
  induction w with
  | nil => exact absurd rfl hw
  | cons c w ih =>
    have hcw : ¬ (c = ' ' ∨ c = '\t' ∨ c = '\n' ∨ c = '\r') := hd c (by simp)
    cases w with
    | nil =>
      rcases hr with hr | ⟨r', hr⟩ <;> subst hr
      · simp [splitWs, hcw]
      · rw [List.cons_append, List.nil_append, splitWs.eq_def]
        simp only [hcw, if_false]
        simp
    | cons d w =>
      have hdw : ¬ (d = ' ' ∨ d = '\t' ∨ d = '\n' ∨ d = '\r') := hd d (by simp)
      have ih := ih (by simp) (fun e he => hd e (by simp [he]))
      rw [List.cons_append] at ih
      rw [List.cons_append, List.cons_append, splitWs.eq_def]
      simp only [hcw, hdw, if_false]
      rw [ih]

/-- Decimal notation of an integer. -/
def Spec.intText (n : Int) : List Char := if n < 0 then '-' :: decimal n.natAbs else decimal n.natAbs

/-- Integers separated by blanks. -/
def Spec.intsText : List Int → List Char
  | [] => []
  | [n] => intText n
  | n :: ns => intText n ++ ' ' :: intsText ns

theorem intText_nonblank (n : Int) : ∀ c ∈ intText n, ¬ Blank c := by
  have hdec : ∀ c ∈ decimal n.natAbs, ¬ Blank c := by
    intro c hc hb
    have := decimal_isDigit _ c hc
    rcases hb with h | h | h | h <;> subst h <;> exact absurd this (by decide)
  intro c hc
  unfold intText at hc
  split at hc
  · rcases List.mem_cons.1 hc with h | h
    · subst h; unfold Blank; decide
    · exact hdec c h
  · exact hdec c hc

theorem intText_ne_nil (n : Int) : intText n ≠ [] := by
  unfold intText
  split
  · simp
  · exact decimal_ne_nil _

theorem splitWs_ints (ns : List Int) : splitWs (intsText ns) = ns.map intText := by
  induction ns with
  | nil => rfl
  | cons n ns ih =>
    cases ns with
    | nil =>
      have := splitWs_nonblank (intText n) [] (intText_ne_nil n) (intText_nonblank n) (Or.inl rfl)
      simpa [intsText, splitWs] using this
    | cons m ns =>
      have := splitWs_nonblank (intText n) (' ' :: intsText (m :: ns)) (intText_ne_nil n)
        (intText_nonblank n) (Or.inr ⟨_, rfl⟩)
      rw [intsText]
      · rw [this, splitWs.eq_def]
        simp [ih]
      · simp

theorem parseInt_intText (n : Int) : parseInt (intText n) = .ok n := by
  unfold intText
  split
  · rename_i hn
    have h1 : decimal n.natAbs ≠ [] := decimal_ne_nil _
    have h2 : (decimal n.natAbs).all Char.isDigit = true := List.all_eq_true.2 (decimal_isDigit _)
    unfold parseInt
    simp only
    rw [if_pos ⟨h1, h2⟩, digitsVal_decimal]
    congr 1
    omega
  · rw [parseInt_decimal]
    congr 1
    omega

theorem mapM_parseInt_ints (ns : List Int) : (ns.map intText).mapM parseInt = .ok ns := by
  induction ns with
  | nil => rfl
  | cons n ns ih => rw [List.map_cons, List.mapM_cons, parseInt_intText, ih]; rfl

/-- **C02.** A negative size is refused: whatever the data file contains, an mhd file that declares one is not loaded
(sizes that fit into 64 bit, existing data file, supported type: ValueError). -/
theorem C02_negative_size (es : List (Txt × Txt)) (file type : Txt) (ns : List Int) (dt : DType) (fs : FileSystem) (dir : Txt)
    (bytes : List UInt8)
    (hg : ∀ e ∈ es, GoodEntry e) (hn : (es.map Prod.fst).Nodup)
    (hfile : ("ElementDataFile".toList, file) ∈ es)
    (hdim : ("DimSize".toList, intsText ns) ∈ es)
    (htype : ("ElementType".toList, type) ∈ es) (hdt : elementType (String.ofList type) = .ok dt)
    (hfs : fs (pathJoin dir file) = some bytes) (hlt : ∀ n ∈ ns, n < 2 ^ 63) (hneg : ∃ n ∈ ns, n < 0) :
    ∃ msg, loadMhd fs dir (headerText es) = .error (.valueError msg) := by
  have hp : parseMhd (headerText es) = .ok (file, ns, dt) := by
    have h1 := parseHeader_text es hg [] (by simp)
    rw [List.append_nil] at h1
    unfold parseMhd
    rw [h1]
    simp only [bind, Except.bind, headerGet_mem es hn _ _ hfile, headerGet_mem es hn _ _ hdim,
      headerGet_mem es hn _ _ htype, splitWs_ints, mapM_parseInt_ints, hdt]
  unfold loadMhd
  rw [hp]
  simp only [readFile, hfs]
  unfold loadBinary
  simp only
  rw [if_neg (by
    simp only [List.any_eq_true, decide_eq_true_eq, not_exists, not_and]
    intro n hm
    have := hlt n hm
    omega)]
  split
  · rename_i h
    split at h
    · cases h; exact ⟨_, rfl⟩
    · rw [if_pos (Or.inl (by
        obtain ⟨n, hm, hlt⟩ := hneg
        simp only [List.any_eq_true, decide_eq_true_eq]
        exact ⟨n, hm, hlt⟩))] at h
      cases h; exact ⟨_, rfl⟩
  · rename_i h
    split at h
    · cases h
    · rw [if_pos (Or.inl (by
        obtain ⟨n, hm, hlt⟩ := hneg
        simp only [List.any_eq_true, decide_eq_true_eq]
        exact ⟨n, hm, hlt⟩))] at h
      cases h

/-- Non-trivial case: the product of the sizes is the number of items. -/
example : intsText [-2, -3, 1] = "-2 -3 1".toList ∧
    loadBinary [10, 11, 12, 13, 14, 15] .u8 [-2, -3, 1] = .error (.valueError "cannot reshape array") := by
  constructor
  · decide +kernel
  · rfl

/-! ### Directories -/

/-- **C03.** The directory may be given with or without a final slash, and the empty directory stands for the working
directory: files are looked up at `directory/name`, or at `name`. -/
theorem C03_directory (fs : FileSystem) (dir name : Txt) (hn : name.head? ≠ some '/') (hd : dir ≠ [])
    (hs : dir.getLast? ≠ some '/') (bytes : List UInt8) (dims : List Int) (dt : DType) (v : NDArray Nat)
    (hname : parseRawName name = .ok (dims, dt)) (hv : loadBinary bytes dt dims = .ok v) :
    (fs (dir ++ ['/'] ++ name) = some bytes → loadRaw fs dir name = .ok (dt, v) ∧
      loadRaw fs (dir ++ ['/']) name = .ok (dt, v)) ∧
    (fs name = some bytes → loadRaw fs [] name = .ok (dt, v)) := by
  have key : ∀ d : Txt, pathJoin d name = if d = [] ∨ d.getLast? = some '/' then d ++ name else d ++ '/' :: name := by
    intro d
    unfold pathJoin
    split
    · exact absurd rfl hn
    · rfl
  have hload : ∀ d : Txt, fs (pathJoin d name) = some bytes → loadRaw fs d name = .ok (dt, v) := by
    intro d h
    unfold loadRaw
    rw [hname]
    simp only [readFile, h, hv]
  refine ⟨fun h => ⟨hload dir ?_, hload _ ?_⟩, fun h => hload [] ?_⟩
  · rw [key, if_neg (by simp [hd, hs])]
    simpa using h
  · rw [key, if_pos (Or.inr (by simp))]
    exact h
  · rw [key, if_pos (Or.inl rfl)]
    exact h

/-- The same file from `data`, from `data/` and from the working directory. -/
example : ∃ v, loadBinary [7, 9] .u8 [2, 1, 1] = .ok v ∧
    loadRaw (fun p => if p = "data/a_2x1x1_8bit.raw".toList then some [7, 9] else none) "data".toList "a_2x1x1_8bit.raw".toList = .ok (.u8, v) ∧
    loadRaw (fun p => if p = "data/a_2x1x1_8bit.raw".toList then some [7, 9] else none) "data/".toList "a_2x1x1_8bit.raw".toList = .ok (.u8, v) := by
  obtain ⟨v, hv⟩ : ∃ v, loadBinary [7, 9] .u8 [2, 1, 1] = .ok v := ⟨_, rfl⟩
  exact ⟨v, hv, (C03_directory _ "data".toList _ (by decide) (by decide) (by decide) _ _ _ v (by decide) hv).1 (if_pos (by decide))⟩

end Viqa
