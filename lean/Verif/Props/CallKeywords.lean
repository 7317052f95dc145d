import Verif.Model.CallKeywords
import Verif.Props.Keywords

/-!
C174: keywords of `calculate` and `report`.
-/

namespace Viqa

/-- The keywords documented for `calculate`, with those of `load_data` it says it passes on. -/
def Spec.calculateKeywords : List String := ["scaling_order", "roi", "data_range", "normalize", "batch"]

theorem load_bind_ok (kw : List String) (h : ∀ k ∈ kw, k ∈ ["data_range", "normalize", "batch"]) :
    loadSignature.bind 1 [] kw = .ok [] := by
  have h3 : ∀ k ∈ ["data_range", "normalize", "batch"], k ∉ loadSignature.params.take 1 := by decide
  have h4 : ∀ k ∈ ["data_range", "normalize", "batch"], k ∈ loadSignature.params := by decide
  rw [Signature.bind_ok _ _ _ _ (by simp) (by simp) (fun k hk => h3 k (h k hk))
    (.inr ⟨by simp, fun k hk => h4 k (h k hk)⟩)]
  congr 1
  rw [List.filter_eq_nil_iff]
  intro k hk
  have := h4 k (h k (by simpa using hk))
  simpa using this

theorem checkImgs_ok (kw : List String) (h : ∀ k ∈ kw, k ∈ ["data_range", "normalize", "batch"]) :
    checkImgsKeywords kw = .ok [] := by
  have h3 : ∀ k ∈ ["data_range", "normalize", "batch"], k ∉ (["img_r", "img_m"] : List String).take 2 := by decide
  unfold checkImgsKeywords
  rw [Signature.bind_ok _ _ _ _ (by simp) (by simp) (fun k hk => h3 k (h k hk)) (.inl rfl)]
  show loadSignature.bind 1 [] _ = _
  apply load_bind_ok
  intro k hk
  have := (List.mem_filter.1 (List.mem_filter.1 hk).1).1
  exact h k (by simpa using this)

theorem calc_ok (named kw : List String) (hn : ∀ k ∈ named, k ∈ calcPopped) (hd : ∀ k ∈ kw, k ∉ named)
    (h : ∀ k ∈ kw, k ∈ Spec.calculateKeywords) : calcKeywords named kw = .ok [] := by
  have h2 : ∀ k ∈ calcPopped, k ∉ calcSignature.params.take 4 := by decide
  have h3 : ∀ k ∈ Spec.calculateKeywords, k ∉ calcSignature.params.take 4 := by decide
  unfold calcKeywords
  rw [Signature.bind_ok _ _ _ _ hd (fun k hk => h2 k (hn k hk)) (fun k hk => h3 k (h k hk)) (.inl rfl)]
  have hrest : ∀ k ∈ ((named ++ kw).filter (fun k => !calcSignature.params.contains k)).filter
      (fun k => !calcPopped.contains k), k ∈ ["data_range", "normalize", "batch"] := by
    intro k hk
    obtain ⟨hk1, hk2⟩ := List.mem_filter.1 hk
    have hk3 : k ∉ calcPopped := by simpa using hk2
    rcases List.mem_append.1 (List.mem_filter.1 hk1).1 with hm | hm
    · exact absurd (hn k hm) hk3
    · have := h k hm
      revert hk3
      simp only [Spec.calculateKeywords, List.mem_cons, List.not_mem_nil, or_false] at this
      rcases this with rfl | rfl | rfl | rfl | rfl <;> decide
  show ((loadSignature.bind 1 [] _).bind fun _ => _) = _
  rw [load_bind_ok _ hrest]
  show ((checkImgsKeywords _).bind fun _ => _) = _
  rw [checkImgs_ok _ hrest]
  rfl

/-- **C174, partial.** Every documented keyword of `calculate` is accepted and read, for `MultipleMetrics` and, if there
is a pair, for `BatchMetrics`. -/
theorem C174_documented_partial (kws : List String) (h : ∀ k ∈ kws, k ∈ Spec.calculateKeywords) :
    multipleCalculateKeywords kws = .ok [] ∧ ∀ pairs ≠ 0, batchCalculateKeywords pairs kws = .ok [] := by
  constructor
  · have h3 : ∀ k ∈ Spec.calculateKeywords, k ∉ (["self", "img_r", "img_m"] : List String) := by decide
    unfold multipleCalculateKeywords
    rw [Signature.bind_ok ⟨["self", "img_r", "img_m"], true⟩ 3 [] kws (by simp) (by simp)
      (fun k hk => h3 k (h k hk)) (.inl rfl)]
    show calcKeywords _ _ = _
    have hl : ∀ k ∈ Spec.calculateKeywords, k ∉ ["leave"] := by decide
    have hm : ∀ k ∈ ([] ++ kws).filter (fun k => !(["self", "img_r", "img_m"] : List String).contains k),
        k ∈ Spec.calculateKeywords := fun k hk => h k (by simpa using (List.mem_filter.1 hk).1)
    exact calc_ok _ _ (by decide) (fun k hk => hl k (hm k hk)) hm
  · intro pairs hp
    have h3 : ∀ k ∈ Spec.calculateKeywords, k ∉ (["self"] : List String) := by decide
    unfold batchCalculateKeywords
    rw [Signature.bind_ok ⟨["self"], true⟩ 1 [] kws (by simp) (by simp) (fun k hk => h3 k (h k hk)) (.inl rfl)]
    show (if pairs = 0 then _ else _) = _
    rw [if_neg hp]
    have hrest : ∀ k ∈ (([] ++ kws).filter (fun k => !(["self"] : List String).contains k)).filter
        (fun k => !batchPopped.contains k), k ∈ ["data_range", "normalize", "batch"] := by
      intro k hk
      obtain ⟨hk1, hk2⟩ := List.mem_filter.1 hk
      have hk3 : k ∉ batchPopped := by simpa using hk2
      have := h k (by simpa using (List.mem_filter.1 hk1).1)
      revert hk3
      simp only [Spec.calculateKeywords, List.mem_cons, List.not_mem_nil, or_false] at this
      rcases this with rfl | rfl | rfl | rfl | rfl <;> decide
    have hsub : ∀ k ∈ ["data_range", "normalize", "batch"], k ∈ Spec.calculateKeywords := by decide
    have hdis : ∀ k ∈ ["data_range", "normalize", "batch"],
        k ∉ ["prev_result_reference", "prev_result_modified", "scaling_order", "roi"] := by decide
    show ((loadSignature.bind 1 [] _).bind fun _ => _) = _
    rw [load_bind_ok _ hrest]
    show ((calcKeywords _ _).bind fun _ => _) = _
    rw [calc_ok _ _ (by decide) (fun k hk => hdis k (hrest k hk)) (fun k hk => hsub k (hrest k hk))]
    rfl

/-- A call whose keyword is neither positional nor known. -/
theorem load_bind_unknown (kw : List String) (k : String) (hk : k ∈ kw)
    (h : k ∉ Spec.calculateKeywords) : ∃ m, loadSignature.bind 1 [] kw = .error (.typeError m) := by
  by_cases hp : k ∈ loadSignature.params.take 1
  · exact Signature.bind_positional _ _ _ _ k hk hp
  · refine Signature.bind_unknown _ _ _ _ k hk ?_ rfl
    intro hm
    have : ∀ k ∈ loadSignature.params, k ∉ loadSignature.params.take 1 → k ∈ Spec.calculateKeywords := by decide
    exact h (this k hm hp)

/-- **C174, partial.** `BatchMetrics.calculate` rejects every other keyword if there is a pair, and so does
`MultipleMetrics.calculate` with the exception of two internal names. -/
theorem C174_unknown_partial (kws : List String) (k : String) (hk : k ∈ kws) (h : k ∉ Spec.calculateKeywords) :
    (k ≠ "prev_result_reference" → k ≠ "prev_result_modified" →
      ∃ m, multipleCalculateKeywords kws = .error (.typeError m)) ∧
    ∀ pairs ≠ 0, ∃ m, batchCalculateKeywords pairs kws = .error (.typeError m) := by
  constructor
  · intro hr hm
    unfold multipleCalculateKeywords
    cases hb : (Signature.mk ["self", "img_r", "img_m"] true).bind 3 [] kws with
    | error e =>
      obtain ⟨m, rfl⟩ := Signature.bind_error _ _ _ _ _ hb
      exact ⟨m, rfl⟩
    | ok kw =>
      have hkw := Signature.bind_value _ _ _ _ _ hb
      have hk' : k ∈ kw := by
        rw [hkw, List.mem_filter]
        refine ⟨by simpa using hk, ?_⟩
        by_contra hc
        have hc : k ∈ (["self", "img_r", "img_m"] : List String) := by
          simpa only [Bool.not_eq_true', Bool.not_eq_false, List.contains_iff_mem] using hc
        obtain ⟨m, hm⟩ := Signature.bind_positional ⟨["self", "img_r", "img_m"], true⟩ 3 [] kws k hk hc
        rw [hm] at hb
        cases hb
      show ∃ m, calcKeywords ["leave"] kw = _
      unfold calcKeywords
      cases hb2 : calcSignature.bind 4 ["leave"] kw with
      | error e =>
        obtain ⟨m, rfl⟩ := Signature.bind_error _ _ _ _ _ hb2
        exact ⟨m, rfl⟩
      | ok kw2 =>
        have hkw2 := Signature.bind_value _ _ _ _ _ hb2
        have hl : k ≠ "leave" := by
          rintro rfl
          obtain ⟨m, hm⟩ := Signature.bind_named calcSignature 4 ["leave"] kw "leave" hk' (by simp)
          rw [hm] at hb2
          cases hb2
        have hk2 : k ∈ kw2.filter (fun k => !calcPopped.contains k) := by
          rw [List.mem_filter, hkw2, List.mem_filter]
          refine ⟨⟨List.mem_append_right _ hk', ?_⟩, ?_⟩
          · by_contra hc
            have hc : k ∈ calcSignature.params := by simpa using hc
            obtain ⟨m, hm⟩ := Signature.bind_positional calcSignature 4 ["leave"] kw k hk' hc
            rw [hm] at hb2
            cases hb2
          · simp only [Spec.calculateKeywords, List.mem_cons, List.not_mem_nil, or_false, not_or] at h
            simp [calcPopped, hl, hr, hm, h.1, h.2.1]
        obtain ⟨m, hm⟩ := load_bind_unknown _ k hk2 h
        refine ⟨m, ?_⟩
        show ((loadSignature.bind 1 [] _).bind fun _ => _) = _
        rw [hm]
        rfl
  · intro pairs hp
    unfold batchCalculateKeywords
    cases hb : (Signature.mk ["self"] true).bind 1 [] kws with
    | error e =>
      obtain ⟨m, rfl⟩ := Signature.bind_error _ _ _ _ _ hb
      exact ⟨m, rfl⟩
    | ok kw =>
      have hkw := Signature.bind_value _ _ _ _ _ hb
      have hk' : k ∈ kw.filter (fun k => !batchPopped.contains k) := by
        rw [List.mem_filter, hkw, List.mem_filter]
        refine ⟨⟨by simpa using hk, ?_⟩, ?_⟩
        · by_contra hc
          have hc : k ∈ (["self"] : List String) := by simpa using hc
          obtain ⟨m, hm⟩ := Signature.bind_positional ⟨["self"], true⟩ 1 [] kws k hk hc
          rw [hm] at hb
          cases hb
        · simp only [Spec.calculateKeywords, List.mem_cons, List.not_mem_nil, or_false, not_or] at h
          simp [batchPopped, h.1, h.2.1]
      obtain ⟨m, hm⟩ := load_bind_unknown _ k hk' h
      refine ⟨m, ?_⟩
      show (if pairs = 0 then _ else ((loadSignature.bind 1 [] _).bind fun _ => _)) = _
      rw [if_neg hp, hm]
      rfl

/-- **C174, refuted** for internal names of `MultipleMetrics.calculate`: they are accepted, although not documented. -/
theorem C174_internal_refuted : multipleCalculateKeywords ["prev_result_reference"] = .ok [] := rfl

/-- **C174, refuted** for a batch without pairs: every keyword is dropped. -/
theorem C174_no_pairs_refuted (kws : List String) (h : ∀ k ∈ kws, k ∉ ["self", "roi", "scaling_order"]) :
    batchCalculateKeywords 0 kws = .ok kws := by
  unfold batchCalculateKeywords
  rw [Signature.bind_ok _ _ _ _ (by simp) (by simp)
    (fun k hk hc => h k hk (by simp at hc; simp [hc])) (.inl rfl)]
  show Except.ok _ = _
  congr 1
  rw [List.filter_filter, List.filter_eq_self.2]
  · rfl
  · intro k hk
    have := h k (by simpa using hk)
    simp only [List.mem_cons, List.not_mem_nil, or_false, not_or] at this
    simp [batchPopped, this.1, this.2.1, this.2.2]

/-! ### report -/

/-- **C174, partial.** `MultipleMetrics.report` with text and images: what is neither a parameter of the method nor one of
the names for the output is handed to `export_image` and from there to matplotlib; all other keywords are read. -/
theorem C174_report_partial (subplots : List String → Py (List String)) (kws : List String)
    (hr : "img_r" ∈ kws) (hm : "img_m" ∈ kws)
    (hk : ∀ k ∈ kws, k ∉ ["self", "text", "image", "results", "file_name"]) :
    multipleReportKeywords subplots true true kws = subplots (kws.filter fun k =>
      !((["csv", "metadata", "file_path", "project_name", "decimals", "export_image", "img_r", "img_m", "x", "y", "z",
        "show_image", "dpi", "roi", "scaling_order"] : List String).contains k)) := by
  unfold multipleReportKeywords
  rw [Signature.bind_ok]
  · show (if (!kws.contains "img_r" || !kws.contains "img_m") = true then _ else _) = _
    rw [if_neg (by simp [hr, hm])]
    unfold exportImageKeywords
    rw [Signature.bind_ok]
    · show Except.bind (subplots _) _ = _
      have e : List.filter (fun k => !exportImagePopped.contains k) (List.filter
          (fun k => !exportImageSignature.params.contains k)
          (["results", "img_r", "img_m", "file_path", "file_name", "x", "y", "z"] ++ List.filter
            (fun k => !reportPopped.contains k) (List.filter (fun k => !(true && k == "decimals"))
            (List.filter (fun k => !(["self", "csv", "metadata", "text", "image", "file_path", "project_name"] :
              List String).contains k) (["text", "image"] ++ kws))))) =
          kws.filter fun k =>
      !((["csv", "metadata", "file_path", "project_name", "decimals", "export_image", "img_r", "img_m", "x", "y", "z",
        "show_image", "dpi", "roi", "scaling_order"] : List String).contains k) := by
        rw [List.filter_append, List.filter_append, List.filter_append, List.filter_append, List.filter_append,
          List.filter_append]
        have z1 : List.filter (fun k => !exportImagePopped.contains k) (List.filter
          (fun k => !exportImageSignature.params.contains k)
          ["results", "img_r", "img_m", "file_path", "file_name", "x", "y", "z"]) = [] := by decide
        have z2 : List.filter (fun k => !(["self", "csv", "metadata", "text", "image", "file_path", "project_name"] :
              List String).contains k) ["text", "image"] = [] := by decide
        rw [z1, z2]
        simp only [List.filter_nil, List.nil_append, List.filter_filter]
        apply List.filter_congr
        intro k hkm
        have := hk k hkm
        simp only [List.mem_cons, List.not_mem_nil, or_false, not_or] at this
        obtain ⟨a1, a2, a3, a4, a5⟩ := this
        simp only [exportImagePopped, exportImageSignature, reportPopped, List.contains_eq_mem, List.mem_cons,
          List.not_mem_nil, or_false, a1, a2, a3, a4, a5, false_or, Bool.true_and]
        rw [Bool.eq_iff_iff]
        simp only [Bool.and_eq_true, Bool.not_eq_true', decide_eq_false_iff_not, not_or, beq_eq_false_iff_ne, ne_eq]
        tauto
      have e' : (List.filter (fun k => !(true && k == "decimals"))
            (List.filter (fun k => !(["self", "csv", "metadata", "text", "image", "file_path", "project_name"] :
              List String).contains k) (["text", "image"] ++ kws))).filter (· == "decimals") = [] := by
        rw [List.filter_eq_nil_iff]
        intro k hkm
        have := (List.mem_filter.1 hkm).2
        simpa using this
      rw [e]
      cases subplots _ with
      | error x => rfl
      | ok u =>
        show Except.ok (_ ++ u) = _
        congr 1
        exact congrArg (· ++ u) e'
    · intro k hkm hn
      have h1 := (List.mem_filter.1 hkm)
      have h2 : k ∈ kws := by
        have := (List.mem_filter.1 (List.mem_filter.1 h1.1).1)
        rcases List.mem_append.1 this.1 with h | h
        · exfalso
          have h3 := this.2
          simp only [List.mem_cons, List.not_mem_nil, or_false] at h
          rcases h with rfl | rfl <;> simp at h3
        · exact h
      have h3 := hk k h2
      have h4 := h1.2
      have h5 := (List.mem_filter.1 (List.mem_filter.1 h1.1).1).2
      simp only [List.mem_cons, List.not_mem_nil, or_false] at hn
      rcases hn with rfl | rfl | rfl | rfl | rfl | rfl | rfl | rfl <;> simp_all [reportPopped]
    · simp
    · simp
    · exact .inl rfl
  · intro k hkm hn
    have := hk k hkm
    simp only [List.mem_cons, List.not_mem_nil, or_false] at hn
    rcases hn with rfl | rfl <;> simp at this
  · decide
  · intro k hkm hn
    have := hk k hkm
    simp only [List.take, List.mem_cons, List.not_mem_nil, or_false] at hn
    subst hn
    simp at this
  · exact .inl rfl

/-- **C174, refuted** for `BatchMetrics.report`: keywords of `export_image` such as `dpi`, documented as passed on, are
dropped; whatever is neither a parameter nor a slice is accepted and never read. -/
theorem C174_batch_report_refuted (subplots : List String → Py (List String)) (hs : subplots [] = .ok []) (pairs : Nat)
    (hp : pairs ≠ 0) (kws : List String) (hk : ∀ k ∈ kws, k ∉ ["self", "image"]) :
    batchReportKeywords subplots pairs true kws = .ok (kws.filter fun k =>
      !((["csv", "metadata", "file_path", "project_name", "x", "y", "z"] : List String).contains k)) := by
  unfold batchReportKeywords
  rw [Signature.bind_ok]
  · show (if (true && pairs != 0) = true then _ else _) = _
    rw [if_pos (by simpa using hp)]
    have : exportImageKeywords subplots
      ["results", "img_r", "img_m", "file_path", "file_name", "show_image", "x", "y", "z", "roi"] [] = .ok [] := hs
    rw [this]
    show Except.ok _ = _
    congr 1
    rw [List.append_nil, List.filter_append]
    show List.filter _ ([] ++ _) = _
    rw [List.nil_append, List.filter_filter]
    apply List.filter_congr
    intro k hkm
    have := hk k hkm
    simp only [List.mem_cons, List.not_mem_nil, or_false, not_or] at this
    simp only [sliceNames, List.contains_eq_mem, List.mem_cons, List.not_mem_nil, or_false, this.1, this.2, false_or]
    rw [Bool.eq_iff_iff]
    simp only [Bool.and_eq_true, Bool.not_eq_true', decide_eq_false_iff_not, not_or]
    tauto
  · intro k hkm hn
    have := hk k hkm
    simp only [List.mem_cons, List.not_mem_nil, or_false] at hn
    subst hn
    simp at this
  · decide
  · intro k hkm hn
    have := hk k hkm
    simp only [List.take, List.mem_cons, List.not_mem_nil, or_false] at hn
    subst hn
    simp at this
  · exact .inl rfl

/-! ### Examples -/

example : multipleCalculateKeywords ["data_range", "normalize", "scaling_order"] = .ok [] :=
  (C174_documented_partial _ (by decide)).1
example : batchCalculateKeywords 3 ["roi", "batch"] = .ok [] := (C174_documented_partial _ (by decide)).2 3 (by decide)
example : ∃ m, multipleCalculateKeywords ["normalise"] = .error (.typeError m) :=
  (C174_unknown_partial _ "normalise" (by simp) (by decide)).1 (by decide) (by decide)
example : ∃ m, batchCalculateKeywords 1 ["data_range", "leave"] = .error (.typeError m) :=
  (C174_unknown_partial _ "leave" (by simp) (by decide)).2 1 (by decide)
example : batchCalculateKeywords 0 ["normalise"] = .ok ["normalise"] := C174_no_pairs_refuted _ (by decide)

/-- `figsize` reaches matplotlib, `dpi` is read by `export_image`. -/
example : multipleReportKeywords (fun l => if l = ["figsize"] then .ok [] else .error (.attributeError ""))
    true true ["img_r", "img_m", "x", "dpi", "figsize"] = .ok [] := by
  rw [C174_report_partial _ _ (by simp) (by simp) (by decide)]
  decide
example : batchReportKeywords (fun _ => .ok []) 2 true ["x", "dpi", "file_path"] = .ok ["dpi"] :=
  C174_batch_report_refuted _ rfl 2 (by decide) _ (by decide)

end Viqa
