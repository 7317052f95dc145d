import Verif.Model.Notebook
import Verif.Props.Batch

/-!
C172: the notebooks run as given.
-/

namespace Viqa

/-- All classes for which the notebooks have a flag. -/
theorem notebookOrder_mem (k : NotebookKind) (c : MetricClass) (hc : c ≠ .uqi) : c ∈ notebookOrder k := by
  cases k <;> cases c <;> first | exact absurd rfl hc | decide

/-- **C172, partial.** Whatever flags are set, every keyword of the delivered dictionaries is accepted for volumes and
reaches the computation, except for SSIM. Missing: the structural similarity, two-dimensional images, SNR and images
of different shapes, see the refutations. -/
theorem C172_keywords_partial (k : NotebookKind) (flags : MetricClass → Bool) (c : MetricClass)
    (h : c ∈ notebookChosen k flags) (hs : c ≠ .ssim) :
    unreadKeywords c .volume (notebookKeywords k c) = .ok [] := by
  clear h
  cases k <;> cases c <;> first | exact absurd rfl hs | rfl

/-- The names of the results of the chosen metrics. -/
theorem notebook_keys {I S : Type} (full : MetricClass → I → I → Py (Score S)) (single : MetricClass → I → Py (Score S))
    (cs : List MetricClass) :
    (notebookMetrics full single cs).flatMap metricKeys = cs.flatMap fun c => match c with
      | .cnr | .snr | .qmeasure =>
        [(storedName false c).map (· ++ "_r"), (storedName false c).map (· ++ "_m")]
      | c => [storedName false c] := by
  induction cs with
  | nil => rfl
  | cons c cs ih =>
    simp only [notebookMetrics, List.map_cons, List.flatMap_cons] at ih ⊢
    rw [ih]
    cases c <;> rfl

/-- **C172, partial.** Without SNR: if the scores of the chosen metrics are numbers, then the calculation succeeds and the
results have exactly the entries of the chosen metrics in the order of the notebook, each with its own scores. -/
theorem C172_results_partial {I S : Type} (k : NotebookKind) (flags : MetricClass → Bool) (hsnr : flags .snr = false)
    (full : MetricClass → I → I → Py (Score S)) (single : MetricClass → I → Py (Score S)) (r m : I)
    (hfull : ∀ c, flags c = true → ∃ v, full c r m = .ok (.num v))
    (hr : ∀ c, flags c = true → ∃ v, single c r = .ok (.num v))
    (hm : ∀ c, flags c = true → ∃ v, single c m = .ok (.num v)) :
    ∃ d, metricLoop r m none none (notebookMetrics full single (notebookChosen k flags)) [] = .ok d ∧
      d.map Prod.fst = (notebookChosen k flags).flatMap (fun c => match c with
        | .cnr => [some "CNR_r", some "CNR_m"]
        | .qmeasure => [some "Q-Measure_r", some "Q-Measure_m"]
        | c => [storedName false c]) ∧
      (∀ c ∈ notebookChosen k flags, c ≠ .cnr → c ≠ .qmeasure → ∃ n v, storedName false c = some n ∧
        full c r m = .ok (.num v) ∧ ODict.get d (some n) = .ok v) ∧
      (∀ c ∈ notebookChosen k flags, c = .cnr ∨ c = .qmeasure → ∃ n u v, storedName false c = some n ∧
        single c r = .ok (.num u) ∧ single c m = .ok (.num v) ∧
        ODict.get d (some (n ++ "_r")) = .ok u ∧ ODict.get d (some (n ++ "_m")) = .ok v) := by
  have hmem : ∀ c, c ∈ notebookChosen k flags ↔ c ∈ notebookOrder k ∧ flags c = true := fun c => List.mem_filter
  have hne : ∀ c ∈ notebookChosen k flags, c ≠ .snr := by
    intro c hc h
    have := ((hmem c).1 hc).2
    rw [h, hsnr] at this
    cases this
  have hne' : ∀ c ∈ notebookChosen k flags, c ≠ .uqi := by
    intro c hc h
    have := ((hmem c).1 hc).1
    rw [h] at this
    revert this
    cases k <;> decide
  have hkeys : (notebookMetrics full single (notebookChosen k flags)).flatMap metricKeys =
      (notebookChosen k flags).flatMap (fun c => match c with
        | .cnr => [some "CNR_r", some "CNR_m"]
        | .qmeasure => [some "Q-Measure_r", some "Q-Measure_m"]
        | c => [storedName false c]) := by
    rw [notebook_keys]
    apply List.flatMap_congr
    intro c hc
    have h1 := hne c hc
    cases c <;> first | exact absurd rfl h1 | rfl
  have hnd : ((notebookMetrics full single (notebookChosen k flags)).flatMap metricKeys).Nodup := by
    rw [hkeys]
    have hsub : ((notebookChosen k flags).flatMap (fun c => match c with
        | .cnr => [some "CNR_r", some "CNR_m"]
        | .qmeasure => [some "Q-Measure_r", some "Q-Measure_m"]
        | c => [storedName false c])).Sublist ((notebookOrder k).flatMap (fun c => match c with
        | .cnr => [some "CNR_r", some "CNR_m"]
        | .qmeasure => [some "Q-Measure_r", some "Q-Measure_m"]
        | c => [storedName false c])) := by
      unfold notebookChosen
      generalize notebookOrder k = l
      induction l with
      | nil => simp
      | cons c l ih =>
        rw [List.filter_cons]
        split
        · rw [List.flatMap_cons, List.flatMap_cons]
          exact (List.Sublist.refl _).append ih
        · rw [List.flatMap_cons]
          exact ih.trans (List.sublist_append_right _ _)
    refine hsub.nodup ?_
    cases k <;> decide +kernel
  have hnum : ∀ b ∈ notebookMetrics full single (notebookChosen k flags), ∀ e ∈ ownScores r m b,
      ∃ v, e.2 = .ok (.num v) := by
    intro b hb e he
    obtain ⟨c, hc, rfl⟩ := List.mem_map.1 hb
    have hf := ((hmem c).1 hc).2
    have h1 := hfull c hf
    have h2 := hr c hf
    have h3 := hm c hf
    cases c <;> simp [ownScores] at he <;> first | (subst he; exact h1) | (rcases he with rfl | rfl <;> assumption)
  have hname : ∀ b ∈ notebookMetrics full single (notebookChosen k flags), ∀ nr, b.run = .inl nr → b.name ≠ none := by
    intro b hb nr hrun
    obtain ⟨c, hc, rfl⟩ := List.mem_map.1 hb
    have := hne c hc
    cases c <;> first | exact absurd rfl this | simp [storedName]
  obtain ⟨d, hd, hk, hall⟩ := C66_own_entries_partial _ r m hnd hnum hname
  refine ⟨d, hd, hk.trans hkeys, ?_, ?_⟩
  · intro c hc h1 h2
    have h3 := hne c hc
    have h := hall _ (List.mem_map_of_mem hc)
    cases c <;> first
      | exact absurd rfl h1 | exact absurd rfl h2 | exact absurd rfl h3
      | (obtain ⟨v, hv, hg⟩ := h _ (List.mem_singleton.2 rfl)
         exact ⟨_, v, rfl, hv, hg⟩)
  · intro c hc h12
    have h := hall _ (List.mem_map_of_mem hc)
    rcases h12 with rfl | rfl
    all_goals
      obtain ⟨u, hu, hgu⟩ := h _ (List.mem_cons_self ..)
      obtain ⟨v, hv, hgv⟩ := h _ (List.mem_cons_of_mem _ (List.mem_singleton.2 rfl))
      exact ⟨_, u, v, rfl, hu, hv, hgu, hgv⟩

/-- **C172, refuted** as soon as the flag of SNR is set, which it is as delivered: the calculation raises an error for all
images and all scores, and there are no results. -/
theorem C172_snr_refuted {I S : Type} (k : NotebookKind) (flags : MetricClass → Bool) (hsnr : flags .snr = true)
    (full : MetricClass → I → I → Py (Score S)) (single : MetricClass → I → Py (Score S)) (r m : I) :
    ∃ e, metricLoop r m none none (notebookMetrics full single (notebookChosen k flags)) [] = .error e :=
  metricLoop_nameless r m none none _ ⟨storedName false .snr, .inl (single .snr)⟩
    (List.mem_map.2 ⟨.snr, List.mem_filter.2 ⟨notebookOrder_mem k .snr (by decide), hsnr⟩, rfl⟩) _ rfl rfl []

/-- **C172, refuted** for SSIM: `use_sample_covariance` is accepted and never read. -/
theorem C172_ssim_refuted (k : NotebookKind) (part : ScoredPart) :
    unreadKeywords .ssim part (notebookKeywords k .ssim) = .ok ["use_sample_covariance"] := by
  cases k <;> cases part <;> rfl

/-- **C172, refuted** for two-dimensional images: GSM rejects the keyword `experimental` of the delivered dictionary. -/
theorem C172_plane_refuted (k : NotebookKind) :
    unreadKeywords .gsm .plane (notebookKeywords k .gsm) =
      .error (.typeError "got an unexpected keyword argument") := by
  cases k <;> rfl

/-- **C172, refuted** for images of different shapes: the cell that resizes the modified image makes the cell with its
statistics fail, and only then. -/
theorem C172_shapes_refuted (shapeR shapeM : List Nat) :
    (∃ e, notebookStatistics shapeR shapeM = .error e) ↔ shapeR ≠ shapeM := by
  unfold notebookStatistics
  by_cases h : shapeR = shapeM
  · simp [h]
  · simp [h]

/-! ### Examples -/

/-- As delivered, SNR is among the metrics. -/
example : notebookChosen .single notebookDefaults = [.psnr, .rmse, .ssim, .fsim, .cnr, .snr, .qmeasure] := by decide

example : ∃ e, metricLoop (S := Rat) () () none none (notebookMetrics (fun _ _ _ => .ok (.num 1))
    (fun _ _ => .ok (.num 1)) (notebookChosen .single notebookDefaults)) [] = .error e :=
  C172_snr_refuted _ _ rfl _ _ _ _

/-- Without SNR, both notebooks have results. -/
example : metricLoop (S := Rat) () () none none (notebookMetrics (fun _ _ _ => .ok (.num 1)) (fun _ _ => .ok (.num 2))
      (notebookChosen .batch (fun c => c == .cnr || c == .psnr || c == .gsm))) [] =
    .ok [(some "CNR_r", 2), (some "CNR_m", 2), (some "PSNR", 1), (some "GSM", 1)] := by
  rfl

example : ∃ d, metricLoop (S := Rat) 3 4 none none (notebookMetrics (fun _ r m => .ok (.num (r * m)))
    (fun _ i => .ok (.num i)) (notebookChosen .single (fun c => c != .snr))) [] = .ok d ∧ d.length = 13 := by
  obtain ⟨d, hd, hk, -⟩ := C172_results_partial .single (fun c => c != .snr) rfl (fun _ (r m : Rat) => .ok (.num (r * m)))
    (fun _ i => .ok (.num i)) 3 4 (fun _ _ => ⟨_, rfl⟩) (fun _ _ => ⟨_, rfl⟩) (fun _ _ => ⟨_, rfl⟩)
  refine ⟨d, hd, ?_⟩
  rw [← List.length_map (f := Prod.fst), hk]
  decide

example : unreadKeywords .mad .volume (notebookKeywords .single .mad) = .ok [] :=
  C172_keywords_partial .single (fun _ => true) .mad (by decide) (by decide)

example : unreadKeywords .ssim .volume (notebookKeywords .single .ssim) = .ok ["use_sample_covariance"] :=
  C172_ssim_refuted .single .volume

example : unreadKeywords .gsm .volume (notebookKeywords .batch .gsm) = .ok [] ∧
    unreadKeywords .gsm .plane (notebookKeywords .batch .gsm) =
      .error (.typeError "got an unexpected keyword argument") := ⟨rfl, C172_plane_refuted .batch⟩

example : ∃ e, notebookStatistics [4, 4, 4] [4, 4, 5] = .error e := (C172_shapes_refuted _ _).2 (by decide)
example : notebookStatistics [4, 4, 4] [4, 4, 4] = .ok ([4, 4, 4], [4, 4, 4]) := rfl

end Viqa
