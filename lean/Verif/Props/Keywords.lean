import Verif.Model.Keywords

/-!
Property C170: keyword arguments of `score`.
-/

namespace Viqa

/-- The keywords documented for `score` or for the function they are said to be passed to. -/
def Spec.documentedKeywords : MetricClass → List String
  | .rmse | .psnr => []
  | .ssim => ["color_weights", "win_size", "data_range", "gaussian_weights", "alpha", "beta", "gamma", "K1", "K2",
      "sigma", "mode", "cval"]
  | .uqi => ["win_size", "data_range", "gaussian_weights", "alpha", "beta", "gamma", "K1", "K2", "sigma", "mode", "cval"]
  | .msssim => ["dim", "im_slice", "kernel_size", "kernel_sigma", "reduction", "scale_weights", "k1", "k2"]
  | .fsim => ["dim", "im_slice", "reduction", "scales", "orientations", "min_length", "mult", "sigma_f", "delta_theta", "k"]
  | .vsi => ["dim", "im_slice", "reduction", "c1", "c2", "c3", "alpha", "beta", "omega_0", "sigma_f", "sigma_d", "sigma_c"]
  | .vif => ["dim", "im_slice", "sigma_n_sq", "reduction"]
  | .gsm => ["dim", "im_slice", "data_range", "c", "p"]
  | .mad => ["dim", "im_slice", "data_range", "block_size", "block_overlap", "beta_1", "beta_2", "thresh_1", "thresh_2",
      "account_monitor", "display_function", "luminance_function", "ms_scale", "orientations_num", "scales_num",
      "weights", "csf_function"]
  | .cnr => ["background_center", "signal_center", "radius", "region_type", "auto_center", "iterations", "data_range",
      "normalize", "batch", "roi"]
  | .snr => ["signal_center", "radius", "region_type", "auto_center", "iterations", "lower_threshold",
      "upper_threshold", "yuv", "data_range", "normalize", "batch", "roi"]
  | .qmeasure => ["hist_bins", "num_peaks"]

/-- Documented keywords that the class gives itself. -/
def Spec.takenKeywords : MetricClass → List String
  | .ssim | .gsm | .mad => ["data_range"]
  | .uqi => ["data_range", "gaussian_weights", "alpha", "beta", "gamma"]
  | _ => []

/-- The regions must be given completely or not at all. -/
def Spec.regionsWhole : MetricClass → List String → Prop
  | .cnr, kws => (∀ k ∈ ["signal_center", "background_center", "radius"], k ∈ kws) ∨
      ∀ k ∈ kws, k ∉ ["signal_center", "background_center", "radius"]
  | .snr, kws => (∀ k ∈ ["signal_center", "radius"], k ∈ kws) ∨ ∀ k ∈ kws, k ∉ ["signal_center", "radius"]
  | _, _ => True

/-! ### Calls -/

theorem Signature.bind_ok (f : Signature) (n : Nat) (named kw : List String)
    (h1 : ∀ k ∈ kw, k ∉ named) (h2 : ∀ k ∈ named, k ∉ f.params.take n) (h3 : ∀ k ∈ kw, k ∉ f.params.take n)
    (h4 : f.rest = true ∨ ((∀ k ∈ named, k ∈ f.params) ∧ ∀ k ∈ kw, k ∈ f.params)) :
    f.bind n named kw = .ok ((named ++ kw).filter (fun k => !f.params.contains k)) := by
  unfold Signature.bind
  rw [if_neg, if_neg]
  · rcases h4 with h | ⟨ha, hb⟩
    · simp [h]
    · have : (named ++ kw).filter (fun k => !f.params.contains k) = [] := by
        rw [List.filter_eq_nil_iff]
        intro k hk
        rcases List.mem_append.1 hk with hk | hk
        · simp [ha k hk]
        · simp [hb k hk]
      simp only [this]
      simp
  · simp only [List.any_eq_true, List.contains_iff_mem, not_exists, not_and, List.mem_append]
    rintro k (hk | hk)
    · exact h2 k hk
    · exact h3 k hk
  · simp only [List.any_eq_true, List.contains_iff_mem, not_exists, not_and]
    exact h1

theorem Signature.bind_named (f : Signature) (n : Nat) (named kw : List String) (k : String) (hk : k ∈ kw)
    (hn : k ∈ named) : ∃ m, f.bind n named kw = .error (.typeError m) := by
  unfold Signature.bind
  rw [if_pos]
  · exact ⟨_, rfl⟩
  · simp only [List.any_eq_true, List.contains_iff_mem]
    exact ⟨k, hk, hn⟩

theorem Signature.bind_unknown (f : Signature) (n : Nat) (named kw : List String) (k : String) (hk : k ∈ kw)
    (hp : k ∉ f.params) (hr : f.rest = false) : ∃ m, f.bind n named kw = .error (.typeError m) := by
  unfold Signature.bind
  split_ifs with h1 h2
  · exact ⟨_, rfl⟩
  · exact ⟨_, rfl⟩
  · have : k ∈ (named ++ kw).filter (fun k => !f.params.contains k) := by
      simp [hk, hp]
    have hne : ((named ++ kw).filter (fun k => !f.params.contains k)).isEmpty = false := by
      rw [List.isEmpty_eq_false_iff_exists_mem]; exact ⟨k, this⟩
    simp only [hne, hr]
    exact ⟨_, rfl⟩

theorem Signature.bind_error (f : Signature) (n : Nat) (named kw : List String) (e : Exc)
    (h : f.bind n named kw = .error e) : ∃ m, e = .typeError m := by
  unfold Signature.bind at h
  split_ifs at h
  · cases h; exact ⟨_, rfl⟩
  · cases h; exact ⟨_, rfl⟩
  · simp only at h
    split_ifs at h
    cases h; exact ⟨_, rfl⟩

theorem Signature.bind_value (f : Signature) (n : Nat) (named kw r : List String)
    (h : f.bind n named kw = .ok r) : r = (named ++ kw).filter (fun k => !f.params.contains k) := by
  unfold Signature.bind at h
  split_ifs at h
  simp only at h
  split_ifs at h
  cases h; rfl

/-- The keywords accepted from the user. -/
def Spec.freeKeywords (c : MetricClass) : List String :=
  (Spec.documentedKeywords c).filter (fun k => !(Spec.takenKeywords c).contains k)

theorem first_bind (c : MetricClass) (kws : List String) (h : ∀ k ∈ kws, k ∈ Spec.freeKeywords c) :
    (scoreSignature c).bind (scorePositional c) [] kws =
      .ok (kws.filter (fun k => !(scoreSignature c).params.contains k)) := by
  have h3 : ∀ k ∈ Spec.freeKeywords c, k ∉ (scoreSignature c).params.take (scorePositional c) := by
    cases c <;> decide +kernel
  have h4 : (scoreSignature c).rest = true ∨ ∀ k ∈ Spec.freeKeywords c, k ∈ (scoreSignature c).params := by
    cases c <;> decide +kernel
  rw [Signature.bind_ok _ _ _ _ (by simp) (by simp) (fun k hk => h3 k (h k hk))]
  · rfl
  · rcases h4 with h4 | h4
    · exact Or.inl h4
    · exact Or.inr ⟨by simp, fun k hk => h4 k (h k hk)⟩

/-- What is left of a list after a test that every element fails. -/
theorem filter_none (l L : List String) (p : String → Bool) (h : ∀ k ∈ l, k ∈ L) (hp : ∀ k ∈ L, p k = false) :
    l.filter p = [] := by
  rw [List.filter_eq_nil_iff]
  intro k hk
  simp [hp k (h k hk)]

/-- **C170, partial.** Documented keywords that the class does not give itself are accepted and all of them are read, for
all classes, for slices and volumes and for all lists of keywords. Missing: keywords the class gives itself, and regions
given in part. -/
theorem C170_partial (c : MetricClass) (part : ScoredPart) (kws : List String)
    (hdoc : ∀ k ∈ kws, k ∈ Spec.documentedKeywords c) (hfree : ∀ k ∈ kws, k ∉ Spec.takenKeywords c)
    (hwhole : Spec.regionsWhole c kws) : unreadKeywords c part kws = .ok [] := by
  have h : ∀ k ∈ kws, k ∈ Spec.freeKeywords c := by
    intro k hk
    simp [Spec.freeKeywords, hdoc k hk, hfree k hk]
  clear hdoc hfree
  unfold unreadKeywords
  rw [first_bind c kws h]
  simp only [bind, Except.bind, pure, Except.pure]
  have hkw : ∀ k ∈ kws.filter (fun k => !(scoreSignature c).params.contains k),
      k ∈ (Spec.freeKeywords c).filter (fun k => !(scoreSignature c).params.contains k) := by
    intro k hk
    rw [List.mem_filter] at hk ⊢
    exact ⟨h k hk.1, hk.2⟩
  have hmem : ∀ k, k ∉ (scoreSignature c).params → (k ∈ kws.filter (fun k => !(scoreSignature c).params.contains k) ↔
      k ∈ kws) := by
    intro k hk
    simp [List.mem_filter, hk]
  have hpart : ∀ k ∈ kws.filter (fun k => !(scoreSignature c).params.contains k), k ∈ kws := by
    intro k hk
    exact List.mem_of_mem_filter hk
  generalize kws.filter (fun k => !(scoreSignature c).params.contains k) = kw at hkw hmem hpart
  cases c
  case rmse | psnr =>
    have : kw = [] := by
      rw [List.eq_nil_iff_forall_not_mem]
      intro k hk
      have := hkw k hk
      simp [Spec.freeKeywords, Spec.documentedKeywords] at this
    rw [this]
  case ssim =>
    rw [Signature.bind_ok _ _ _ _ (fun k hk => (by decide +kernel : ∀ k ∈ _, k ∉ ["data_range"]) k (hkw k hk))
      (by decide +kernel) (fun k hk => (by decide +kernel : ∀ k ∈ _, k ∉ structuralSignature.params.take 2) k (hkw k hk))
      (Or.inl rfl)]
    simp only [List.filter_append, List.filter_filter]
    rw [filter_none kw _ _ hkw (by decide +kernel)]
    rfl
  case uqi =>
    rw [Signature.bind_ok _ _ _ _ (fun k hk => (by decide +kernel : ∀ k ∈ _,
        k ∉ ["data_range", "k_1", "k_2", "alpha", "beta", "gamma", "gaussian_weights"]) k (hkw k hk))
      (by decide +kernel) (fun k hk => (by decide +kernel : ∀ k ∈ _, k ∉ structuralSignature.params.take 2) k (hkw k hk))
      (Or.inl rfl)]
    simp only [List.filter_append, List.filter_filter]
    rw [filter_none kw (kws.filter (fun k => !(scoreSignature .uqi).params.contains k)) _ (fun k hk => by
      rw [List.mem_filter]; refine ⟨hpart k hk, ?_⟩
      exact (List.mem_filter.1 (hkw k hk)).2)]
    · rw [List.append_nil]
      congr 1
      rw [List.filter_eq_nil_iff]
      intro k hk
      have : k ∈ kws → k ∈ Spec.freeKeywords .uqi := h k
      simp only [List.mem_cons, List.not_mem_nil, or_false] at hk
      rcases hk with rfl | rfl | rfl | rfl | rfl | rfl | rfl <;>
        simp [Spec.freeKeywords, Spec.documentedKeywords, Spec.takenKeywords, structuralSignature] at this ⊢ <;>
        simp [this]
    · intro k hk
      have hk' := h k (List.mem_of_mem_filter hk)
      have : ∀ k ∈ Spec.freeKeywords .uqi, (!structuralPopped.contains k && !structuralSignature.params.contains k) = false := by
        decide +kernel
      have := this k hk'
      revert this
      cases structuralPopped.contains k <;> cases structuralSignature.params.contains k <;> simp
  case msssim | vsi | vif =>
    rw [Signature.bind_ok _ _ _ _ (fun k hk => (by decide +kernel : ∀ k ∈ _, k ∉ ["data_range"]) k (hkw k hk))
      (by decide +kernel) (fun k hk => (by decide +kernel : ∀ k ∈ _, k ∉ (piqSignature _).params.take 2) k (hkw k hk))
      (Or.inr ⟨by decide +kernel, fun k hk => (by decide +kernel : ∀ k ∈ _, k ∈ (piqSignature _).params) k (hkw k hk)⟩)]
    rw [List.filter_append, filter_none kw _ _ hkw (by decide +kernel)]
    rfl
  case fsim =>
    rw [Signature.bind_ok _ _ _ _ (fun k hk => (by decide +kernel : ∀ k ∈ _, k ∉ ["data_range", "chromatic"]) k (hkw k hk))
      (by decide +kernel) (fun k hk => (by decide +kernel : ∀ k ∈ _, k ∉ (piqSignature _).params.take 2) k (hkw k hk))
      (Or.inr ⟨by decide +kernel, fun k hk => (by decide +kernel : ∀ k ∈ _, k ∈ (piqSignature _).params) k (hkw k hk)⟩)]
    rw [List.filter_append, filter_none kw _ _ hkw (by decide +kernel)]
    rfl
  case gsm =>
    cases part
    · rw [Signature.bind_ok _ _ _ _ (fun k hk => (by decide +kernel : ∀ k ∈ _, k ∉ ["data_range"]) k (hkw k hk))
        (by decide +kernel) (fun k hk => (by decide +kernel : ∀ k ∈ _, k ∉ gradientSignature.params.take 2) k (hkw k hk))
        (Or.inr ⟨by decide +kernel, fun k hk => (by decide +kernel : ∀ k ∈ _, k ∈ gradientSignature.params) k (hkw k hk)⟩)]
      rw [List.filter_append, filter_none kw _ _ hkw (by decide +kernel)]
      rfl
    · rw [Signature.bind_ok _ _ _ _ (fun k hk => (by decide +kernel : ∀ k ∈ _, k ∉ ["data_range", "dim"]) k (hkw k hk))
        (by decide +kernel) (fun k hk => (by decide +kernel : ∀ k ∈ _, k ∉ gradient3dSignature.params.take 2) k (hkw k hk))
        (Or.inl rfl)]
      simp only
      have hin : ∀ k ∈ (["data_range", "dim"] ++ kw).filter (fun k => !gradient3dSignature.params.contains k),
          k ∈ ["data_range", "c", "p"] := by
        intro k hk
        rw [List.mem_filter, List.mem_append] at hk
        obtain ⟨hk | hk, hq⟩ := hk
        · revert hq; revert k; decide +kernel
        · exact (by decide +kernel : ∀ k ∈ _, k ∈ ["data_range", "c", "p"]) k (hkw k hk)
      rw [Signature.bind_ok _ _ _ _ (by simp) (by simp)
        (fun k hk => (by decide +kernel : ∀ k ∈ _, k ∉ gradientSignature.params.take 2) k (hin k hk))
        (Or.inr ⟨by simp, fun k hk => (by decide +kernel : ∀ k ∈ _, k ∈ gradientSignature.params) k (hin k hk)⟩)]
      rw [List.nil_append, filter_none _ _ _ hin (by decide +kernel)]
  case mad =>
    cases part
    · simp only
      rw [Signature.bind_ok _ _ _ _ (fun k hk => (by decide +kernel : ∀ k ∈ _, k ∉ ["data_range"]) k (hkw k hk))
        (by decide +kernel) (fun k hk => (by decide +kernel : ∀ k ∈ _, k ∉ madSignature.params.take 2) k (hkw k hk))
        (Or.inl rfl)]
      simp only [List.filter_append, List.filter_filter]
      rw [filter_none kw _ _ hkw (by decide +kernel)]
      rfl
    · simp only
      rw [Signature.bind_ok _ _ _ _ (fun k hk => (by decide +kernel : ∀ k ∈ _, k ∉ ["data_range", "dim"]) k (hkw k hk))
        (by decide +kernel) (fun k hk => (by decide +kernel : ∀ k ∈ _, k ∉ mad3dSignature.params.take 2) k (hkw k hk))
        (Or.inl rfl)]
      simp only
      have hin : ∀ k ∈ (["data_range", "dim"] ++ kw).filter (fun k => !mad3dSignature.params.contains k),
          k ∈ Spec.documentedKeywords .mad ∧ k ∉ ["dim", "im_slice"] := by
        intro k hk
        rw [List.mem_filter, List.mem_append] at hk
        obtain ⟨hk | hk, hq⟩ := hk
        · revert hq; revert k; decide +kernel
        · exact (by decide +kernel : ∀ k ∈ _, k ∈ Spec.documentedKeywords .mad ∧ k ∉ ["dim", "im_slice"]) k (hkw k hk)
      have hD : ∀ k ∈ Spec.documentedKeywords .mad, k ∉ madSignature.params.take 2 := by decide +kernel
      have hE : ∀ k ∈ Spec.documentedKeywords .mad, k ∉ ["dim", "im_slice"] →
          (!madPopped.contains k && !madSignature.params.contains k) = false := by decide +kernel
      rw [Signature.bind_ok _ _ _ _ (by simp) (by simp) (fun k hk => hD k (hin k hk).1) (Or.inl rfl)]
      simp only [List.nil_append]
      rw [List.filter_filter, List.filter_eq_nil_iff.2]
      intro k hk
      have := hin k hk
      exact Bool.eq_false_iff.1 (hE k this.1 this.2)
  case cnr =>
    have hin : ∀ k ∈ completed cnrKeys kw, k ∈ Spec.documentedKeywords .cnr := by
      intro k hk
      unfold completed at hk
      rcases List.mem_append.1 hk with hk | hk
      · exact (by decide +kernel : ∀ k ∈ _, k ∈ Spec.documentedKeywords .cnr) k (hkw k hk)
      · exact (by decide +kernel : ∀ k ∈ cnrKeys, k ∈ Spec.documentedKeywords .cnr) k (List.mem_of_mem_filter hk)
    rw [Signature.bind_ok _ _ _ _ (by simp) (by simp)
      (fun k hk => (by decide +kernel : ∀ k ∈ _, k ∉ cnrSignature.params.take 1) k (hin k hk)) (Or.inl rfl)]
    have hin' : ∀ k ∈ ([] ++ completed cnrKeys kw).filter (fun k => !cnrSignature.params.contains k),
        k ∈ ["data_range", "normalize", "batch", "roi"] := by
      intro k hk
      rw [List.nil_append, List.mem_filter] at hk
      have := hin k hk.1
      have hq := hk.2
      revert hq; revert this; clear hk; revert k; decide +kernel
    simp only
    rw [Signature.bind_ok _ _ _ _ (by simp) (by simp)
      (fun k hk => (by decide +kernel : ∀ k ∈ _, k ∉ loadSignature.params.take 1) k (hin' k hk))
      (Or.inr ⟨by simp, fun k hk => (by decide +kernel : ∀ k ∈ _, k ∈ loadSignature.params) k (hin' k hk)⟩)]
    rw [List.nil_append, filter_none _ _ _ hin' (by decide +kernel)]
    have : replacedNames cnrKeys kw = [] := by
      unfold replacedNames
      rcases hwhole with hw | hw
      · rw [if_pos]
        rw [List.all_eq_true]
        intro k hk
        rw [List.contains_iff_mem, hmem k ((by decide +kernel : ∀ k ∈ cnrKeys, k ∉ (scoreSignature .cnr).params) k hk)]
        exact hw k hk
      · have : kw.filter (fun k => cnrKeys.contains k) = [] := by
          rw [List.filter_eq_nil_iff]
          intro k hk
          have := hw k (hpart k hk)
          simpa [cnrKeys] using this
        split_ifs
        · rfl
        · exact this
    simp [this]
  case snr =>
    have hin : ∀ k ∈ completed snrKeys kw, k ∈ Spec.documentedKeywords .snr := by
      intro k hk
      unfold completed at hk
      rcases List.mem_append.1 hk with hk | hk
      · exact (by decide +kernel : ∀ k ∈ _, k ∈ Spec.documentedKeywords .snr) k (hkw k hk)
      · exact (by decide +kernel : ∀ k ∈ snrKeys, k ∈ Spec.documentedKeywords .snr) k (List.mem_of_mem_filter hk)
    rw [Signature.bind_ok _ _ _ _ (by simp) (by simp)
      (fun k hk => (by decide +kernel : ∀ k ∈ _, k ∉ snrSignature.params.take 1) k (hin k hk)) (Or.inl rfl)]
    have hin' : ∀ k ∈ ([] ++ completed snrKeys kw).filter (fun k => !snrSignature.params.contains k),
        k ∈ ["data_range", "normalize", "batch", "roi"] := by
      intro k hk
      rw [List.nil_append, List.mem_filter] at hk
      have := hin k hk.1
      have hq := hk.2
      revert hq; revert this; clear hk; revert k; decide +kernel
    simp only
    rw [Signature.bind_ok _ _ _ _ (by simp) (by simp)
      (fun k hk => (by decide +kernel : ∀ k ∈ _, k ∉ loadSignature.params.take 1) k (hin' k hk))
      (Or.inr ⟨by simp, fun k hk => (by decide +kernel : ∀ k ∈ _, k ∈ loadSignature.params) k (hin' k hk)⟩)]
    rw [List.nil_append, filter_none _ _ _ hin' (by decide +kernel)]
    have : replacedNames snrKeys kw = [] := by
      unfold replacedNames
      rcases hwhole with hw | hw
      · rw [if_pos]
        rw [List.all_eq_true]
        intro k hk
        rw [List.contains_iff_mem, hmem k ((by decide +kernel : ∀ k ∈ snrKeys, k ∉ (scoreSignature .snr).params) k hk)]
        exact hw k hk
      · have : kw.filter (fun k => snrKeys.contains k) = [] := by
          rw [List.filter_eq_nil_iff]
          intro k hk
          have := hw k (hpart k hk)
          simpa [snrKeys] using this
        split_ifs
        · rfl
        · exact this
    simp [this]
  case qmeasure =>
    simp only
    rw [filter_none kw _ _ hkw (by decide +kernel)]

example : unreadKeywords .mad .volume ["dim", "thresh_1", "thresh_2", "weights"] = .ok [] :=
  C170_partial _ _ _ (by decide +kernel) (by decide +kernel) trivial

/-- **C170 is false** for the data range: it is documented for the functions behind SSIM, UQI, GSM and MAD, and the examples of
GSM, MAD, VSI, FSIM, VIFp and MS-SSIM give it to `score`, but each such call raises `TypeError`, for all further
keywords. -/
theorem C170_data_range_refuted (c : MetricClass) (hc : c ≠ .cnr ∧ c ≠ .snr ∧ c ≠ .qmeasure) (part : ScoredPart)
    (kws : List String) (h : "data_range" ∈ kws) : ∃ m, unreadKeywords c part kws = .error (.typeError m) := by
  unfold unreadKeywords
  cases h1 : (scoreSignature c).bind (scorePositional c) [] kws with
  | error e =>
    obtain ⟨m, rfl⟩ := Signature.bind_error _ _ _ _ _ h1
    exact ⟨m, rfl⟩
  | ok kw =>
    have hkw := Signature.bind_value _ _ _ _ _ h1
    have hin : "data_range" ∈ kw := by
      rw [hkw]
      simp only [List.nil_append, List.mem_filter]
      refine ⟨h, ?_⟩
      cases c <;> decide +kernel
    simp only [bind, Except.bind]
    cases c
    case rmse | psnr =>
      exfalso
      obtain ⟨m, hm⟩ := Signature.bind_unknown (scoreSignature .rmse) 3 [] kws "data_range" h (by decide +kernel) rfl
      have : (scoreSignature .rmse).bind 3 [] kws = .ok kw := h1
      rw [hm] at this
      cases this
    case cnr => exact absurd rfl hc.1
    case snr => exact absurd rfl hc.2.1
    case qmeasure => exact absurd rfl hc.2.2
    case gsm =>
      cases part
      · exact Signature.bind_named _ _ _ _ _ hin (by simp)
      · obtain ⟨m, hm⟩ := Signature.bind_named gradient3dSignature 2 ["data_range", "dim"] kw _ hin (by simp)
        exact ⟨m, by simp only [hm]⟩
    case mad =>
      cases part
      · obtain ⟨m, hm⟩ := Signature.bind_named madSignature 2 ["data_range"] kw _ hin (by simp)
        exact ⟨m, by simp only [hm]⟩
      · obtain ⟨m, hm⟩ := Signature.bind_named mad3dSignature 2 ["data_range", "dim"] kw _ hin (by simp)
        exact ⟨m, by simp only [hm]⟩
    case ssim =>
      obtain ⟨m, hm⟩ := Signature.bind_named structuralSignature 2 ["data_range"] kw _ hin (by simp)
      exact ⟨m, by simp only [hm]⟩
    case uqi =>
      obtain ⟨m, hm⟩ := Signature.bind_named structuralSignature 2
        ["data_range", "k_1", "k_2", "alpha", "beta", "gamma", "gaussian_weights"] kw _ hin (by simp)
      exact ⟨m, by simp only [hm]⟩
    case msssim | vsi | vif | fsim => exact Signature.bind_named _ _ _ _ _ hin (by simp)

example : ∃ m, unreadKeywords .gsm .plane ["data_range"] = .error (.typeError m) :=
  C170_data_range_refuted _ (by decide +kernel) _ _ (by simp)

theorem Signature.bind_positional (f : Signature) (n : Nat) (named kw : List String) (k : String) (hk : k ∈ kw)
    (hp : k ∈ f.params.take n) : ∃ m, f.bind n named kw = .error (.typeError m) := by
  unfold Signature.bind
  split_ifs with h1 h2
  · exact ⟨_, rfl⟩
  · exact ⟨_, rfl⟩
  · exfalso
    apply h2
    simp only [List.any_eq_true, List.contains_iff_mem, List.mem_append]
    exact ⟨k, Or.inr hk, hp⟩

/-- A keyword is rejected unless it is a parameter that is not given yet. -/
theorem Signature.bind_reject (f : Signature) (n : Nat) (named kw doc : List String) (k : String) (hk : k ∈ kw)
    (hp : ∀ p ∈ f.params, p ∈ named ∨ p ∈ f.params.take n ∨ p ∈ doc) (hd : k ∉ doc) (hr : f.rest = false) :
    ∃ m, f.bind n named kw = .error (.typeError m) := by
  by_cases h : k ∈ f.params
  · rcases hp k h with h | h | h
    · exact f.bind_named n named kw k hk h
    · exact f.bind_positional n named kw k hk h
    · exact absurd h hd
  · exact f.bind_unknown n named kw k hk h hr

/-- The same for functions with further keywords: it is rejected or goes on. -/
theorem Signature.bind_pass (f : Signature) (n : Nat) (named kw doc r : List String) (k : String) (hk : k ∈ kw)
    (hp : ∀ p ∈ f.params, p ∈ named ∨ p ∈ f.params.take n ∨ p ∈ doc) (hd : k ∉ doc)
    (h : f.bind n named kw = .ok r) : k ∈ r := by
  by_cases hkp : k ∈ f.params
  · exfalso
    rcases hp k hkp with h' | h' | h'
    · obtain ⟨m, hm⟩ := f.bind_named n named kw k hk h'
      rw [hm] at h; cases h
    · obtain ⟨m, hm⟩ := f.bind_positional n named kw k hk h'
      rw [hm] at h; cases h
    · exact absurd h' hd
  · rw [f.bind_value n named kw r h]
    simp [hk, hkp]

/-- **C170 for wrong names, partial.** Keywords that are not documented raise `TypeError` for nine classes, whatever else
is given. Missing: SSIM, UQI, MAD and the Q-measure, and `experimental` of the gradient similarity of volumes. -/
theorem C170_unknown_partial (c : MetricClass)
    (hc : c ≠ .ssim ∧ c ≠ .uqi ∧ c ≠ .mad ∧ c ≠ .qmeasure) (part : ScoredPart) (kws : List String) (k : String)
    (hk : k ∈ kws) (hdoc : k ∉ Spec.documentedKeywords c) (hex : ¬(c = .gsm ∧ part = .volume ∧ k = "experimental"))  :
    ∃ m, unreadKeywords c part kws = .error (.typeError m) := by
  have hp : ∀ p ∈ (scoreSignature c).params, p ∈ ([] : List String) ∨
      p ∈ (scoreSignature c).params.take (scorePositional c) ∨ p ∈ Spec.documentedKeywords c := by
    obtain ⟨h1, h2, h3, h4⟩ := hc
    cases c <;> first | contradiction | decide +kernel
  unfold unreadKeywords
  cases h1 : (scoreSignature c).bind (scorePositional c) [] kws with
  | error e =>
    obtain ⟨m, rfl⟩ := Signature.bind_error _ _ _ _ _ h1
    exact ⟨m, rfl⟩
  | ok kw =>
    have hin := Signature.bind_pass _ _ _ _ _ _ k hk hp hdoc h1
    simp only [bind, Except.bind]
    cases c
    case rmse | psnr =>
      exfalso
      obtain ⟨m, hm⟩ := Signature.bind_reject (scoreSignature .rmse) 3 [] kws _ k hk hp hdoc rfl
      have : (scoreSignature .rmse).bind 3 [] kws = .ok kw := h1
      rw [hm] at this
      cases this
    case ssim => exact absurd rfl hc.1
    case uqi => exact absurd rfl hc.2.1
    case mad => exact absurd rfl hc.2.2.1
    case qmeasure => exact absurd rfl hc.2.2.2
    case msssim | vsi | vif | fsim => exact Signature.bind_reject _ _ _ _ _ k hin (by decide +kernel) hdoc rfl
    case gsm =>
      cases part
      · exact Signature.bind_reject _ _ _ _ _ k hin (by decide +kernel) hdoc rfl
      · simp only
        cases h2 : gradient3dSignature.bind 2 ["data_range", "dim"] kw with
        | error e =>
          obtain ⟨m, rfl⟩ := Signature.bind_error _ _ _ _ _ h2
          exact ⟨m, rfl⟩
        | ok rest =>
          have hk' : k ∉ "experimental" :: Spec.documentedKeywords .gsm := by
            rw [List.mem_cons, not_or]
            exact ⟨fun h => hex ⟨rfl, rfl, h⟩, hdoc⟩
          have := Signature.bind_pass _ _ _ _ _ _ k hin (by decide +kernel) hk' h2
          exact Signature.bind_reject _ _ _ _ _ k this (by decide +kernel) hdoc rfl
    case cnr =>
      simp only
      cases h2 : cnrSignature.bind 1 [] (completed cnrKeys kw) with
      | error e =>
        obtain ⟨m, rfl⟩ := Signature.bind_error _ _ _ _ _ h2
        exact ⟨m, rfl⟩
      | ok rest =>
        have := Signature.bind_pass _ _ _ _ _ _ k (List.mem_append_left _ hin) (by decide +kernel) hdoc h2
        obtain ⟨m, hm⟩ := Signature.bind_reject loadSignature 1 [] rest _ k this (by decide +kernel) hdoc rfl
        exact ⟨m, by simp only [hm]⟩
    case snr =>
      simp only
      cases h2 : snrSignature.bind 1 [] (completed snrKeys kw) with
      | error e =>
        obtain ⟨m, rfl⟩ := Signature.bind_error _ _ _ _ _ h2
        exact ⟨m, rfl⟩
      | ok rest =>
        have := Signature.bind_pass _ _ _ _ _ _ k (List.mem_append_left _ hin) (by decide +kernel) hdoc h2
        obtain ⟨m, hm⟩ := Signature.bind_reject loadSignature 1 [] rest _ k this (by decide +kernel) hdoc rfl
        exact ⟨m, by simp only [hm]⟩

example : ∃ m, unreadKeywords .snr .plane ["radius", "signal_centre"] = .error (.typeError m) :=
  C170_unknown_partial _ (by decide +kernel) _ _ "signal_centre" (by simp) (by decide +kernel) (by decide +kernel)

/-- **C170 is false** for wrong names: SSIM, UQI, MAD and the Q-measure take every other name without a word, as `k_1` in place of
`K1`, for slices and volumes. -/
theorem C170_misspelled_refuted (c : MetricClass) (hc : c = .ssim ∨ c = .uqi ∨ c = .mad ∨ c = .qmeasure)
    (part : ScoredPart) (k : String) (hdoc : k ∉ Spec.documentedKeywords c)
    (hpos : k ∉ ["self", "img", "img_r", "img_m", "k_1", "k_2"]) :
    unreadKeywords c part [k] = .ok [k] := by
  simp only [List.mem_cons, List.not_mem_nil, or_false, not_or] at hpos
  obtain ⟨h1, h2, h3, h4, h5, h6⟩ := hpos
  rcases hc with rfl | rfl | rfl | rfl
  · simp only [Spec.documentedKeywords, List.mem_cons, List.not_mem_nil, or_false, not_or] at hdoc
    obtain ⟨d1, d2, d3, d4, d5, d6, d7, d8, d9, d10, d11, d12⟩ := hdoc
    simp [unreadKeywords, Signature.bind, scoreSignature, scorePositional, structuralSignature, structuralPopped, bind,
      Except.bind, pure, Except.pure, *]
  · simp only [Spec.documentedKeywords, List.mem_cons, List.not_mem_nil, or_false, not_or] at hdoc
    obtain ⟨d2, d3, d4, d5, d6, d7, d8, d9, d10, d11, d12⟩ := hdoc
    simp [unreadKeywords, Signature.bind, scoreSignature, scorePositional, structuralSignature, structuralPopped, bind,
      Except.bind, pure, Except.pure, *, Ne.symm h5, Ne.symm h6]
  · simp only [Spec.documentedKeywords, List.mem_cons, List.not_mem_nil, or_false, not_or] at hdoc
    obtain ⟨d1, d2, d3, d4, d5, d6, d7, d8, d9, d10, d11, d12, d13, d14, d15, d16, d17⟩ := hdoc
    cases part <;>
    simp [unreadKeywords, Signature.bind, scoreSignature, scorePositional, madSignature, mad3dSignature, madPopped, bind,
      Except.bind, pure, Except.pure, *]
  · simp only [Spec.documentedKeywords, List.mem_cons, List.not_mem_nil, or_false, not_or] at hdoc
    obtain ⟨d1, d2⟩ := hdoc
    simp [unreadKeywords, Signature.bind, scoreSignature, scorePositional, qmeasurePopped, bind,
      Except.bind, pure, Except.pure, *]

example : unreadKeywords .mad .volume ["dim_", "weigths"] ≠ .ok [] ∧ unreadKeywords .ssim .plane ["k1"] = .ok ["k1"] :=
  ⟨by decide +kernel, C170_misspelled_refuted _ (by decide) _ _ (by decide +kernel) (by decide +kernel)⟩

/-- **C170 is false** for regions given in part: a radius given to `score` without both centres is replaced by the one the
object remembers. -/
theorem C170_region_refuted : unreadKeywords .cnr .plane ["radius"] = .ok ["radius"] ∧
    unreadKeywords .snr .plane ["signal_center", "region_type"] = .ok ["signal_center"] := by
  decide +kernel

end Viqa
