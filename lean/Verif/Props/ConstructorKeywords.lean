import Verif.Model.ConstructorKeywords
import Verif.Props.Keywords

/-!
C179: keyword arguments of the constructors.
-/

namespace Viqa

/-- The documented keywords of the constructors: those of `load_data`, `chromatic`, and `name` for SNR. -/
def Spec.constructorKeywords : MetricClass → List String
  | .snr => ["data_range", "normalize", "batch", "roi", "chromatic", "name"]
  | _ => ["data_range", "normalize", "batch", "roi", "chromatic"]

/-- The metrics without reference image. -/
def Spec.withoutReference (c : MetricClass) : Prop := c = .cnr ∨ c = .snr ∨ c = .qmeasure

/-- A constructor never rejects a keyword; which ones are not read. -/
theorem constructor_unread (c : MetricClass) (kws : List String) (h : "self" ∉ kws) :
    ∃ u, unreadConstructorKeywords c kws = .ok u ∧
      ∀ k, k ∈ u ↔ k ∈ kws ∧ k ∉ ["data_range", "normalize"] ∧ k ∉ readParameters c := by
  have h1 : (constructorSignature c).bind 1 [] kws = .ok (([] ++ kws).filter (fun k => !(constructorSignature c).params.contains k)) := by
    apply Signature.bind_ok
    · intro k _; simp
    · intro k hk; simp at hk
    · intro k hk hs
      have : k = "self" := by cases c <;> simpa [constructorSignature] using hs
      exact h (this ▸ hk)
    · left; cases c <;> rfl
  unfold unreadConstructorKeywords
  rw [h1]
  have h2 : baseSignature.bind 1 (if c = .snr then ["data_range", "normalize", "name"] else ["data_range", "normalize"])
      (([] ++ kws).filter (fun k => !(constructorSignature c).params.contains k)) =
      .ok (((if c = .snr then ["data_range", "normalize", "name"] else ["data_range", "normalize"]) ++
        ([] ++ kws).filter (fun k => !(constructorSignature c).params.contains k)).filter (fun k => !baseSignature.params.contains k)) := by
    apply Signature.bind_ok
    · intro k hk hn
      simp only [List.nil_append, List.mem_filter, Bool.not_eq_true', List.contains_eq_mem, decide_eq_false_iff_not] at hk
      apply hk.2
      by_cases hc : c = .snr
      · subst hc
        simp at hn
        rcases hn with rfl | rfl | rfl <;> decide
      · rw [if_neg hc] at hn
        simp at hn
        rcases hn with rfl | rfl <;> cases c <;> decide
    · intro k hk hs
      have hk' : k = "self" := by simpa [baseSignature] using hs
      subst hk'
      split at hk <;> simp at hk
    · intro k hk hs
      have hk' : k = "self" := by simpa [baseSignature] using hs
      subst hk'
      simp [h] at hk
    · left; rfl
  show ∃ u, (baseSignature.bind 1 _ _ >>= _) = _ ∧ _
  rw [h2]
  refine ⟨_, rfl, fun k => ?_⟩
  simp only [List.nil_append, List.mem_filter, List.mem_append, Bool.not_eq_true', List.contains_eq_mem, decide_eq_false_iff_not,
    decide_eq_true_eq]
  have hself : k ∈ kws → k ≠ "self" := fun hk he => h (he ▸ hk)
  by_cases hc : c = .snr
  · subst hc
    simp only [if_true, constructorSignature, baseSignature, readParameters, snrKeys, List.mem_cons, List.not_mem_nil, or_false]
    constructor
    · rintro ⟨⟨⟨h3, h4⟩, h5⟩, h6⟩
      tauto
    · rintro ⟨h3, h4, h5⟩
      have := hself h3
      tauto
  · have hsig : (constructorSignature c).params = ["self", "data_range", "normalize"] := by
      cases c <;> first | rfl | exact absurd rfl hc
    rw [hsig, if_neg hc]
    simp only [baseSignature, List.mem_cons, List.not_mem_nil, or_false]
    constructor
    · rintro ⟨⟨⟨h3, h4⟩, h5⟩, h6⟩
      tauto
    · rintro ⟨h3, h4, h5⟩
      have := hself h3
      tauto

/-- **C179 (partial).** `data_range`, `normalize` and `roi` are accepted and read by all classes, `chromatic` by the metrics with
reference image. Missing: the other documented keywords and wrong names, see the refutations. -/
theorem C179_partial (c : MetricClass) (kws : List String)
    (h : ∀ k ∈ kws, k ∈ ["data_range", "normalize", "roi"] ∨ (k = "chromatic" ∧ ¬ Spec.withoutReference c)) :
    unreadConstructorKeywords c kws = .ok [] := by
  obtain ⟨u, hu, hk⟩ := constructor_unread c kws (by
    intro hs
    rcases h _ hs with h | h
    · simp at h
    · simp at h)
  rw [hu]
  congr 1
  rw [List.eq_nil_iff_forall_not_mem]
  intro k hku
  obtain ⟨h1, h2, h3⟩ := (hk k).1 hku
  rcases h k h1 with h | ⟨rfl, h⟩
  · simp only [List.mem_cons, List.not_mem_nil, or_false] at h h2
    rcases h with rfl | rfl | rfl
    · exact h2 (.inl rfl)
    · exact h2 (.inr rfl)
    · exact h3 (by cases c <;> decide)
  · apply h3
    cases c <;> first | decide | exact absurd (by simp [Spec.withoutReference]) h

/-- **C179 is false** for the keyword `batch` of `load_data`: all constructors accept it, whatever else is given, and nobody reads
it; the same for `name` of SNR, and for `chromatic` of the metrics without reference image. -/
theorem C179_dropped_refuted (c : MetricClass) (kws : List String) (hs : "self" ∉ kws) (k : String) (hk : k ∈ kws)
    (h : k = "batch" ∨ (k = "name" ∧ c = .snr) ∨ (k = "chromatic" ∧ Spec.withoutReference c)) :
    ∃ u, unreadConstructorKeywords c kws = .ok u ∧ k ∈ u := by
  obtain ⟨u, hu, hiff⟩ := constructor_unread c kws hs
  refine ⟨u, hu, (hiff k).2 ⟨hk, ?_, ?_⟩⟩
  · rcases h with rfl | ⟨rfl, -⟩ | ⟨rfl, -⟩ <;> decide
  · rcases h with rfl | ⟨rfl, rfl⟩ | ⟨rfl, h⟩
    · cases c <;> decide
    · decide
    · rcases h with rfl | rfl | rfl <;> decide

/-- **C179 is false** for wrong names: every constructor accepts every other name without a word, as `normalise=True`. (CNR and SNR
use `signal_center`, `background_center` and `radius`, although this is not documented; the widgets of SNR use four more names.) -/
theorem C179_unknown_refuted (c : MetricClass) (kws : List String) (hs : "self" ∉ kws) (k : String) (hk : k ∈ kws)
    (h : k ∉ Spec.constructorKeywords c) (hr : k ∉ ["signal_center", "background_center", "radius",
      "region_type", "iterations", "lower_threshold", "upper_threshold"]) :
    ∃ u, unreadConstructorKeywords c kws = .ok u ∧ k ∈ u := by
  obtain ⟨u, hu, hiff⟩ := constructor_unread c kws hs
  refine ⟨u, hu, (hiff k).2 ⟨hk, ?_, ?_⟩⟩
  · intro h'
    apply h
    simp only [List.mem_cons, List.not_mem_nil, or_false] at h'
    rcases h' with rfl | rfl <;> cases c <;> decide
  · intro h'
    have hd : ∀ x ∈ readParameters c, x ∈ Spec.constructorKeywords c ∨ x ∈ ["signal_center", "background_center", "radius",
        "region_type", "iterations", "lower_threshold", "upper_threshold"] := by
      cases c <;> decide
    rcases hd k h' with h1 | h1
    · exact h h1
    · exact hr h1

example : unreadConstructorKeywords .fsim ["roi", "chromatic", "data_range"] = .ok [] :=
  C179_partial .fsim _ (by simp [Spec.withoutReference])

example : ∃ u, unreadConstructorKeywords .snr ["name", "roi"] = .ok u ∧ "name" ∈ u :=
  C179_dropped_refuted .snr _ (by decide) "name" (by decide) (.inr (.inl ⟨rfl, rfl⟩))

example : ∃ u, unreadConstructorKeywords .ssim ["normalise", "data_range"] = .ok u ∧ "normalise" ∈ u :=
  C179_unknown_refuted .ssim _ (by decide) "normalise" (by decide) (by decide) (by decide)

end Viqa
