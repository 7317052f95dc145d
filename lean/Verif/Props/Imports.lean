import Verif.Model.Imports
import Verif.Props.Display

/-!
C116: optional packages; C117: choosing centres outside of notebooks.
-/

namespace Viqa

section
variable {V : Type} (sys : Modules V)

/-- An object can be imported: the module loads and has the attribute, if one is asked for. -/
inductive Importable : Txt → Option Txt → V → Prop
  | module (m : Txt) (v : V) : sys.load m = .ok v → Importable m none v
  | name (m n : Txt) (v w : V) : sys.load m = .ok v → n ≠ [] → sys.attr v n = some w → Importable m (some n) w

/-- **C116.** Success is reported exactly if the object can be imported, with this object and without a warning. -/
theorem C116_found_iff (m : Txt) (name : Option Txt) (hn : name ≠ some []) (v : V) :
    tryImport sys m name = ([], .ok (some v, true)) ↔ Importable sys m name v := by
  constructor
  · intro h
    unfold tryImport at h
    cases hm : sys.load m with
    | error e => rw [hm] at h; cases e <;> simp at h
    | ok x =>
      rw [hm] at h
      rcases name with _ | _ | ⟨c, n⟩
      · simp only [Prod.mk.injEq, Except.ok.injEq, Option.some.injEq, and_true, true_and] at h
        subst h
        exact .module m x hm
      · exact absurd rfl hn
      · dsimp only at h
        cases ha : sys.attr x (c :: n) with
        | none => simp [ha] at h
        | some w =>
          simp only [ha, Prod.mk.injEq, Except.ok.injEq, Option.some.injEq, and_true, true_and] at h
          subst h
          exact .name m _ x w hm (by simp) ha
  · intro h
    cases h with
    | module _ h => simp [tryImport, h]
    | name n w _ hl hne ha =>
      cases n with
      | nil => exact absurd rfl hne
      | cons c n => simp [tryImport, hl, ha]

example : Importable (⟨fun _ => .ok 3, fun v n => if n = ['x'] then some (v + 1) else none⟩ : Modules Nat) ['m'] (some ['x']) 4 :=
  (C116_found_iff _ _ _ (by decide) 4).1 rfl

/-- **C116, partial.** A package that is not installed gives `(None, False)` and one warning that names it, whatever name
is asked for. Missing: a missing name in an installed package (`C116_name_refuted`). -/
theorem C116_missing_partial (m : Txt) (name : Option Txt) (h : sys.load m = .error .importError) :
    tryImport sys m name = ([m], .ok (none, false)) := by
  simp [tryImport, h]

example : tryImport (⟨fun m => if m = ['m'] then .error .importError else .ok 3, fun _ _ => none⟩ : Modules Nat) ['m'] none = ([['m']], .ok (none, false)) :=
  C116_missing_partial _ _ _ rfl

/-- **C116, refuted**: a missing name in an installed package is not reported as `(None, False)`, AttributeError is raised
instead; other exceptions of a package are not caught either. -/
theorem C116_name_refuted (m n : Txt) (v : V) (hn : n ≠ []) (h : sys.load m = .ok v) (ha : sys.attr v n = none) :
    tryImport sys m (some n) = ([], .error (.attributeError "")) := by
  cases n with
  | nil => exact absurd rfl hn
  | cons c n => simp [tryImport, h, ha]

/-- **C116, partial.** If each of the two optional packages is missing or complete, CNR and SNR can be imported, and the
interactive choice raises an ImportError exactly if one is missing; the message names exactly the missing ones. -/
theorem C116_interactive_partial (hasWidgets hasIPython : Bool) (w p d : V)
    (hw : sys.load "ipywidgets".toList = if hasWidgets then .ok w else .error .importError)
    (hp : sys.load "IPython.display".toList = if hasIPython then .ok p else .error .importError)
    (hd : sys.attr p "display".toList = some d) :
    ∃ r, interactiveMetric sys = .ok r ∧ (r = .ok () ↔ hasWidgets = true ∧ hasIPython = true) ∧
      ∀ l, r = .error l → (("ipywidgets" ∈ l ↔ hasWidgets = false) ∧ ("IPython" ∈ l ↔ hasIPython = false) ∧
        ∀ x ∈ l, x = "ipywidgets" ∨ x = "IPython") := by
  have h1 : (tryImport sys "ipywidgets".toList none).2 = .ok (if hasWidgets then some w else none, hasWidgets) := by
    cases hasWidgets <;> simp only [tryImport, hw] <;> rfl
  have h2 : (tryImport sys "IPython.display".toList (some "display".toList)).2 =
      .ok (if hasIPython then some d else none, hasIPython) := by
    have hc : "display".toList = 'd' :: "isplay".toList := by decide +kernel
    rw [hc] at hd ⊢
    cases hasIPython <;> simp only [tryImport, hp]
    · rfl
    · simp only [if_true, hd]
  refine ⟨checkInteractive hasWidgets hasIPython, ?_, ?_, ?_⟩
  · unfold interactiveMetric
    rw [h1, h2]
    rfl
  · cases hasWidgets <;> cases hasIPython <;> simp [checkInteractive]
  · cases hasWidgets <;> cases hasIPython <;> simp [checkInteractive]

example : tryImport (⟨fun _ => .ok 3, fun v n => if n = ['x'] then some (v + 1) else none⟩ : Modules Nat) ['m'] (some ['x']) =
    ([], .ok (some 4, true)) := rfl

example : tryImport (⟨fun _ => .error .importError, fun _ _ => none⟩ : Modules Nat) ['m'] (some ['x']) =
    ([['m']], .ok (none, false)) := rfl

end

/-- **C117, refuted** for CNR: outside of notebooks `set_centers` raises ImportError for every image, every stored or given
choice of centres and radius, although nothing is missing. -/
theorem C117_refuted {α : Type} (a : NDArray α) (stored : StoredRegions) (signal background : List NumArg)
    (radius : Option NumArg) : setCentersPlain a stored signal background radius none = .error .importError := by
  obtain ⟨e, h⟩ := C102_refuted a stored signal background radius
  simp [setCentersPlain, h]

/-- **C117, partial.** With the undocumented argument `region_type`, the regions of a volume inside of the borders are
shown. -/
theorem C117_shown_partial {α : Type} (a : NDArray α) (n0 n1 n2 : Nat) (hs : a.shape = [n0, n1, n2]) (s b : Nat × Nat × Nat)
    (r : Nat) (hr : 0 < r) (hsr : r ≤ s.1 ∧ r ≤ s.2.1 ∧ r ≤ s.2.2) (hbr : r ≤ b.1 ∧ r ≤ b.2.1 ∧ r ≤ b.2.2)
    (hsi : s.1 < n0 ∧ s.2.1 < n1 ∧ s.2.2 < n2) (hbi : b.1 < n0 ∧ b.2.1 < n1 ∧ b.2.2 < n2)
    (stored : StoredRegions) (t : String) (ht : regionKind t = .cubic ∨ regionKind t = .spherical) :
    ∃ ps, setCentersPlain a stored [.int s.1, .int s.2.1, .int s.2.2] [.int b.1, .int b.2.1, .int b.2.2]
      (some (.int r)) (some t) = .ok ps ∧ ps.length = 6 := by
  obtain ⟨ps, h, hl⟩ := C102_shown_partial a n0 n1 n2 hs s b r hr hsr hbr hsi hbi stored t ht
  exact ⟨ps, by simp [setCentersPlain, h], hl⟩

example : setCentersPlain (⟨[9, 9, 9], fun _ => 0⟩ : NDArray Nat) none [.int 2, .int 2, .int 2] [.int 5, .int 5, .int 5]
    (some (.int 1)) none = .error .importError := C117_refuted _ _ _ _ _

example : ∃ ps, setCentersPlain (⟨[9, 9, 9], fun _ => 0⟩ : NDArray Nat) none [.int 2, .int 2, .int 2]
    [.int 5, .int 5, .int 5] (some (.int 1)) (some "cubic") = .ok ps ∧ ps.length = 6 :=
  C117_shown_partial _ 9 9 9 rfl (2, 2, 2) (5, 5, 5) 1 (by omega) (by simp) (by simp) (by simp) (by simp) none "cubic"
    (Or.inl (by decide +kernel))

end Viqa
