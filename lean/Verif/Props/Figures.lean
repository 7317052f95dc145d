import Verif.Model.Figures
import Verif.Props.Display

/-!
C113 (saved visualizations show the image), C114 (figures do not accumulate) and C115 (`ImageArray.visualize`).
-/

namespace Viqa

section Saved
variable {D : Type}

theorem content_append (s : Pyplot D) (l : List (Txt × List D)) (p : Txt) (f : List D) :
    ({ s with saved := l ++ [(p, f)] } : Pyplot D).content p = some f := by
  simp [Pyplot.content]

/-- **C113, partial.** The file saved by a visualization contains what was drawn exactly if the figure is not displayed
or the backend keeps displayed figures; otherwise the file shows an empty figure. For every state of `pyplot` before.
Missing: backends that close displayed figures (`C113_refuted`). -/
theorem C113_saved_iff_partial (closes showIt : Bool) (d : D) (path : Txt) (hp : path ≠ []) (s : Pyplot D) :
    (visualizeFigure closes showIt d (some path) s).content path =
      some (if showIt && closes then [] else [d]) := by
  cases path with
  | nil => exact absurd rfl hp
  | cons c p =>
    cases closes <;> cases showIt <;>
      simp [visualizeFigure, Pyplot.newFigure, Pyplot.draw, Pyplot.display, Pyplot.savefig, Pyplot.content]

/-- **C113, refuted** for notebooks and for windows: `visualize`, `visualize_2d` and `visualize_3d` never save what they
show. -/
theorem C113_refuted (d : D) (path : Txt) (hp : path ≠ []) (s : Pyplot D) :
    (visualizeFigure true true d (some path) s).content path = some [] ∧
    [d] ∈ (visualizeFigure true true d (some path) s).shown.getLastD [] := by
  refine ⟨C113_saved_iff_partial true true d path hp s, ?_⟩
  cases path with
  | nil => exact absurd rfl hp
  | cons c p => simp [visualizeFigure, Pyplot.newFigure, Pyplot.draw, Pyplot.display, Pyplot.savefig]

/-- **C113, partial.** The file saved by `export_image` contains what was drawn, for every backend and every state of
`pyplot` before. Without a path nothing is saved. -/
theorem C113_export_partial (closes showImage : Bool) (d : D) (s : Pyplot D) :
    (∀ path, (exportFigure closes showImage d (some path) s).content path = some [d]) ∧
    (exportFigure closes showImage d none s).saved = s.saved := by
  constructor
  · intro path
    cases showImage <;>
      simp [exportFigure, Pyplot.newFigure, Pyplot.draw, Pyplot.display, Pyplot.savefig, Pyplot.content]
  · simp [exportFigure, Pyplot.newFigure, Pyplot.draw, Pyplot.display]

example : (visualizeFigure false true 'v' (some ['p']) { figures := [['x']] }).content ['p'] = some ['v'] :=
  C113_saved_iff_partial false true 'v' ['p'] (by simp) _

/-- **C114, refuted** for reports: a report that saves `n` comparison images leaves `n` more figures open, whatever the
backend does, and nothing is closed. -/
theorem C114_refuted (closes : Bool) (drawings : List (D × Txt)) (s : Pyplot D) :
    (batchFigures closes (drawings.map (fun e => (e.1, some e.2))) s).figures =
      (drawings.reverse.map (fun e => [e.1])) ++ s.figures ∧
    (batchFigures closes (drawings.map (fun e => (e.1, some e.2))) s).figures.length =
      s.figures.length + drawings.length := by
  have h : (batchFigures closes (drawings.map (fun e => (e.1, some e.2))) s).figures =
      (drawings.reverse.map (fun e => [e.1])) ++ s.figures := by
    unfold batchFigures
    induction drawings generalizing s with
    | nil => simp
    | cons e l ih =>
      rw [List.map_cons, List.foldl_cons, ih]
      simp [exportFigure, Pyplot.newFigure, Pyplot.draw, Pyplot.savefig]
  refine ⟨h, ?_⟩
  rw [h]
  simp [Nat.add_comm]

/-- **C114, refuted** for what is displayed next: a visualization after a report also shows all figures of the report. -/
theorem C114_shown_again_refuted (closes : Bool) (drawings : List (D × Txt)) (d : D) (path : Option Txt) :
    (visualizeFigure closes true d path (batchFigures closes (drawings.map (fun e => (e.1, some e.2))) {})).shown.getLast? =
      some ([d] :: drawings.reverse.map (fun e => [e.1])) := by
  have h := (C114_refuted closes drawings {}).1
  unfold visualizeFigure
  rcases path with _ | _ | ⟨c, p⟩ <;> cases closes <;>
    simp [Pyplot.newFigure, Pyplot.draw, Pyplot.display, Pyplot.savefig, h]

/-- **C114, partial.** With a backend that closes displayed figures, a visualization that is displayed and not saved, and a
comparison image that is displayed, leave no figure open. -/
theorem C114_closed_partial (d : D) (s : Pyplot D) :
    (visualizeFigure true true d none s).figures = [] ∧
    (∀ path, (exportFigure true true d path s).figures = []) ∧
    (exportFigure true false d none s).figures = [] := by
  refine ⟨rfl, fun path => ?_, rfl⟩
  cases path <;> rfl

/-- **C114, refuted** for a single visualization that is saved: the empty figure stays open. -/
theorem C114_visualize_refuted (d : D) (path : Txt) (hp : path ≠ []) (s : Pyplot D) :
    (visualizeFigure true true d (some path) s).figures = [[]] := by
  cases path with
  | nil => exact absurd rfl hp
  | cons c p => rfl

example : (batchFigures true [('a', some ['1']), ('b', some ['2'])] {}).figures = [['b'], ['a']] :=
  (C114_refuted true [('a', ['1']), ('b', ['2'])] {}).1

end Saved

section Visualize
variable {α : Type}

/-- **C115, partial.** `visualize` of a volume (more or less than three slices along the last axis) shows the three views
exactly for valid slices; without slices it raises the documented ValueError; there are no warnings. -/
theorem C115_volume_partial (img : NDArray α) (n0 n1 n2 : Nat) (hs : img.shape = [n0, n1, n2]) (h3 : n2 ≠ 3)
    (slices : Option (List NumArg)) :
    (visualizeArray img slices).1 = [] ∧
    ((∃ p, (visualizeArray img slices).2 = .ok p) ↔ ∃ l, slices = some l ∧ ValidSlices n0 n1 n2 l) ∧
    (slices = none ∨ slices = some [] →
      (visualizeArray img slices).2 = .error (.valueError "Parameter slices must be set for 3D images.")) ∧
    (∀ l, l ≠ [] → slices = some l → (visualizeArray img slices).2 = visualize3d img l) := by
  have hv : img.ndim = 3 ∧ img.lastDim ≠ 3 := by simp [NDArray.ndim, NDArray.lastDim, hs, h3]
  unfold visualizeArray
  rw [if_pos hv]
  rcases slices with _ | _ | ⟨a, l⟩
  · simp
  · refine ⟨rfl, ⟨?_, ?_⟩, fun _ => rfl, ?_⟩
    · rintro ⟨p, hp⟩
      cases hp
    · rintro ⟨l, hl, hv⟩
      cases hl
      obtain ⟨p, hp⟩ := (C67_shown_iff img n0 n1 n2 hs []).2 hv
      simp [visualize3d] at hp
    · intro l hl hl'
      cases hl'
      exact absurd rfl hl
  · refine ⟨rfl, ?_, ?_, ?_⟩
    · dsimp only
      rw [C67_shown_iff img n0 n1 n2 hs]
      constructor
      · exact fun h => ⟨_, rfl, h⟩
      · rintro ⟨l', hl, hv⟩
        cases hl
        exact hv
    · rintro (h | h) <;> cases h
    · rintro l' - h
      cases h
      rfl

/-- **C115, partial.** A 2D image is shown, with one warning exactly if slices are given. -/
theorem C115_plane_partial (img : NDArray α) (h2 : img.ndim = 2) (slices : Option (List NumArg)) :
    (visualizeArray img slices).2 = .ok [{ shown := img }] ∧
    ((visualizeArray img slices).1 = [] ↔ slices = none ∨ slices = some []) := by
  unfold visualizeArray
  rw [if_neg (by omega), if_pos (Or.inl h2)]
  refine ⟨by simp [visualize2d, h2, Except.map], ?_⟩
  rcases slices with _ | _ | ⟨a, l⟩ <;> simp

/-- **C115, refuted** for the kind of warning: it is never the documented UserWarning. -/
theorem C115_category_refuted (img : NDArray α) (slices : Option (List NumArg)) :
    .user ∉ (visualizeArray img slices).1 := by
  unfold visualizeArray
  split
  · rcases slices with _ | _ | ⟨a, l⟩ <;> simp
  · split
    · rcases slices with _ | _ | ⟨a, l⟩ <;> simp
    · simp

/-- **C115, refuted** for colour images, which are treated as 2D images: no colour image can be shown, with or without
slices. The same holds for volumes with three slices along the last axis. -/
theorem C115_colour_refuted (img : NDArray α) (n0 n1 : Nat) (hs : img.shape = [n0, n1, 3]) (slices : Option (List NumArg)) :
    (visualizeArray img slices).2 = .error (.valueError "The image must be 2D.") := by
  have hn : img.ndim = 3 := by simp [NDArray.ndim, hs]
  have hl : img.lastDim = 3 := by simp [NDArray.lastDim, hs]
  unfold visualizeArray
  rw [if_neg (by simp [hl]), if_pos (Or.inr ⟨hn, hl⟩)]
  simp [visualize2d, hn, Except.map]

/-- **C115.** All other numbers of dimensions are refused with the documented ValueError. -/
theorem C115_dimensions (img : NDArray α) (h : img.ndim ≠ 2 ∧ img.ndim ≠ 3) (slices : Option (List NumArg)) :
    visualizeArray img slices = ([], .error (.valueError "Image must be 2D or 3D.")) := by
  unfold visualizeArray
  rw [if_neg (by omega), if_neg (by omega)]

example : (visualizeArray (⟨[2, 2], fun _ => 0⟩ : NDArray Nat) (some [.int 0, .int 0, .int 0])).1 = [.runtime] := rfl

example : ∃ p, (visualizeArray (⟨[2, 4, 5], fun _ => 0⟩ : NDArray Nat) (some [.int 1, .int (-4), .int 4])).2 = .ok p :=
  ⟨_, rfl⟩

end Visualize

/-- C114 with a backend that closes the figures. -/
example : (exportFigure true true 'v' (some ['p']) { figures := [['x']] }).figures = [] := (C114_closed_partial 'v' _).2.1 _

/-- C115 for an image and a volume. -/
example : (visualizeArray (⟨[2, 2], fun i => i⟩ : NDArray (List Nat)) none).1 = [] := ((C115_plane_partial _ rfl none).2).2 (.inl rfl)

example : ¬ ∃ p, (visualizeArray (⟨[2, 4, 5], fun i => i⟩ : NDArray (List Nat)) (some [.int 1, .int (-5), .int 4])).2 = .ok p := fun h => by
  obtain ⟨l, hl, x, y, z, e, hx, hy, hz⟩ := (C115_volume_partial _ 2 4 5 rfl (by decide) _).2.1.1 h
  cases hl
  cases e
  omega

end Viqa
