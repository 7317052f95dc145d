import Verif.Model.CopyImages

/-! C186: the copied images are those of the pair file. -/

namespace Viqa

variable {C : Type}

/-- The rows of the pair file are the names of the pairs. -/
theorem pairedFiles_names (refs mods : List (Txt × C)) :
    (pairedFiles refs mods).map (fun p => (p.1.1, p.2.1)) = pairRows (refs.map Prod.fst) (mods.map Prod.fst) := by
  unfold pairedFiles pairRows
  induction refs with
  | nil => rfl
  | cons r refs ih =>
    rw [List.flatMap_cons, List.map_append, ih, List.map_cons, List.flatMap_cons]
    congr 1
    clear ih
    induction mods with
    | nil => rfl
    | cons m mods ih =>
      rw [List.map_cons, List.filterMap_cons, List.filterMap_cons]
      by_cases h : stem r.1 = m.1.take 3
      · simp only [if_pos h, List.map_cons, ih]
      · simp only [if_neg h, ih]

theorem mem_pairedFiles (refs mods : List (Txt × C)) (p : (Txt × C) × (Txt × C)) :
    p ∈ pairedFiles refs mods ↔ p.1 ∈ refs ∧ p.2 ∈ mods ∧ stem p.1.1 = p.2.1.take 3 := by
  unfold pairedFiles
  simp only [List.mem_flatMap, List.mem_filterMap]
  constructor
  · rintro ⟨r, hr, m, hm, h⟩
    split at h
    · rename_i hs
      cases h
      exact ⟨hr, hm, hs⟩
    · cases h
  · rintro ⟨hr, hm, hs⟩
    exact ⟨p.1, hr, p.2, hm, by rw [if_pos hs]⟩

theorem copyFile_keep (d : Folder C) (f : Txt × C) (n : Txt) (c : C) (h : d n = some c) : copyFile d f n = some c := by
  unfold copyFile
  by_cases hf : (d f.1).isSome
  · rw [if_pos hf]; exact h
  · rw [if_neg hf]
    have hn : n ≠ f.1 := by
      intro hn
      rw [← hn, h] at hf
      exact hf rfl
    simp only [if_neg hn, h]

theorem copyFile_new (d : Folder C) (f : Txt × C) (h : d f.1 = none) : copyFile d f f.1 = some f.2 := by
  unfold copyFile
  rw [h]
  simp

theorem copyFile_source (d : Folder C) (f : Txt × C) (n : Txt) (c : C) (h : copyFile d f n = some c) : d n = some c ∨ (n, c) = f := by
  unfold copyFile at h
  by_cases hf : (d f.1).isSome
  · rw [if_pos hf] at h; exact .inl h
  · rw [if_neg hf] at h
    by_cases hn : n = f.1
    · simp only [if_pos hn] at h
      cases h
      exact .inr (by rw [hn])
    · simp only [if_neg hn] at h
      exact .inl h

theorem copyPairs_keep (l : List ((Txt × C) × (Txt × C))) (d : Folder C) (n : Txt) (c : C) (h : d n = some c) :
    l.foldl copyPair d n = some c := by
  induction l generalizing d with
  | nil => exact h
  | cons p l ih => exact ih _ (copyFile_keep _ _ _ _ (copyFile_keep _ _ _ _ h))

theorem copyPairs_source (l : List ((Txt × C) × (Txt × C))) (d : Folder C) (n : Txt) (c : C) (h : l.foldl copyPair d n = some c) :
    d n = some c ∨ ∃ p ∈ l, (n, c) = p.1 ∨ (n, c) = p.2 := by
  induction l generalizing d with
  | nil => exact .inl h
  | cons p l ih =>
    rcases ih _ h with h | ⟨q, hq, hs⟩
    · rcases copyFile_source _ _ _ _ h with h | h
      · rcases copyFile_source _ _ _ _ h with h | h
        · exact .inl h
        · exact .inr ⟨p, List.mem_cons_self, .inl h⟩
      · exact .inr ⟨p, List.mem_cons_self, .inr h⟩
    · exact .inr ⟨q, List.mem_cons_of_mem _ hq, hs⟩

theorem copyPairs_there (l : List ((Txt × C) × (Txt × C))) (d : Folder C) (p : (Txt × C) × (Txt × C)) (hp : p ∈ l) :
    (∃ c, l.foldl copyPair d p.1.1 = some c) ∧ ∃ c, l.foldl copyPair d p.2.1 = some c := by
  have one : ∀ (d : Folder C) (f : Txt × C), ∃ c, copyFile d f f.1 = some c := by
    intro d f
    cases h : d f.1 with
    | some c => exact ⟨c, copyFile_keep d f _ c h⟩
    | none => exact ⟨_, copyFile_new d f h⟩
  induction l generalizing d with
  | nil => cases hp
  | cons q l ih =>
    rw [List.mem_cons] at hp
    rcases hp with rfl | hp
    · obtain ⟨c, hc⟩ := one d p.1
      obtain ⟨c', hc'⟩ := one (copyFile d p.1) p.2
      exact ⟨⟨c, copyPairs_keep l _ _ _ (copyFile_keep _ _ _ _ hc)⟩, ⟨c', copyPairs_keep l _ _ _ hc'⟩⟩
    · exact ih _ hp

/-- A list of files in which every name occurs with one content, as in a directory. -/
def Spec.OneFolder (l : List (Txt × C)) : Prop := ∀ f ∈ l, ∀ g ∈ l, f.1 = g.1 → f = g

/-- **C186 (partial).** In a new folder, if no modified image has the name of a reference image: for every row of the pair file
the copies are the two images of the row, and nothing else is copied. -/
theorem C186_partial (refs mods : List (Txt × C)) (hr : Spec.OneFolder refs) (hm : Spec.OneFolder mods)
    (hd : ∀ r ∈ refs, ∀ m ∈ mods, r.1 ≠ m.1) (r m : Txt × C) (hrr : r ∈ refs) (hmm : m ∈ mods)
    (hrow : (r.1, m.1) ∈ pairRows (refs.map Prod.fst) (mods.map Prod.fst)) :
    copiedImages (fun _ => none) refs mods r.1 = some r.2 ∧ copiedImages (fun _ => none) refs mods m.1 = some m.2 := by
  have hp : (r, m) ∈ pairedFiles refs mods := by
    rw [← pairedFiles_names, List.mem_map] at hrow
    obtain ⟨q, hq, he⟩ := hrow
    have h1 := (mem_pairedFiles refs mods q).1 hq
    have e1 : q.1 = r := hr _ h1.1 _ hrr (Prod.mk.inj he).1
    have e2 : q.2 = m := hm _ h1.2.1 _ hmm (Prod.mk.inj he).2
    rw [← e1, ← e2]
    exact hq
  obtain ⟨⟨c, hc⟩, ⟨c', hc'⟩⟩ := copyPairs_there (pairedFiles refs mods) (fun _ => none) (r, m) hp
  constructor
  · unfold copiedImages
    rw [hc]
    rcases copyPairs_source _ _ _ _ hc with h | ⟨q, hq, h | h⟩
    · cases h
    · have h1 := (mem_pairedFiles refs mods q).1 hq
      have : q.1 = r := hr _ h1.1 _ hrr (by rw [← h])
      rw [← this, ← h]
    · have h1 := (mem_pairedFiles refs mods q).1 hq
      exact absurd (by rw [← h]) (hd r hrr q.2 h1.2.1)
  · unfold copiedImages
    rw [hc']
    rcases copyPairs_source _ _ _ _ hc' with h | ⟨q, hq, h | h⟩
    · cases h
    · have h1 := (mem_pairedFiles refs mods q).1 hq
      exact absurd (by rw [← h]) (hd q.1 h1.1 m hmm)
    · have h1 := (mem_pairedFiles refs mods q).1 hq
      have : q.2 = m := hm _ h1.2.1 _ hmm (by rw [← h])
      rw [← this, ← h]

/-- **C186.** Every file in the folder was there before or is an image of a row, with the content of that image. -/
theorem C186_only (d : Folder C) (refs mods : List (Txt × C)) (n : Txt) (c : C) (h : copiedImages d refs mods n = some c) :
    d n = some c ∨ ∃ r ∈ refs, ∃ m ∈ mods, stem r.1 = m.1.take 3 ∧ ((n, c) = r ∨ (n, c) = m) := by
  rcases copyPairs_source _ _ _ _ h with h | ⟨q, hq, h⟩
  · exact .inl h
  · have h1 := (mem_pairedFiles refs mods q).1 hq
    exact .inr ⟨q.1, h1.1, q.2, h1.2.1, h1.2.2, h⟩

/-- **C186 is false** if an image and its reference have the same file name (in their two directories): both names of the row
lead to the copy of the reference. -/
theorem C186_same_name_refuted (name : Txt) (hn : stem name = name.take 3) (reference modified : C) :
    pairRows [name] [name] = [(name, name)] ∧
    copiedImages (fun _ => none) [(name, reference)] [(name, modified)] name = some reference := by
  constructor
  · simp [pairRows, hn]
  · unfold copiedImages pairedFiles
    simp only [List.flatMap_cons, List.flatMap_nil, List.filterMap_cons, List.filterMap_nil, hn, if_true, List.append_nil, List.foldl_cons,
      List.foldl_nil]
    exact copyFile_keep _ _ _ _ (copyFile_new _ _ rfl)

/-- **C186 is false** in a folder that exists: files of an earlier run stay, whatever the images are now. -/
theorem C186_stale_refuted (d : Folder C) (refs mods : List (Txt × C)) (n : Txt) (old : C) (h : d n = some old) :
    copiedImages d refs mods n = some old := copyPairs_keep _ _ _ _ h

/-- Two images and their reference. -/
example : copiedImages (fun _ => none) [("a12.raw".toList, 1), ("b12.raw".toList, 2)]
    [("a12_noise.raw".toList, 3), ("b12_noise.raw".toList, 4), ("a12_blur.raw".toList, 5)] "a12_blur.raw".toList = some 5 := by
  refine (C186_partial (C := Nat) _ _ ?_ ?_ ?_ ("a12.raw".toList, 1) ("a12_blur.raw".toList, 5) (by decide) (by decide) (by decide)).2
  · unfold Spec.OneFolder; decide
  · unfold Spec.OneFolder; decide
  · decide

/-- The image is compared with a copy of the reference. -/
example : copiedImages (fun _ => none) [("a12.raw".toList, 1)] [("a12.raw".toList, 2)] "a12.raw".toList = some 1 :=
  (C186_same_name_refuted "a12.raw".toList (by decide) 1 2).2

end Viqa
