import Verif.Model.MatScript
import Verif.Props.NormalizeSigned

/-! C121: `write_to_mat.py`. -/

namespace Viqa
open Spec

/-- The folder can be converted: its volume is loaded and has at least two grey values, and its range fits
into its own type. -/
def Convertible (e : MatEntry) (m M : Rat) (img : Image Rat) : Prop :=
  e.load = .ok img ∧ HasRange img.arr m M ∧ m < M ∧
    (img.dtype.isFloating = true ∧ (img.dtype = .f16 → M - m < 65520) ∨
      ∃ a b : Int, m = a ∧ M = b ∧ img.dtype.isInteger = true ∧
        IntegerPixels img.arr img.dtype.intMin img.dtype.intMax ∧ b - a ≤ img.dtype.intMax)

/-- The file holds the image with its grey values mapped linearly onto 0 to 1, as 32 bit floats. -/
def Spec.HoldsUnitImage (f : MatFile) (m M : Rat) (img : Image Rat) : Prop :=
  ∃ r, f = .image ⟨.f32, r⟩ ∧ PixelMap (fun p => (p - m) / (M - m)) img.arr r

theorem unit_normalized (ident : Bool) {e : MatEntry} {m M : Rat} {img : Image Rat} (h : Convertible e m M img) :
    ∃ r, (normalizeData ident img (0, 1) none true).val = .ok ⟨.f32, r⟩ ∧
      PixelMap (fun p => (p - m) / (M - m)) img.arr r := by
  have hf : (fun p => quantize 1 (linearTo 1 m M p)) = fun p : Rat => (p - m) / (M - m) := by
    funext p; simp [quantize, linearTo]
  obtain ⟨-, hr, hlt, h⟩ := h
  rcases h with ⟨hfl, h16⟩ | ⟨a, b, rfl, rfl, hint, hpix, hfit⟩
  · obtain ⟨r, h1, h2⟩ := C11_linear_map_partial ident img 1 none m M hr hlt hfl (Or.inl rfl) (fun h => ⟨h16 h, by simp⟩)
    exact ⟨r, by rw [h1]; rfl, hf ▸ h2⟩
  · have hab : a < b := by exact_mod_cast hlt
    rcases hu : img.dtype.isUnsigned with _ | _
    · obtain ⟨r, h1, h2⟩ := C13_signed_partial ident img 1 none a b hr hab hint hu
        (by simpa [DType.intMin, DType.intMax, hu] using hpix) (Or.inl rfl)
        (by simp [DType.intMax, hu] at hfit; omega)
        (by
          have : signedProductBits img.dtype.bits 1 = img.dtype.bits := by
            revert hint; cases img.dtype <;> simp [DType.isInteger, DType.bits, signedProductBits]
          simp [DType.intMax, hu] at hfit
          rw [this]; omega)
      exact ⟨r, by rw [h1]; rfl, hf ▸ h2⟩
    · obtain ⟨r, h1, h2⟩ := C13_documented_formula_partial ident img 1 none a b hr hab hu
        (by simpa [DType.intMin, DType.intMax, hu] using hpix) (Or.inl rfl) (by simp) (by simp)
        (by
          have : productBits img.dtype.bits 1 = img.dtype.bits := by
            revert hint; cases img.dtype <;> simp [DType.isInteger, DType.bits, productBits]
          simp [DType.intMax, hu] at hfit
          rw [this]; omega)
      exact ⟨r, by rw [h1]; rfl, hf ▸ h2⟩

theorem matLoop_converts (ident : Bool) (l : List MatEntry) (n : Nat)
    (h : ∀ e ∈ l, ∃ m M img, Convertible e m M img) :
    (matLoop ident l n).2 = .ok (n + l.length) ∧
    List.Forall₂ (fun e p => p.1 = e.name ∧ ∃ m M img, Convertible e m M img ∧ Spec.HoldsUnitImage p.2 m M img)
      l (matLoop ident l n).1 := by
  induction l generalizing n with
  | nil => simp [matLoop]
  | cons e es ih =>
    obtain ⟨m, M, img, hc⟩ := h e (by simp)
    obtain ⟨r, h1, h2⟩ := unit_normalized ident hc
    obtain ⟨h3, h4⟩ := ih (n + 1) (fun e he => h e (by simp [he]))
    simp only [matLoop, hc.1, h1]
    refine ⟨by rw [h3]; simp; omega, List.Forall₂.cons ⟨rfl, m, M, img, hc, r, rfl, h2⟩ h4⟩

/-- Every folder that is not hidden gets its own file with the grey values of its volume mapped onto 0 to 1,
if all of them hold a volume that can be normalized; the number printed is the number of files. The full claim
says this for the folders that hold a volume, whatever else is in the directory. -/
theorem C121_all_partial (ident : Bool) (dir : List MatEntry)
    (h : ∀ e ∈ dir, e.name.head? ≠ some '.' → ∃ m M img, Convertible e m M img) :
    ∃ files, writeToMat ident dir = (files, .ok files.length) ∧
      List.Forall₂ (fun e p => p.1 = e.name ∧ ∃ m M img, Convertible e m M img ∧ Spec.HoldsUnitImage p.2 m M img)
        (dir.filter (fun e => e.name.head? != some '.')) files := by
  have hl : ∀ e ∈ globStar dir, ∃ m M img, Convertible e m M img := by
    intro e he
    simp only [globStar, List.mem_filter, bne_iff_ne] at he
    exact h e he.1 he.2
  obtain ⟨h1, h2⟩ := matLoop_converts ident (globStar dir) 0 hl
  refine ⟨(writeToMat ident dir).1, ?_, h2⟩
  rw [Prod.ext_iff]
  refine ⟨rfl, ?_⟩
  show (matLoop ident (globStar dir) 0).2 = .ok (matLoop ident (globStar dir) 0).1.length
  rw [h1, h2.length_eq, Nat.zero_add]

theorem matLoop_stops (ident : Bool) (l : List MatEntry) (e : MatEntry) (rest : List MatEntry) (x : Exc) (n : Nat)
    (h : ∀ e ∈ l, ∃ m M img, Convertible e m M img) (he : e.load = .error x) :
    (matLoop ident (l ++ e :: rest) n).2 = .error x ∧ (matLoop ident (l ++ e :: rest) n).1.map (·.1) = l.map (·.name) := by
  induction l generalizing n with
  | nil => simp [matLoop, he]
  | cons d ds ih =>
    obtain ⟨m, M, img, hc⟩ := h d (by simp)
    obtain ⟨r, h1, h2⟩ := unit_normalized ident hc
    obtain ⟨h3, h4⟩ := ih (n + 1) (fun e he => h e (by simp [he]))
    simp only [List.cons_append, matLoop, hc.1, h1]
    exact ⟨h3, by simp [h4]⟩

/-- The first entry whose file cannot be loaded ends the script with its exception: files are written for
the entries before it, for none after it, and no number is printed. -/
theorem C121_first_failure (ident : Bool) (l rest : List MatEntry) (e : MatEntry) (x : Exc)
    (h : ∀ d ∈ l, d.name.head? ≠ some '.' ∧ ∃ m M img, Convertible d m M img)
    (hn : e.name.head? ≠ some '.') (he : e.load = .error x) :
    (writeToMat ident (l ++ e :: rest)).2 = .error x ∧
    (writeToMat ident (l ++ e :: rest)).1.map (·.1) = l.map (·.name) := by
  have hg : globStar (l ++ e :: rest) = l ++ e :: globStar rest := by
    have h1 : l.filter (fun e => e.name.head? != some '.') = l :=
      List.filter_eq_self.2 (fun d hd => bne_iff_ne.2 (h d hd).1)
    unfold globStar
    rw [List.filter_append, h1, List.filter_cons_of_pos (by exact bne_iff_ne.2 hn)]
  unfold writeToMat
  rw [hg]
  exact matLoop_stops ident l e _ x 0 (fun d hd => (h d hd).2) he

theorem matLoop_names (ident : Bool) (l : List MatEntry) (n : Nat) :
    ∀ p ∈ (matLoop ident l n).1, ∃ e ∈ l, e.name = p.1 ∧ ∃ img, e.load = .ok img := by
  induction l generalizing n with
  | nil => simp [matLoop]
  | cons e es ih =>
    intro p hp
    unfold matLoop at hp
    split at hp
    · simp at hp
    · rename_i img himg
      split at hp
      all_goals first
        | (simp only [List.mem_cons] at hp
           rcases hp with rfl | hp
           · exact ⟨e, by simp, rfl, img, himg⟩
           · obtain ⟨d, hd, h1, h2⟩ := ih _ p hp
             exact ⟨d, by simp [hd], h1, h2⟩)
        | simp at hp

/-- Files are written only into folders whose volume was loaded; hidden folders are left out. -/
theorem C121_only (ident : Bool) (dir : List MatEntry) :
    ∀ p ∈ (writeToMat ident dir).1, ∃ e ∈ dir, e.name = p.1 ∧ e.name.head? ≠ some '.' ∧ ∃ img, e.load = .ok img := by
  intro p hp
  obtain ⟨e, he, h1, h2⟩ := matLoop_names ident _ _ p hp
  simp only [globStar, List.mem_filter, bne_iff_ne] at he
  exact ⟨e, he.1, h1, he.2, h2⟩

/-- A volume with one grey value is stored as an image without numbers. -/
theorem C121_constant (ident : Bool) (name : Txt) (img : Image Rat) (m : Rat) (hn : name.head? ≠ some '.')
    (hr : HasRange img.arr m m) (hfl : img.dtype.isFloating = true) :
    writeToMat ident [⟨name, .ok img⟩] = ([(name, .nan)], .ok 1) := by
  have h := C11_constant_image ident img 1 none m hr hfl (Or.inl rfl)
  have hg : globStar [⟨name, .ok img⟩] = [⟨name, .ok img⟩] := by
    unfold globStar
    rw [List.filter_cons_of_pos (by exact bne_iff_ne.2 hn)]; rfl
  unfold writeToMat
  rw [hg]
  simp [matLoop, h]

example : writeToMat true [⟨"a".toList, .ok ⟨.f32, ⟨[2], fun _ => 7⟩⟩⟩] = ([("a".toList, .nan)], .ok 1) :=
  C121_constant _ _ _ 7 (by decide) (by
    have h : pixels (⟨[2], fun _ => 7⟩ : NDArray Rat) = {7} := by
      ext q
      simp only [pixels, Set.mem_setOf_eq, Set.mem_singleton_iff]
      exact ⟨fun ⟨i, _, hq⟩ => hq.symm, fun hq => ⟨[0], by decide, hq.symm⟩⟩
    constructor <;> rw [h]
    · exact isLeast_singleton
    · exact isGreatest_singleton) rfl

/-- The claim that every folder with a volume is converted fails if the directory holds another file, listed
first. -/
theorem C121_refuted : ¬ ∀ (dir : List MatEntry) (e : MatEntry) (m M : Rat) (img : Image Rat), e ∈ dir →
    e.name.head? ≠ some '.' → Convertible e m M img → ∃ f, (e.name, f) ∈ (writeToMat false dir).1 := by
  intro h
  have hc : Convertible ⟨"scan".toList, .ok exampleImg⟩ 2 6 exampleImg :=
    ⟨rfl, exampleImg_range, by norm_num, Or.inl ⟨rfl, fun _ => by norm_num⟩⟩
  obtain ⟨f, hf⟩ := h [⟨"notes.txt".toList, .error .fileNotFound⟩, ⟨"scan".toList, .ok exampleImg⟩]
    ⟨"scan".toList, .ok exampleImg⟩ 2 6 exampleImg (by simp) (by decide) hc
  have := (C121_first_failure false [] [⟨"scan".toList, .ok exampleImg⟩] ⟨"notes.txt".toList, .error .fileNotFound⟩ .fileNotFound
    (by simp) (by decide) rfl).2
  simp only [List.map_nil, List.map_eq_nil_iff, List.nil_append] at this
  rw [this] at hf
  simp at hf

/-- Called without a directory the script does nothing and exits with code 1; otherwise the first argument is
the directory and the second, if there is one, the file name. Further arguments are ignored. -/
theorem C121_arguments (argv : List Txt) :
    (argv.length < 2 → matArguments argv = .error 1) ∧
    (2 ≤ argv.length → matArguments argv = .ok (argv.getD 1 [], argv.getD 2 "volume.mhd".toList)) := by
  match argv with
  | [] => simp [matArguments]
  | [_] => simp [matArguments]
  | [_, _] => simp [matArguments]
  | _ :: _ :: _ :: _ => simp [matArguments]

example : matArguments ["write_to_mat.py".toList, "data".toList] = .ok ("data".toList, "volume.mhd".toList) :=
  (C121_arguments _).2 (by simp)

example : ∃ files, writeToMat false [⟨"a".toList, .ok exampleImg⟩, ⟨".b".toList, .error .fileNotFound⟩, ⟨"c".toList, .ok exampleImg⟩] =
    (files, .ok files.length) ∧ files.map (·.1) = ["a".toList, "c".toList] := by
  obtain ⟨files, h1, h2⟩ := C121_all_partial false
    [⟨"a".toList, .ok exampleImg⟩, ⟨".b".toList, .error .fileNotFound⟩, ⟨"c".toList, .ok exampleImg⟩] (by
      intro e he hn
      simp only [List.mem_cons, List.not_mem_nil, or_false] at he
      rcases he with rfl | rfl | rfl
      · exact ⟨2, 6, exampleImg, rfl, exampleImg_range, by norm_num, Or.inl ⟨rfl, fun _ => by norm_num⟩⟩
      · exact absurd (by decide) hn
      · exact ⟨2, 6, exampleImg, rfl, exampleImg_range, by norm_num, Or.inl ⟨rfl, fun _ => by norm_num⟩⟩)
  refine ⟨files, h1, ?_⟩
  have hf : ([⟨"a".toList, .ok exampleImg⟩, ⟨".b".toList, .error .fileNotFound⟩, ⟨"c".toList, .ok exampleImg⟩] : List MatEntry).filter
      (fun e => e.name.head? != some '.') = [⟨"a".toList, .ok exampleImg⟩, ⟨"c".toList, .ok exampleImg⟩] := rfl
  rw [hf] at h2
  cases h2 with
  | cons h3 h4 =>
    cases h4 with
    | cons h5 h6 => cases h6; simp only [List.map_cons, List.map_nil, h3.1, h5.1]

/-- C121: the script stops at the first image that cannot be read. -/
example : (writeToMat false [⟨"a".toList, .ok exampleImg⟩, ⟨"b".toList, .error .fileNotFound⟩, ⟨"c".toList, .ok exampleImg⟩]).1.map (·.1) = ["a".toList] :=
  (C121_first_failure false [⟨"a".toList, .ok exampleImg⟩] [⟨"c".toList, .ok exampleImg⟩] ⟨"b".toList, .error .fileNotFound⟩ .fileNotFound (by
    intro d hd
    simp only [List.mem_cons, List.not_mem_nil, or_false] at hd
    subst hd
    exact ⟨by decide, 2, 6, exampleImg, rfl, exampleImg_range, by norm_num, Or.inl ⟨rfl, fun _ => by norm_num⟩⟩) (by decide) rfl).2

example : ∀ p ∈ (writeToMat true [⟨".a".toList, .ok exampleImg⟩]).1, False := fun p hp => by
  obtain ⟨e, he, -, hn, -⟩ := C121_only true [⟨".a".toList, .ok exampleImg⟩] p hp
  simp only [List.mem_cons, List.not_mem_nil, or_false] at he
  subst he
  exact hn (by decide)

end Viqa
