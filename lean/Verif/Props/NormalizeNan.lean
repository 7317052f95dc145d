import Verif.Model.NormalizeNan
import Verif.Props.NotANumber
import Verif.Props.NotANumberGsm
import Verif.Props.NormalizedNoise

/-! C187: the perfect score of normalized images. -/

namespace Viqa

/-- The normalized image, over the real numbers. -/
noncomputable def Spec.unitImage (x : NDArray Rat) (m M : Rat) : NDArray ℝ := ⟨x.shape, fun i => (((x.get i - m) / (M - m) : Rat) : ℝ)⟩

theorem normalizeUnitN_numbers (x : NDArray Rat) (m M : Rat) (hr : HasRange x m M) (hlt : m < M) :
    normalizeUnitN (Spec.allNumbersQ x) = .ok ⟨x.shape, fun i => some ((x.get i - m) / (M - m))⟩ := by
  have hne : M - m ≠ 0 := (sub_pos.2 hlt).ne'
  unfold normalizeUnitN
  rw [cleanArray_all]
  simp only [(arrMin_iff _ _).2 hr.1, (arrMax_iff _ _).2 hr.2, if_neg hne]
  simp only [sub_zero, mul_one, add_zero]
  rfl

/-- This is the normalization of the other theorems. -/
theorem normalizeUnitN_data (ident : Bool) (img : Image Rat) (inp : Option (Int × Int)) (m M : Rat) (hr : HasRange img.arr m M) (hlt : m < M)
    (hfl : img.dtype.isFloating = true) (h16 : img.dtype = .f16 → M - m < 65520) :
    ∃ a : NDArray Rat, normalizeData ident img (0, 1) inp true = ⟨[], .ok ⟨.f32, a⟩⟩ ∧
      normalizeUnitN (Spec.allNumbersQ img.arr) = .ok (Spec.allNumbersQ a) := by
  refine ⟨_, normalize_unit ident img inp m M hr hlt hfl h16, ?_⟩
  rw [normalizeUnitN_numbers img.arr m M hr hlt]
  unfold Spec.allNumbersQ NDArray.map
  simp only
  congr 2
  funext i
  have hne : M - m ≠ 0 := (sub_pos.2 hlt).ne'
  congr 1
  field_simp
  ring

/-- **C187 (partial).** For images without nan that are not uniform, the score of the normalized images is 1 only if they agree: the
modified image shows the same gray values up to brightness and contrast. -/
theorem C187_partial (big : ℝ) (a : SsimArgs) (x y : NDArray Rat) (mx Mx my My : Rat) (hx : HasRange x mx Mx) (hy : HasRange y my My)
    (hxl : mx < Mx) (hyl : my < My) (hs : x.shape = y.shape)
    (hd : x.shape ≠ []) (hv : a.Valid x.shape) (m : BorderMode) (hm : borderMode a.mode = .ok m)
    (hw : a.winSize = none ∨ a.gaussian = false) (hw1 : a.winSize = some 1 → False)
    (hα : 0 < a.alpha.cast) (hβ : 0 < a.beta.cast) (hγ : 0 < a.gamma.cast) (hk1 : a.k1 ≠ 0) (hk2 : a.k2 ≠ 0) :
    normalizedSsim big a (Spec.allNumbersQ x) (Spec.allNumbersQ y) = .ok 1 ↔
      ∀ i, InShape x.shape i → (x.get i - mx) / (Mx - mx) = (y.get i - my) / (My - my) := by
  unfold normalizedSsim
  rw [normalizeUnitN_numbers x mx Mx hx hxl, normalizeUnitN_numbers y my My hy hyl]
  have e : ∀ (z : NDArray Rat) (m M : Rat), realPixelsN ⟨z.shape, fun i => some ((z.get i - m) / (M - m))⟩ = Spec.withNumbers (Spec.unitImage z m M) :=
    fun _ _ _ => rfl
  simp only [e]
  rw [C185_ssim_numbers big 1 a _ _ hs, C75_one_iff_identical big 1 a _ _ hs hd hv m hm hw hw1 hα hβ hγ (by simpa using hk1) (by simpa using hk2)]
  constructor
  · intro h i hi
    have : (((x.get i - mx) / (Mx - mx) : Rat) : ℝ) = (((y.get i - my) / (My - my) : Rat) : ℝ) := h.2 i hi
    exact_mod_cast this
  · intro h
    refine ⟨hs, fun i hi => ?_⟩
    show (((x.get i - mx) / (Mx - mx) : Rat) : ℝ) = (((y.get i - my) / (My - my) : Rat) : ℝ)
    rw [h i hi]

theorem unit_nan (x : NDArray (Option Rat)) (h : (∃ i ∈ indices x.shape, x.get i = none) ∨
    ∃ v, indices x.shape ≠ [] ∧ ∀ i ∈ indices x.shape, x.get i = some v) : normalizeUnitN x = .ok ⟨x.shape, fun _ => none⟩ := by
  rcases h with h | ⟨v, hne, hv⟩
  · unfold normalizeUnitN
    rw [cleanArray_none x h]
  · unfold normalizeUnitN cleanArray
    rw [if_pos (by rw [List.all_eq_true]; intro i hi; rw [hv i hi]; rfl)]
    have hall : ∀ u ∈ (⟨x.shape, fun i => (x.get i).getD 0⟩ : NDArray Rat).toList, u = v := by
      intro u hu
      obtain ⟨i, hi, rfl⟩ := List.mem_map.1 hu
      simp only [hv i hi]
      rfl
    have hmem : v ∈ (⟨x.shape, fun i => (x.get i).getD 0⟩ : NDArray Rat).toList := by
      obtain ⟨i, hi⟩ := List.exists_mem_of_ne_nil _ hne
      refine List.mem_map.2 ⟨i, hi, ?_⟩
      simp only [hv i hi]
      rfl
    have hr : HasRange (⟨x.shape, fun i => (x.get i).getD 0⟩ : NDArray Rat) v v := by
      unfold HasRange
      rw [← toList_set]
      exact ⟨⟨hmem, fun u hu => (hall u hu).ge⟩, ⟨hmem, fun u hu => (hall u hu).le⟩⟩
    simp only [(arrMin_iff _ _).2 hr.1, (arrMax_iff _ _).2 hr.2, sub_self, if_true]

/-- **C187 is false** if a pixel of the modified image is not a number, or if the image is uniform: the score is that of an
identical image. -/
theorem C187_refuted (big : ℝ) (a : SsimArgs) (x : NDArray Rat) (m M : Rat) (hx : HasRange x m M) (hlt : m < M)
    (y : NDArray (Option Rat)) (hs : y.shape = x.shape) (h : (∃ i ∈ indices y.shape, y.get i = none) ∨
      ∃ v, indices y.shape ≠ [] ∧ ∀ i ∈ indices y.shape, y.get i = some v) :
    normalizedSsim big a (Spec.allNumbersQ x) y = structuralSimilarity big a 1 (Spec.unitImage x m M) (Spec.unitImage x m M) := by
  unfold normalizedSsim
  rw [normalizeUnitN_numbers x m M hx hlt, unit_nan y h]
  exact C185_ssim_refuted big 1 a (Spec.unitImage x m M) ⟨y.shape, fun _ => none⟩ hs (fun _ => rfl)

/-- A slope of 15 rows. -/
def slopeFifteen : NDArray Rat := ⟨[15, 15], fun i => (i.sum : Rat)⟩

theorem slopeFifteen_range : HasRange slopeFifteen 0 28 := by
  rw [HasRange, ← arrMin_iff, ← arrMax_iff]
  constructor <;> decide +kernel

/-- So is the slope with more contrast, as it should. -/
example : normalizedSsim 1e308 {} (Spec.allNumbersQ slopeFifteen) (Spec.allNumbersQ ⟨[15, 15], fun i => 2 * (i.sum : Rat) + 3⟩) = .ok 1 := by
  have hr : gaussRadius (3 / 2) = 5 := by
    unfold gaussRadius
    rw [Nat.floor_eq_iff (by norm_num)]
    norm_num
  refine (C187_partial _ {} slopeFifteen ⟨[15, 15], fun i => 2 * (i.sum : Rat) + 3⟩ 0 28 3 59 slopeFifteen_range ?_ (by norm_num) (by norm_num) rfl (by simp [slopeFifteen])
    (by constructor <;> norm_num [SsimArgs.window, hr, slopeFifteen]) .reflect (by simp [borderMode]) (.inl rfl) (by simp) (by simp [ExpArg.cast]) (by simp [ExpArg.cast])
    (by simp [ExpArg.cast]) (by norm_num) (by norm_num)).2 ?_
  · rw [HasRange, ← arrMin_iff, ← arrMax_iff]
    constructor <;> decide +kernel
  · intro i _
    simp only [slopeFifteen]
    ring

/-- A black image is a perfect copy of the slope. -/
example : normalizedSsim 1e308 {} (Spec.allNumbersQ slopeFifteen) (Spec.allNumbersQ ⟨[15, 15], fun _ => 0⟩) = .ok 1 := by
  rw [C187_refuted _ _ slopeFifteen 0 28 slopeFifteen_range (by norm_num) _ rfl (.inr ⟨0, by decide, fun _ _ => rfl⟩)]
  have hr : gaussRadius (3 / 2) = 5 := by
    unfold gaussRadius
    rw [Nat.floor_eq_iff (by norm_num)]
    norm_num
  exact C30_self_defined _ _ _ _ (by constructor <;> norm_num [SsimArgs.window, hr, Spec.unitImage, slopeFifteen]) (by simp [Spec.unitImage, slopeFifteen])
    (by simp) .reflect (by simp [borderMode])

end Viqa
