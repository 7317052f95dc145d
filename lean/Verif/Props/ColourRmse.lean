import Verif.Props.Images
import Verif.Props.BitDepth

/-! C207: RMSE and PSNR of colour images that are converted to gray values. -/

namespace Viqa
open Spec

/-- The channels of the pixels of a colour image in C order. -/
theorem indices_channels (s : List Nat) : indices (s ++ [3]) = (indices s).flatMap (fun i => [i ++ [0], i ++ [1], i ++ [2]]) := by
  induction s with
  | nil => decide
  | cons n s ih =>
    simp only [List.cons_append, indices, ih, List.flatMap_assoc, List.map_flatMap, List.flatMap_map, List.map_cons, List.map_nil]

theorem sum_flatMap_three (l : List (List Nat)) (f : List Nat → ℝ) :
    ((l.flatMap (fun i => [i ++ [0], i ++ [1], i ++ [2]])).map f).sum = (l.map (fun i => f (i ++ [0]) + f (i ++ [1]) + f (i ++ [2]))).sum := by
  induction l with
  | nil => rfl
  | cons a l ih =>
    simp only [List.flatMap_cons, List.map_append, List.sum_append, ih, List.map_cons, List.map_nil, List.sum_cons, List.sum_nil]
    ring

/-- Two images that `load_data` accepts and whose last axis holds three channels. -/
structure ColourImages (a b : Image Rat) (s : List Nat) : Prop where
  left : a.arr.shape = s ++ [3]
  right : b.arr.shape = s ++ [3]
  type : a.dtype = b.dtype
  dims : s.length = 1 ∨ s.length = 2
  nonempty : s.prod ≠ 0

/-- RMSE for `chromatic=True` is `colour`, RMSE for `chromatic=False` (the default) is `gray`. -/
def RmseColours (a b : Image Rat) (colour gray : ℝ) : Prop :=
  ∀ disk, ∃ c d x y, (checkImgs disk (.array a) (.array b) {} true).val = .ok (c, d) ∧ (checkImgs disk (.array a) (.array b) {} false).val = .ok (x, y) ∧
    rmse (realImage c.arr) (realImage d.arr) = .ok colour ∧ rmse (realImage x.arr) (realImage y.arr) = .ok gray

theorem load_plain_array (disk : Txt → Py (Image Rat)) (img : Image Rat) (h : img.arr.ndim = 2 ∨ img.arr.ndim = 3) :
    (loadData disk (.array img) {}).val = .ok (.single img) := by
  unfold loadData loadBody loadSource ndimStep normalizeStep cropStep
  rw [if_neg (by simp), if_neg (by simp), if_neg (by simp)]
  rw [PyW.bind_val_ok (a := (false, img)) rfl]
  simp only
  rw [if_neg (by omega)]
  rfl

variable {a b : Image Rat} {s : List Nat}

theorem ColourImages.loads (h : ColourImages a b s) (disk : Txt → Py (Image Rat)) :
    (checkImgs disk (.array a) (.array b) {} true).val = .ok (a, b) ∧
    (checkImgs disk (.array a) (.array b) {} false).val = .ok (toGrayscale a, toGrayscale b) := by
  have ha : a.arr.ndim = 2 ∨ a.arr.ndim = 3 := by
    have := h.dims; unfold NDArray.ndim; rw [h.left, List.length_append, List.length_singleton]; omega
  have hb : b.arr.ndim = 2 ∨ b.arr.ndim = 3 := by
    have := h.dims; unfold NDArray.ndim; rw [h.right, List.length_append, List.length_singleton]; omega
  have h3 : a.arr.lastDim = 3 := by unfold NDArray.lastDim; rw [h.left]; simp
  have hs : a.arr.shape = b.arr.shape := h.left.trans h.right.symm
  unfold checkImgs
  rw [PyW.bind_val_ok (load_plain_array disk a ha), PyW.bind_val_ok (load_plain_array disk b hb),
    PyW.bind_val_ok (load_plain_array disk a ha), PyW.bind_val_ok (load_plain_array disk b hb)]
  simp only
  constructor
  · rw [if_neg (by simp [h.type]), if_neg (by simp [hs]), if_neg (by simp), if_neg (by simp [h3])]; rfl
  · rw [if_neg (by simp [h.type]), if_neg (by simp [hs]), if_pos (by simp [h3])]; rfl

/-- Sum of the squared differences of the three channels of a pixel. -/
noncomputable def channelDistance (a b : Image Rat) (i : List Nat) : ℝ :=
  ((a.arr.get (i ++ [0]) : ℝ) - b.arr.get (i ++ [0])) ^ 2 + ((a.arr.get (i ++ [1]) : ℝ) - b.arr.get (i ++ [1])) ^ 2 +
    ((a.arr.get (i ++ [2]) : ℝ) - b.arr.get (i ++ [2])) ^ 2

/-- Squared difference of the gray values of a pixel. -/
noncomputable def grayDistance (a b : Image Rat) (i : List Nat) : ℝ :=
  (((toGrayscale a).arr.get i : ℝ) - ((toGrayscale b).arr.get i : ℝ)) ^ 2

theorem ColourImages.rmse_values (h : ColourImages a b s) {colour gray : ℝ} (hr : RmseColours a b colour gray) :
    colour = Real.sqrt (((indices s).map (channelDistance a b)).sum / (3 * s.prod)) ∧
    gray = Real.sqrt (((indices s).map (grayDistance a b)).sum / s.prod) := by
  obtain ⟨c, d, x, y, h1, h2, h3, h4⟩ := hr (fun _ => .error .fileNotFound)
  obtain ⟨l1, l2⟩ := h.loads (fun _ => .error .fileNotFound)
  rw [l1] at h1; rw [l2] at h2
  cases h1; cases h2
  have hg : (toGrayscale a).arr.shape = s := by unfold toGrayscale; simp [h.left]
  have hg' : (toGrayscale b).arr.shape = s := by unfold toGrayscale; simp [h.right]
  rw [rmse_eq ⟨by rw [show (realImage a.arr).shape = a.arr.shape from rfl, show (realImage b.arr).shape = b.arr.shape from rfl, h.left, h.right],
    by unfold NDArray.size; rw [show (realImage a.arr).shape = a.arr.shape from rfl, h.left]; simp [h.nonempty]⟩] at h3
  rw [rmse_eq ⟨by rw [show (realImage (toGrayscale a).arr).shape = (toGrayscale a).arr.shape from rfl, show (realImage (toGrayscale b).arr).shape = (toGrayscale b).arr.shape from rfl, hg, hg'],
    by unfold NDArray.size; rw [show (realImage (toGrayscale a).arr).shape = (toGrayscale a).arr.shape from rfl, hg]; exact h.nonempty⟩] at h4
  unfold NDArray.size at h3 h4
  rw [show (realImage a.arr).shape = s ++ [3] from h.left, indices_channels, sum_flatMap_three] at h3
  rw [show (realImage (toGrayscale a).arr).shape = s from hg] at h4
  have e3 := Except.ok.inj h3
  have e4 := Except.ok.inj h4
  refine ⟨?_, ?_⟩
  · rw [← e3]
    congr 2
    rw [List.prod_append]; push_cast; simp; ring
  · rw [← e4]; rfl

/-- Gray values differ by at most the weighted differences of the channels. -/
theorem gray_lipschitz (a b : Image Rat) (i : List Nat) : |((toGrayscale a).arr.get i : ℝ) - ((toGrayscale b).arr.get i : ℝ)| ≤
    |0.2125 * ((a.arr.get (i ++ [0]) : ℝ) - b.arr.get (i ++ [0])) + 0.7154 * ((a.arr.get (i ++ [1]) : ℝ) - b.arr.get (i ++ [1])) +
      0.0721 * ((a.arr.get (i ++ [2]) : ℝ) - b.arr.get (i ++ [2]))| := by
  rw [toGrayscale_get, toGrayscale_get]
  push_cast
  refine (abs_min_sub_min_le_max _ _ _ _).trans ?_
  rw [sub_self, abs_zero, max_eq_left (abs_nonneg _)]
  unfold grayValue
  push_cast
  refine le_of_eq (congrArg _ ?_)
  ring

theorem grayDistance_le (a b : Image Rat) (i : List Nat) :
    grayDistance a b i ≤ (0.2125 ^ 2 + 0.7154 ^ 2 + 0.0721 ^ 2) * channelDistance a b i := by
  have h := gray_lipschitz a b i
  unfold grayDistance channelDistance
  rw [← sq_abs]
  refine (pow_le_pow_left₀ (abs_nonneg _) h 2).trans ?_
  rw [sq_abs]
  generalize (a.arr.get (i ++ [0]) : ℝ) - b.arr.get (i ++ [0]) = u
  generalize (a.arr.get (i ++ [1]) : ℝ) - b.arr.get (i ++ [1]) = v
  generalize (a.arr.get (i ++ [2]) : ℝ) - b.arr.get (i ++ [2]) = w
  nlinarith [sq_nonneg (0.2125 * v - 0.7154 * u), sq_nonneg (0.2125 * w - 0.0721 * u), sq_nonneg (0.7154 * w - 0.0721 * v)]

theorem channelDistance_nonneg (a b : Image Rat) (i : List Nat) : 0 ≤ channelDistance a b i := by
  unfold channelDistance; positivity

/-- **C207.** RMSE of the gray values is at most 1.3 times the RMSE of the colours
(`sqrt (3 * (0.2125² + 0.7154² + 0.0721²))` times, to be exact), for images of every bit depth. -/
theorem C207_bound (h : ColourImages a b s) {colour gray : ℝ} (hr : RmseColours a b colour gray) :
    gray ≤ Real.sqrt (3 * (0.2125 ^ 2 + 0.7154 ^ 2 + 0.0721 ^ 2)) * colour ∧ gray ≤ 1.3 * colour := by
  obtain ⟨hc, hg⟩ := h.rmse_values hr
  have hp : (0 : ℝ) < s.prod := by exact_mod_cast Nat.pos_of_ne_zero h.nonempty
  have h1 : gray ≤ Real.sqrt (3 * (0.2125 ^ 2 + 0.7154 ^ 2 + 0.0721 ^ 2)) * colour := by
    rw [hc, hg, ← Real.sqrt_mul (by norm_num)]
    refine Real.sqrt_le_sqrt ?_
    have : ((indices s).map (grayDistance a b)).sum ≤ (0.2125 ^ 2 + 0.7154 ^ 2 + 0.0721 ^ 2) * ((indices s).map (channelDistance a b)).sum := by
      rw [← List.sum_map_mul_left]
      exact List.sum_le_sum fun i _ => grayDistance_le a b i
    rw [div_le_iff₀ hp]
    refine this.trans (le_of_eq ?_)
    field_simp
  refine ⟨h1, h1.trans (mul_le_mul_of_nonneg_right ?_ (by rw [hc]; exact Real.sqrt_nonneg _))⟩
  rw [Real.sqrt_le_left (by norm_num)]
  norm_num

/-- **C207.** Images without colour (three equal channels of at most 255) have the same RMSE in both modes. -/
theorem C207_gray_partial (h : ColourImages a b s) {colour gray : ℝ} (hr : RmseColours a b colour gray)
    (ha : ∀ i ∈ indices s, ∃ v ≤ 255, ∀ c < 3, a.arr.get (i ++ [c]) = v) (hb : ∀ i ∈ indices s, ∃ v ≤ 255, ∀ c < 3, b.arr.get (i ++ [c]) = v) :
    gray = colour := by
  obtain ⟨hc, hg⟩ := h.rmse_values hr
  rw [hc, hg]
  have : (indices s).map (channelDistance a b) = (indices s).map (fun i => 3 * grayDistance a b i) := by
    refine List.map_congr_left fun i hi => ?_
    obtain ⟨v, hv, ea⟩ := ha i hi
    obtain ⟨w, hw, eb⟩ := hb i hi
    have e := fun c hc => ea c hc
    unfold channelDistance grayDistance
    rw [(C20_gray_partial a i v v v (ea 0 (by simp)) (ea 1 (by simp)) (ea 2 (by simp)) ⟨hv, hv, hv⟩).2.2 rfl rfl,
      (C20_gray_partial b i w w w (eb 0 (by simp)) (eb 1 (by simp)) (eb 2 (by simp)) ⟨hw, hw, hw⟩).2.2 rfl rfl,
      ea 0 (by simp), ea 1 (by simp), ea 2 (by simp), eb 0 (by simp), eb 1 (by simp), eb 2 (by simp)]
    ring
  rw [this, List.sum_map_mul_left, mul_div_mul_left _ _ (by norm_num)]

/-- The gray RMSE is zero if and only if all pixels have the same gray values. -/
theorem gray_zero_iff (h : ColourImages a b s) {colour gray : ℝ} (hr : RmseColours a b colour gray) :
    gray = 0 ↔ ∀ i ∈ indices s, (toGrayscale a).arr.get i = (toGrayscale b).arr.get i := by
  obtain ⟨_, hg⟩ := h.rmse_values hr
  have hp : (0 : ℝ) < s.prod := by exact_mod_cast Nat.pos_of_ne_zero h.nonempty
  have hn : 0 ≤ ((indices s).map (grayDistance a b)).sum := sum_nonneg _ _ (fun _ _ => sq_nonneg _)
  rw [hg, Real.sqrt_eq_zero (by positivity), div_eq_zero_iff, or_iff_left hp.ne']
  constructor
  · intro hz i hi
    have hle : grayDistance a b i ≤ ((indices s).map (grayDistance a b)).sum :=
      List.single_le_sum (by intro x hx; obtain ⟨j, _, rfl⟩ := List.mem_map.1 hx; exact sq_nonneg _) _ (List.mem_map.2 ⟨i, hi, rfl⟩)
    have : grayDistance a b i = 0 := le_antisymm (hz ▸ hle) (sq_nonneg _)
    unfold grayDistance at this
    have := pow_eq_zero_iff (two_ne_zero) |>.1 this
    exact_mod_cast sub_eq_zero.1 this
  · intro he
    refine List.sum_eq_zero fun x hx => ?_
    obtain ⟨i, hi, rfl⟩ := List.mem_map.1 hx
    unfold grayDistance; rw [he i hi]; ring

/-- PSNR for `chromatic=True` and for `chromatic=False`. -/
def PsnrColours (dr : ℝ) (a b : Image Rat) (colour gray : Psnr) : Prop :=
  ∀ disk, ∃ c d x y, (checkImgs disk (.array a) (.array b) {} true).val = .ok (c, d) ∧ (checkImgs disk (.array a) (.array b) {} false).val = .ok (x, y) ∧
    psnr dr (realImage c.arr) (realImage d.arr) = .ok colour ∧ psnr dr (realImage x.arr) (realImage y.arr) = .ok gray

theorem psnr_of_rmse {dr r p : ℝ} {x y : NDArray ℝ} (hp : psnr dr x y = .ok (.finite p)) (hr : rmse x y = .ok r) :
    0 < r ∧ p = 20 * Real.logb 10 (dr / r) := by
  unfold rmse at hr
  unfold psnr at hp
  split at hp
  · cases hp
  cases hm : meanSquaredError x y with
  | error e => rw [hm] at hr; cases hr
  | ok v =>
    rw [hm] at hr hp
    cases hr
    simp only at hp
    split at hp
    · cases hp
    rename_i hv
    have hp' : 10 * Real.logb 10 (dr ^ 2 / v) = p := by injection hp with h; injection h
    have hv0 : 0 ≤ v := by
      unfold meanSquaredError at hm
      split at hm
      · cases hm
      split at hm
      · cases hm
      cases hm
      exact mse_nonneg x y
    have hvp : 0 < v := lt_of_le_of_ne hv0 (fun h => hv (by rw [← h]; simp))
    have hs := Real.sqrt_pos.2 hvp
    refine ⟨hs, ?_⟩
    rw [← hp', show dr ^ 2 / v = (dr / Real.sqrt v) ^ 2 by rw [div_pow, Real.sq_sqrt hv0], Real.logb_pow]
    push_cast; ring

/-- **C207.** PSNR of the gray values is at most 2.3 dB lower than PSNR of the colours. -/
theorem C207_psnr (h : ColourImages a b s) {dr colour gray : ℝ} (hd : 0 < dr) (hr : PsnrColours dr a b (.finite colour) (.finite gray)) :
    colour - 2.3 ≤ gray := by
  obtain ⟨l1, l2⟩ := h.loads (fun _ => .error .fileNotFound)
  obtain ⟨c, d, x, y, h1, h2, h3, h4⟩ := hr (fun _ => .error .fileNotFound)
  rw [l1] at h1; rw [l2] at h2
  cases h1; cases h2
  have value : ∀ {p : ℝ} {x y : NDArray ℝ}, psnr dr x y = .ok (.finite p) → ∃ r, rmse x y = .ok r := by
    intro p x y hp
    unfold psnr at hp
    unfold rmse
    split at hp
    · cases hp
    cases hm : meanSquaredError x y with
    | error e => rw [hm] at hp; cases hp
    | ok v => exact ⟨_, rfl⟩
  obtain ⟨r, hr1⟩ := value h3
  obtain ⟨q, hq1⟩ := value h4
  have hb := (C207_bound h (colour := r) (gray := q) (fun disk => ⟨a, b, _, _, (h.loads disk).1, (h.loads disk).2, hr1, hq1⟩)).1
  obtain ⟨hr0, er⟩ := psnr_of_rmse h3 hr1
  obtain ⟨hq0, eq⟩ := psnr_of_rmse h4 hq1
  rw [er, eq]
  have hf : Real.sqrt (3 * (0.2125 ^ 2 + 0.7154 ^ 2 + 0.0721 ^ 2)) ≤ 10 ^ (0.115 : ℝ) := by
    rw [Real.sqrt_le_left (by positivity), ← Real.rpow_natCast (10 ^ (0.115 : ℝ)), ← Real.rpow_mul (by norm_num)]
    have : ((3 * (0.2125 ^ 2 + 0.7154 ^ 2 + 0.0721 ^ 2) : ℝ)) ^ (100 : ℕ) ≤ (10 ^ ((0.115 : ℝ) * (2 : ℕ))) ^ (100 : ℕ) := by
      rw [← Real.rpow_natCast (10 ^ _), ← Real.rpow_mul (by norm_num), show (0.115 : ℝ) * (2 : ℕ) * (100 : ℕ) = ((23 : ℕ) : ℝ) by norm_num, Real.rpow_natCast]
      norm_num
    exact le_of_pow_le_pow_left₀ (by norm_num) (by positivity) this
  have hqr : q ≤ 10 ^ (0.115 : ℝ) * r := hb.trans (mul_le_mul_of_nonneg_right hf hr0.le)
  have h5 : dr / r ≤ 10 ^ (0.115 : ℝ) * (dr / q) := by
    rw [div_le_iff₀ hr0]
    have : dr * q ≤ dr * (10 ^ (0.115 : ℝ) * r) := mul_le_mul_of_nonneg_left hqr hd.le
    rw [mul_assoc, div_mul_eq_mul_div, ← mul_div_assoc, le_div_iff₀ hq0]
    linarith
  have h6 := Real.logb_le_logb_of_le (b := 10) (by norm_num) (by positivity) h5
  rw [Real.logb_mul (by positivity) (by positivity), Real.logb_rpow (by norm_num) (by norm_num)] at h6
  linarith

/-- **C207.** Colours whose weighted differences cancel are not told apart: RMSE is zero and PSNR infinite. -/
theorem C207_same_gray (h : ColourImages a b s) (hw : ∀ i ∈ indices s, 2125 * (a.arr.get (i ++ [0]) - b.arr.get (i ++ [0])) +
    7154 * (a.arr.get (i ++ [1]) - b.arr.get (i ++ [1])) + 721 * (a.arr.get (i ++ [2]) - b.arr.get (i ++ [2])) = 0) (dr : ℝ) (disk : Txt → Py (Image Rat)) :
    ∃ x y, (checkImgs disk (.array a) (.array b) {} false).val = .ok (x, y) ∧ rmse (realImage x.arr) (realImage y.arr) = .ok 0 ∧
      psnr dr (realImage x.arr) (realImage y.arr) = .ok .infinite := by
  have hg : (toGrayscale a).arr.shape = s := by unfold toGrayscale; simp [h.left]
  have hg' : (toGrayscale b).arr.shape = s := by unfold toGrayscale; simp [h.right]
  have he : arrayEqual (realImage (toGrayscale a).arr) (realImage (toGrayscale b).arr) := by
    refine ⟨hg.trans hg'.symm, fun i hi => ?_⟩
    have := hw i (by rw [show (realImage (toGrayscale a).arr).shape = s from hg] at hi; exact hi)
    show (((toGrayscale a).arr.get i : ℚ) : ℝ) = ((toGrayscale b).arr.get i : ℚ)
    rw [toGrayscale_get, toGrayscale_get]
    have : grayValue (a.arr.get (i ++ [0])) (a.arr.get (i ++ [1])) (a.arr.get (i ++ [2])) = grayValue (b.arr.get (i ++ [0])) (b.arr.get (i ++ [1])) (b.arr.get (i ++ [2])) := by
      unfold grayValue; linarith
    rw [this]
  refine ⟨_, _, (h.loads disk).2, ?_, ?_⟩
  · rw [rmse_eq ⟨he.1, by unfold NDArray.size; rw [show (realImage (toGrayscale a).arr).shape = s from hg]; exact h.nonempty⟩,
      List.sum_eq_zero (fun x hx => by obtain ⟨i, hi, rfl⟩ := List.mem_map.1 hx; rw [he.2 i hi]; ring), zero_div, Real.sqrt_zero]
  · unfold psnr; rw [if_pos he]

/-- **C207.** Images whose channels all exceed 255 (16 bit colour images) become the same uniform image,
whatever they show. -/
theorem C207_clipped (h : ColourImages a b s) (ha : ∀ i ∈ indices s, ∀ c < 3, 255 ≤ a.arr.get (i ++ [c])) (hb : ∀ i ∈ indices s, ∀ c < 3, 255 ≤ b.arr.get (i ++ [c]))
    {colour gray : ℝ} (hr : RmseColours a b colour gray) : gray = 0 := by
  refine (gray_zero_iff h hr).2 fun i hi => ?_
  have one : ∀ img : Image Rat, (∀ c < 3, 255 ≤ img.arr.get (i ++ [c])) → (toGrayscale img).arr.get i = 255 := by
    intro img hc
    rw [toGrayscale_get]
    refine min_eq_right ?_
    have h0 := hc 0 (by simp); have h1 := hc 1 (by simp); have h2 := hc 2 (by simp)
    unfold grayValue; linarith
  rw [one a (ha i hi), one b (hb i hi)]

/-- The claim that the default mode sees every difference of 8 bit colour images. -/
def Spec.GraySeesColours : Prop := ∀ (a b : Image Rat) (s : List Nat) (colour gray : ℝ), ColourImages a b s → a.dtype = .u8 →
  (∀ i ∈ indices a.arr.shape, ∃ n : Nat, n < 256 ∧ a.arr.get i = n) → (∀ i ∈ indices b.arr.shape, ∃ n : Nat, n < 256 ∧ b.arr.get i = n) →
  RmseColours a b colour gray → gray = 0 → colour = 0

/-- A uniform 8 bit colour image. -/
def uniformColour (h w : Nat) (r g b : Nat) : Image Rat := ⟨.u8, ⟨[h, w, 3], fun i => ((if i[2]? = some 0 then r else if i[2]? = some 1 then g else b : Nat) : Rat)⟩⟩

theorem uniformColour_images {h w : Nat} (hp : h * w ≠ 0) (r g b r' g' b' : Nat) : ColourImages (uniformColour h w r g b) (uniformColour h w r' g' b') [h, w] :=
  ⟨rfl, rfl, rfl, Or.inr rfl, by simpa using hp⟩

theorem uniformColour_rmse {h w : Nat} (hp : h * w ≠ 0) (r g b r' g' b' : Nat) : ∃ colour gray, RmseColours (uniformColour h w r g b) (uniformColour h w r' g' b') colour gray := by
  have hc := uniformColour_images hp r g b r' g' b'
  have h1 : Comparable (realImage (uniformColour h w r g b).arr) (realImage (uniformColour h w r' g' b').arr) := ⟨rfl, by
    show [h, w, 3].prod ≠ 0
    simp only [List.prod_cons, List.prod_nil]
    simp only [ne_eq, Nat.mul_eq_zero, not_or] at hp ⊢
    exact ⟨hp.1, hp.2, by norm_num⟩⟩
  have h2 : Comparable (realImage (toGrayscale (uniformColour h w r g b)).arr) (realImage (toGrayscale (uniformColour h w r' g' b')).arr) := ⟨rfl, by
    show [h, w].prod ≠ 0
    simpa using hp⟩
  exact ⟨_, _, fun disk => ⟨_, _, _, _, (hc.loads disk).1, (hc.loads disk).2, rmse_eq h1, rmse_eq h2⟩⟩

theorem index_pair {h w : Nat} {i : List Nat} (hi : i ∈ indices [h, w]) : ∃ x y, i = [x, y] := by
  have := (mem_indices _ _).1 hi
  match i, this with
  | [x, y], _ => exact ⟨x, y, rfl⟩

/-- **C207** is false: a gray image (100, 100, 100) and a red one (163, 83, 83) of any size have RMSE 0,
while the RMSE of the colours is 38.9. -/
theorem C207_refuted : ¬ GraySeesColours ∧
    ∀ h w, h * w ≠ 0 → RmseColours (uniformColour h w 100 100 100) (uniformColour h w 163 83 83) (Real.sqrt (4547 / 3)) 0 := by
  have key : ∀ h w, h * w ≠ 0 → RmseColours (uniformColour h w 100 100 100) (uniformColour h w 163 83 83) (Real.sqrt (4547 / 3)) 0 := by
    intro h w hp
    have hc := uniformColour_images hp 100 100 100 163 83 83
    obtain ⟨colour, gray, hr⟩ := uniformColour_rmse hp 100 100 100 163 83 83
    have hg : gray = 0 := (gray_zero_iff hc hr).2 fun i hi => by
      obtain ⟨x, y, rfl⟩ := index_pair hi
      rw [toGrayscale_get, toGrayscale_get]
      norm_num [uniformColour, grayValue]
    have ec := (hc.rmse_values hr).1
    rw [List.map_congr_left (g := fun _ => (4547 : ℝ)) (fun i hi => by
      obtain ⟨x, y, rfl⟩ := index_pair hi
      norm_num [uniformColour, channelDistance]), List.map_const', List.sum_replicate, length_indices, nsmul_eq_mul] at ec
    have hp' : (([h, w].prod : Nat) : ℝ) ≠ 0 := by exact_mod_cast (by simpa using hp : [h, w].prod ≠ 0)
    rw [show (([h, w].prod : Nat) : ℝ) * 4547 / (3 * ([h, w].prod : Nat)) = 4547 / 3 by field_simp] at ec
    rw [← ec, ← hg]; exact hr
  refine ⟨fun hs => ?_, key⟩
  have h1 := hs _ _ _ _ _ (uniformColour_images (by norm_num) _ _ _ _ _ _) rfl
    (fun i _ => ⟨_, by split_ifs <;> norm_num, rfl⟩) (fun i _ => ⟨_, by split_ifs <;> norm_num, rfl⟩) (key 1 1 (by norm_num)) rfl
  exact (Real.sqrt_pos.2 (by norm_num : (0 : ℝ) < 4547 / 3)).ne' h1

/-- Non-trivial cases: uniform images of 30 × 40 pixels. -/
example {colour gray : ℝ} (hr : RmseColours (uniformColour 30 40 10 20 30) (uniformColour 30 40 10 120 30) colour gray) : gray ≤ 1.3 * colour :=
  (C207_bound (uniformColour_images (by norm_num) 10 20 30 10 120 30) hr).2

example {colour gray : ℝ} (hr : RmseColours (uniformColour 30 40 10 10 10) (uniformColour 30 40 90 90 90) colour gray) : gray = colour :=
  C207_gray_partial (uniformColour_images (by norm_num) 10 10 10 90 90 90) hr
    (fun i hi => ⟨10, by norm_num, fun c _ => by obtain ⟨x, y, rfl⟩ := index_pair hi; simp [uniformColour]⟩)
    (fun i hi => ⟨90, by norm_num, fun c _ => by obtain ⟨x, y, rfl⟩ := index_pair hi; simp [uniformColour]⟩)

/-- The bound of `C207_bound` is sharp: differences in proportion to the weights. -/
example : (0.2125 * 2125 + 0.7154 * 7154 + 0.0721 * 721 : ℚ) ^ 2 =
    3 * (0.2125 ^ 2 + 0.7154 ^ 2 + 0.0721 ^ 2) * ((2125 ^ 2 + 7154 ^ 2 + 721 ^ 2) / 3) := by norm_num

/-- A gray and a red tone of the same gray value. -/
example (disk : Txt → Py (Image Rat)) : ∃ x y, (checkImgs disk (.array (uniformColour 30 40 100 100 100)) (.array (uniformColour 30 40 163 83 83)) {} false).val = .ok (x, y) ∧
    rmse (realImage x.arr) (realImage y.arr) = .ok 0 ∧ psnr 255 (realImage x.arr) (realImage y.arr) = .ok .infinite :=
  C207_same_gray (uniformColour_images (by norm_num) 100 100 100 163 83 83)
    (fun i hi => by obtain ⟨x, y, rfl⟩ := index_pair hi; norm_num [uniformColour]) 255 disk

/-- 16 bit: 1000 and 60000 in all channels are not told apart. -/
example {colour gray : ℝ} (hr : RmseColours ⟨.u16, ⟨[30, 40, 3], fun _ => 1000⟩⟩ ⟨.u16, ⟨[30, 40, 3], fun _ => 60000⟩⟩ colour gray) : gray = 0 :=
  C207_clipped (s := [30, 40]) (a := ⟨.u16, ⟨[30, 40, 3], fun _ => 1000⟩⟩) (b := ⟨.u16, ⟨[30, 40, 3], fun _ => 60000⟩⟩) ⟨rfl, rfl, rfl, Or.inr rfl, by norm_num⟩ (fun _ _ _ _ => by norm_num) (fun _ _ _ _ => by norm_num) hr

end Viqa
