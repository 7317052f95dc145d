import Verif.Model.NormalizeRounded
import Verif.Lemmas.Rounding
import Verif.Props.Normalize

set_option linter.unusedSimpArgs false

/-!
Properties C135 and C136: normalization in floating point arithmetic.
-/

namespace Viqa
open Spec

/-- The number before the last conversion: the differences have `p` bits, product and quotient `q`. -/
def scaledPixel (p q : ℕ) (hi : Int) (m M x : Rat) : Rat := fl q (fl q (fl p (x - m) * hi) / fl p (M - m))

section
variable {p q : ℕ} {hi : Int} {m M x y : Rat}

theorem scaledPixel_dark : scaledPixel p q hi m M m = 0 := by
  simp [scaledPixel, fl_zero]

theorem scaledPixel_nonneg (hp : 1 ≤ p) (hq : 1 ≤ q) (hhi : 0 ≤ hi) (hlt : m < M) (hx : m ≤ x) :
    0 ≤ scaledPixel p q hi m M x := by
  have hh : (0 : Rat) ≤ hi := by exact_mod_cast hhi
  unfold scaledPixel
  refine fl_nonneg hq (div_nonneg (fl_nonneg hq (mul_nonneg (fl_nonneg hp (by linarith)) hh)) (fl_nonneg hp (by linarith)))

theorem scaledPixel_mono (hp : 1 ≤ p) (hq : 1 ≤ q) (hhi : 0 ≤ hi) (hlt : m < M) (h : x ≤ y) :
    scaledPixel p q hi m M x ≤ scaledPixel p q hi m M y := by
  have hh : (0 : Rat) ≤ hi := by exact_mod_cast hhi
  unfold scaledPixel
  refine fl_mono hq (div_le_div_of_nonneg_right (fl_mono hq ?_) (fl_nonneg hp (by linarith)))
  exact mul_le_mul_of_nonneg_right (fl_mono hp (by linarith)) hh

theorem scaledPixel_unit (hp : 1 ≤ p) (hpq : p ≤ q) (hlt : m < M) : scaledPixel p q 1 m M M = 1 := by
  have h := fl_pos hp (show (0 : Rat) < M - m by linarith)
  have hq : 1 ≤ q := hp.trans hpq
  have hrep : fl q (fl p (M - m)) = fl p (M - m) := by
    obtain ⟨n, k, hn, hv⟩ := fl_representable p (M - m)
    exact fl_of_representable hq ⟨n, k, hn.trans (pow_le_pow_right₀ (by norm_num) hpq), hv⟩
  unfold scaledPixel
  push_cast
  rw [mul_one, hrep, div_self h.ne']
  have := fl_int (K := Rat) (p := q) hq 1 (by
    simpa using one_le_pow₀ (by norm_num : (1 : ℤ) ≤ 2))
  simpa using this

/-- Bounds of a rounded number. -/
theorem fl_bounds (q : ℕ) {v : Rat} (h : 0 ≤ v) : v * (1 - 1 / 2 ^ q) ≤ fl q v ∧ fl q v ≤ v * (1 + 1 / 2 ^ q) := by
  have he := fl_error q v
  rw [abs_of_nonneg h, abs_le] at he
  have e : v / 2 ^ q = v * (1 / 2 ^ q) := by ring
  rw [e] at he
  constructor <;> linarith [he.1, he.2]

/-- The relative error of two differences, a product and a quotient. -/
theorem scaledPixel_near (hp : 5 ≤ p) (hpq : p ≤ q) (hhi : 0 ≤ hi) (hlt : m < M) (hx : m ≤ x) :
    |scaledPixel p q hi m M x - linearTo hi m M x| ≤ linearTo hi m M x * (5 / 2 ^ p) := by
  have hh : (0 : Rat) ≤ hi := by exact_mod_cast hhi
  have hd : (0 : Rat) < M - m := by linarith
  have hx0 : (0 : Rat) ≤ x - m := by linarith
  have hp1 : 1 ≤ p := by omega
  have hq1 : 1 ≤ q := by omega
  obtain ⟨u, hu⟩ : ∃ u : Rat, u = 1 / 2 ^ p := ⟨_, rfl⟩
  have hu0 : 0 < u := by rw [hu]; positivity
  have hu1 : u ≤ 1 / 32 := by
    rw [hu]
    have : (2 : Rat) ^ 5 ≤ 2 ^ p := pow_le_pow_right₀ (by norm_num) hp
    rw [div_le_div_iff₀ (by positivity) (by norm_num)]
    linarith
  have e5 : (5 : Rat) / 2 ^ p = 5 * u := by rw [hu]; ring
  have huq : (1 : Rat) / 2 ^ q ≤ u := by
    rw [hu]
    exact div_le_div_of_nonneg_left (by norm_num) (by positivity) (pow_le_pow_right₀ (by norm_num) hpq)
  have fb : ∀ v : Rat, 0 ≤ v → v * (1 - u) ≤ fl q v ∧ fl q v ≤ v * (1 + u) := by
    intro v hv
    obtain ⟨h1, h2⟩ := fl_bounds q hv
    exact ⟨le_trans (mul_le_mul_of_nonneg_left (by linarith) hv) h1,
      h2.trans (mul_le_mul_of_nonneg_left (by linarith) hv)⟩
  obtain ⟨a1, a2⟩ := fl_bounds p hx0
  obtain ⟨d1, d2⟩ := fl_bounds p hd.le
  have hA : 0 ≤ fl p (x - m) := fl_nonneg hp1 hx0
  have hD : 0 < fl p (M - m) := fl_pos hp1 hd
  obtain ⟨b1, b2⟩ := fb _ (mul_nonneg hA hh)
  have hB : 0 ≤ fl q (fl p (x - m) * hi) := fl_nonneg hq1 (mul_nonneg hA hh)
  obtain ⟨c1, c2⟩ := fb _ (div_nonneg hB hD.le)
  rw [← hu] at a1 a2 d1 d2
  have hE : 0 ≤ linearTo hi m M x := by unfold linearTo; positivity
  have hEe : linearTo hi m M x * (M - m) = (x - m) * hi := by unfold linearTo; field_simp
  generalize linearTo hi m M x = E at *
  -- bounds of the product
  have p1 : E * (M - m) * (1 - u) ^ 2 ≤ fl q (fl p (x - m) * hi) := by
    calc E * (M - m) * (1 - u) ^ 2 = ((x - m) * (1 - u)) * hi * (1 - u) := by rw [hEe]; ring
      _ ≤ fl p (x - m) * hi * (1 - u) := by
        refine mul_le_mul_of_nonneg_right (mul_le_mul_of_nonneg_right a1 hh) (by linarith)
      _ ≤ _ := b1
  have p2 : fl q (fl p (x - m) * hi) ≤ E * (M - m) * (1 + u) ^ 2 := by
    calc _ ≤ fl p (x - m) * hi * (1 + u) := b2
      _ ≤ ((x - m) * (1 + u)) * hi * (1 + u) := by
        refine mul_le_mul_of_nonneg_right (mul_le_mul_of_nonneg_right a2 hh) (by linarith)
      _ = _ := by rw [show E * (M - m) * (1 + u) ^ 2 = (E * (M - m)) * (1 + u) ^ 2 by ring, hEe]; ring
  -- bounds of the quotient
  have q1 : E * (1 - u) ^ 2 / (1 + u) ≤ fl q (fl p (x - m) * hi) / fl p (M - m) := by
    rw [div_le_div_iff₀ (by linarith) hD]
    calc E * (1 - u) ^ 2 * fl p (M - m) ≤ E * (1 - u) ^ 2 * ((M - m) * (1 + u)) :=
          mul_le_mul_of_nonneg_left d2 (by positivity)
      _ = E * (M - m) * (1 - u) ^ 2 * (1 + u) := by ring
      _ ≤ _ := mul_le_mul_of_nonneg_right p1 (by linarith)
  have q2 : fl q (fl p (x - m) * hi) / fl p (M - m) ≤ E * (1 + u) ^ 2 / (1 - u) := by
    rw [div_le_div_iff₀ hD (by linarith)]
    calc fl q (fl p (x - m) * hi) * (1 - u) ≤ E * (M - m) * (1 + u) ^ 2 * (1 - u) :=
          mul_le_mul_of_nonneg_right p2 (by linarith)
      _ = E * (1 + u) ^ 2 * ((M - m) * (1 - u)) := by ring
      _ ≤ _ := mul_le_mul_of_nonneg_left d1 (by positivity)
  have r1 : E * (1 - 5 * u) ≤ scaledPixel p q hi m M x := by
    refine le_trans ?_ (le_trans (mul_le_mul_of_nonneg_right q1 (by linarith : (0 : Rat) ≤ 1 - u)) c1)
    rw [div_mul_eq_mul_div, le_div_iff₀ (by linarith)]
    have : (1 - 5 * u) * (1 + u) ≤ (1 - u) ^ 2 * (1 - u) := by
      nlinarith [mul_pos hu0 hu0, mul_nonneg (mul_pos hu0 hu0).le (by linarith : (0 : Rat) ≤ 1 - u)]
    nlinarith
  have r2 : scaledPixel p q hi m M x ≤ E * (1 + 5 * u) := by
    refine le_trans (le_trans c2 (mul_le_mul_of_nonneg_right q2 (by linarith : (0 : Rat) ≤ 1 + u))) ?_
    rw [div_mul_eq_mul_div, div_le_iff₀ (by linarith)]
    have : (1 + u) ^ 2 * (1 + u) ≤ (1 + 5 * u) * (1 - u) := by nlinarith [mul_pos hu0 hu0, mul_pos hu0 (mul_pos hu0 hu0)]
    nlinarith
  rw [e5, abs_le]
  constructor <;> linarith

/-- The largest result: numerator and denominator of the brightest pixel are equal. -/
theorem scaledPixel_lt (hp : 1 ≤ p) (hq : 24 ≤ q ∨ 11 ≤ q ∧ hi ≠ 65535) (hhi : Supported hi) (hlt : m < M) (hM : x ≤ M) :
    scaledPixel p q hi m M x < hi + 1 := by
  have hhi0 : 0 ≤ hi := by rcases hhi with e | e | e <;> subst e <;> decide
  have hh : (0 : Rat) ≤ hi := by exact_mod_cast hhi0
  have hq1 : 1 ≤ q := by omega
  refine lt_of_le_of_lt (scaledPixel_mono hp hq1 hhi0 hlt hM) ?_
  have hD : 0 < fl p (M - m) := fl_pos hp (by linarith)
  obtain ⟨u, hu⟩ : ∃ u : Rat, u = 1 / 2 ^ q := ⟨_, rfl⟩
  have hu0 : 0 < u := by rw [hu]; positivity
  have b := (fl_bounds q (mul_nonneg hD.le hh)).2
  have c := (fl_bounds q (div_nonneg (fl_nonneg hq1 (mul_nonneg hD.le hh)) hD.le)).2
  rw [← hu] at b c
  have b' : fl q (fl p (M - m) * hi) / fl p (M - m) ≤ hi * (1 + u) := by
    rw [div_le_iff₀ hD]; linarith
  have e : scaledPixel p q hi m M M ≤ hi * (1 + u) * (1 + u) :=
    c.trans (mul_le_mul_of_nonneg_right b' (by linarith))
  refine lt_of_le_of_lt e ?_
  have key : ∀ (k : ℕ) (c : Rat), k ≤ q → (hi : Rat) ≤ c → 0 ≤ c → c * (1 / 2 ^ k) ≤ 1 / 4 → (hi : Rat) * (1 + u) * (1 + u) < hi + 1 := by
    intro k c hk hc h0 h
    have hu' : u ≤ 1 / 2 ^ k := by
      rw [hu]
      exact div_le_div_of_nonneg_left (by norm_num) (by positivity) (pow_le_pow_right₀ (by norm_num) hk)
    have h1 : (hi : Rat) * u ≤ 1 / 4 := (mul_le_mul hc hu' hu0.le h0).trans h
    have h2 : u ≤ 1 := hu'.trans (by
      rw [div_le_one (by positivity)]; exact one_le_pow₀ (by norm_num))
    nlinarith
  rcases hq with hq | ⟨hq, hne⟩
  · refine key 24 65535 hq ?_ (by norm_num) (by norm_num)
    rcases hhi with e | e | e <;> subst e <;> norm_num
  · refine key 11 255 hq ?_ (by norm_num) (by norm_num)
    rcases hhi with e | e | e
    · subst e; norm_num
    · subst e; norm_num
    · exact absurd e hne

/-- The brightest pixel is less than one step below `hi`. -/
theorem scaledPixel_bright (hp : 1 ≤ p) (hq : 24 ≤ q ∨ 11 ≤ q ∧ hi ≠ 65535) (hhi : Supported hi) (hlt : m < M) :
    hi - 1 < scaledPixel p q hi m M M := by
  have hhi0 : 0 ≤ hi := by rcases hhi with e | e | e <;> subst e <;> decide
  have hh : (0 : Rat) ≤ hi := by exact_mod_cast hhi0
  have hq1 : 1 ≤ q := by omega
  have hD : 0 < fl p (M - m) := fl_pos hp (by linarith)
  obtain ⟨u, hu⟩ : ∃ u : Rat, u = 1 / 2 ^ q := ⟨_, rfl⟩
  have hu0 : 0 < u := by rw [hu]; positivity
  have b := (fl_bounds q (mul_nonneg hD.le hh)).1
  have c := (fl_bounds q (div_nonneg (fl_nonneg hq1 (mul_nonneg hD.le hh)) hD.le)).1
  rw [← hu] at b c
  have b' : hi * (1 - u) ≤ fl q (fl p (M - m) * hi) / fl p (M - m) := by
    rw [le_div_iff₀ hD]; linarith
  have key : ∀ (k : ℕ) (c : Rat), k ≤ q → (hi : Rat) ≤ c → 0 ≤ c → c * (1 / 2 ^ k) ≤ 1 / 4 → u ≤ 1 ∧ (hi : Rat) * u ≤ 1 / 4 := by
    intro k c hk hc h0 h
    have hu' : u ≤ 1 / 2 ^ k := by
      rw [hu]
      exact div_le_div_of_nonneg_left (by norm_num) (by positivity) (pow_le_pow_right₀ (by norm_num) hk)
    exact ⟨hu'.trans (by rw [div_le_one (by positivity)]; exact one_le_pow₀ (by norm_num)),
      (mul_le_mul hc hu' hu0.le h0).trans h⟩
  have h : u ≤ 1 ∧ (hi : Rat) * u ≤ 1 / 4 := by
    rcases hq with hq | ⟨hq, hne⟩
    · refine key 24 65535 hq ?_ (by norm_num) (by norm_num)
      rcases hhi with e | e | e <;> subst e <;> norm_num
    · refine key 11 255 hq ?_ (by norm_num) (by norm_num)
      rcases hhi with e | e | e
      · subst e; norm_num
      · subst e; norm_num
      · exact absurd e hne
  have e : hi * (1 - u) * (1 - u) ≤ scaledPixel p q hi m M M :=
    (mul_le_mul_of_nonneg_right b' (by linarith [h.1])).trans c
  nlinarith [h.1, h.2]

/-- The last conversion: `astype(np.float32)` or the integer part. -/
def finishPixel (hi : Int) (v : Rat) : Rat := if hi = 1 then fl 24 v else (⌊v⌋ : Int)

theorem finishPixel_mono (h : x ≤ y) : finishPixel hi x ≤ finishPixel hi y := by
  unfold finishPixel
  split
  · exact fl_mono (by norm_num) h
  · exact_mod_cast Int.floor_le_floor h

theorem castRounded_supported (hhi : Supported hi) (a : NDArray Rat)
    (h : ∀ v ∈ pixels a, 0 ≤ v ∧ v < hi + 1) :
    ∃ r, castRounded (0, hi) a = .ok ⟨rangeType hi, r⟩ ∧ PixelMap (finishPixel hi) a r := by
  have hf : ∀ b : ℕ, (hi : Rat) + 1 ≤ 2 ^ b → ∀ idx, InShape a.shape idx →
      castUnsigned b (a.get idx) = (⌊a.get idx⌋ : Int) := by
    intro b hb idx hidx
    obtain ⟨h0, h1⟩ := h _ ⟨idx, hidx, rfl⟩
    exact castUnsigned_of_mem b _ h0 (h1.trans_le hb)
  unfold castRounded
  rw [castOutput_supported hi hhi]
  rcases hhi with e | e | e <;> subst e
  · exact ⟨_, rfl, rfl, fun idx _ => by simp [NDArray.map, finishPixel, outCast]⟩
  · refine ⟨_, rfl, rfl, fun idx hidx => ?_⟩
    simp only [NDArray.map, outCast, finishPixel]
    rw [if_pos trivial, hf 8 (by norm_num) idx hidx, if_neg (by norm_num)]
  · refine ⟨_, rfl, rfl, fun idx hidx => ?_⟩
    simp only [NDArray.map, outCast, finishPixel]
    rw [if_neg (by norm_num), if_pos trivial, hf 16 (by norm_num) idx hidx, if_neg (by norm_num)]
end

variable (ident : Bool) (img : Image Rat) (hi : Int) (inp : Option (Int × Int)) (m M : Rat)

/-- The float16 arithmetic does not overflow. -/
def NoOverflow (dt : DType) (hi : Int) (m M : Rat) : Prop :=
  (halfOverflow dt [M - m] || halfOverflow (floatType dt hi) [fl dt.floatBits (M - m) * hi]) = false

/-- Precision of the differences, and of products and quotients. -/
theorem bits_of_supported {dt : DType} {hi : Int} (hflt : dt.isFloating = true) (hhi : Supported hi) :
    11 ≤ dt.floatBits ∧ dt.floatBits ≤ (floatType dt hi).floatBits ∧
      (24 ≤ (floatType dt hi).floatBits ∨ 11 ≤ (floatType dt hi).floatBits ∧ hi ≠ 65535) := by
  revert hflt
  rcases hhi with e | e | e <;> subst e <;> cases dt <;> decide

/-- float32 and float64 images keep their type. -/
theorem floatType_supported {dt : DType} {hi : Int} (hhi : Supported hi) (h : dt = .f32 ∨ dt = .f64) :
    floatType dt hi = dt := by
  rcases hhi with e | e | e <;> subst e <;> rcases h with h | h <;> subst h <;> rfl

/-- What is computed for floating point images. -/
theorem normalizeRounded_float (hr : HasRange img.arr m M) (hlt : m < M)
    (hflt : img.dtype.isFloating = true) (hno : NoOverflow img.dtype hi m M) (hhi : Supported hi) :
    ∃ r, normalizeRounded ident img (0, hi) inp true = ⟨[], .ok ⟨rangeType hi, r⟩⟩ ∧
      PixelMap (fun x => finishPixel hi (scaledPixel img.dtype.floatBits (floatType img.dtype hi).floatBits hi m M x))
        img.arr r := by
  obtain ⟨hp, hpq, hb⟩ := bits_of_supported hflt hhi
  have hq : 11 ≤ (floatType img.dtype hi).floatBits := by omega
  have hhi0 : 0 ≤ hi := by rcases hhi with e | e | e <;> subst e <;> decide
  have hint : img.dtype.isInteger = false := by revert hflt; cases img.dtype <;> simp [DType.isFloating, DType.isInteger]
  have hD := fl_pos (p := img.dtype.floatBits) (by omega) (show (0 : Rat) < M - m by linarith)
  obtain ⟨r, h1, h2⟩ := castRounded_supported hhi
    (img.arr.map (scaledPixel img.dtype.floatBits (floatType img.dtype hi).floatBits hi m M)) (by
    rintro v ⟨idx, hidx, rfl⟩
    have hp' : img.arr.get idx ∈ pixels img.arr := ⟨idx, hidx, rfl⟩
    exact ⟨scaledPixel_nonneg (by omega) (by omega) hhi0 hlt (hr.1.2 hp'),
      scaledPixel_lt (by omega) hb hhi hlt (hr.2.2 hp')⟩)
  refine ⟨r, ?_, h2.1, fun idx hidx => h2.2 idx hidx⟩
  have hfun : (fun x : Rat => fl (floatType img.dtype hi).floatBits (fl (floatType img.dtype hi).floatBits
      (fl (floatType img.dtype hi).floatBits (fl img.dtype.floatBits (x - m) * ((hi : Int) : Rat)) / fl img.dtype.floatBits (M - m))))
      = scaledPixel img.dtype.floatBits (floatType img.dtype hi).floatBits hi m M := by
    funext x
    rw [fl_fl (by omega)]
    rfl
  unfold normalizeRounded
  rw [if_neg (by simp [hflt]), if_neg (by simp [alreadyNormalized, hint])]
  simp only [if_true, (arrMin_iff _ _).2 hr.1, (arrMax_iff _ _).2 hr.2, bind, Except.bind, hint,
    Bool.false_eq_true, if_false, rescaleRounded, storeRounded, Option.bind, if_neg hD.ne',
    sub_zero, Int.cast_zero, add_zero, hfun, h1]
  rw [if_neg (by rw [show (_ || _) = false from hno]; decide)]
  rfl

/-- If there is a result, nothing overflowed. -/
theorem noOverflow_of_result {res : Image Rat} (hr : HasRange img.arr m M) (hflt : img.dtype.isFloating = true)
    (hres : (normalizeRounded ident img (0, hi) inp true).val = .ok res) : NoOverflow img.dtype hi m M := by
  have hint : img.dtype.isInteger = false := by revert hflt; cases img.dtype <;> simp [DType.isFloating, DType.isInteger]
  by_contra h
  have h' : (halfOverflow img.dtype [M - m] || halfOverflow (floatType img.dtype hi) [fl img.dtype.floatBits (M - m) * hi]) = true :=
    Bool.eq_true_of_not_eq_false h
  unfold normalizeRounded at hres
  rw [if_neg (by simp [hflt]), if_neg (by simp [alreadyNormalized, hint])] at hres
  simp only [if_true, (arrMin_iff _ _).2 hr.1, (arrMax_iff _ _).2 hr.2, bind, Except.bind, sub_zero, h', PyW.lift,
    nanOutput] at hres
  split at hres <;> cases hres

/-- **C135.** Every non-constant image has a result, unless it is a float16 image whose extent, or extent times
255, is not a float16 number. -/
theorem C135_result (hr : HasRange img.arr m M) (hlt : m < M) (hflt : img.dtype.isFloating = true) (hhi : Supported hi)
    (h16 : img.dtype = .f16 → M - m ≤ 65488 ∧ (hi = 255 → (M - m) * 255 ≤ 65488)) :
    ∃ r, normalizeRounded ident img (0, hi) inp true = ⟨[], .ok ⟨rangeType hi, r⟩⟩ := by
  have hno : NoOverflow img.dtype hi m M := by
    unfold NoOverflow
    by_cases h : img.dtype = .f16
    · obtain ⟨h1, h2⟩ := h16 h
      have hd : (0 : Rat) < M - m := by linarith
      have hb := (fl_bounds 11 hd.le).2
      have h0 := fl_nonneg (p := 11) (by norm_num) hd.le
      have hq : img.dtype.floatBits = 11 := by rw [h]; rfl
      rw [hq, half_range hd.le (by linarith), Bool.false_or]
      rcases hhi with e | e | e
      · subst e
        refine half_range (by push_cast; linarith) ?_ _
        push_cast; norm_num at hb ⊢; linarith
      · subst e
        have h3 := h2 rfl
        refine half_range (by push_cast; linarith) ?_ _
        push_cast; norm_num at hb ⊢; linarith
      · subst e
        exact halfOverflow_of_ne (by rw [h]; decide) _
    · exact no_overflow_of_ne h _ _ _
  obtain ⟨r, h, -⟩ := normalizeRounded_float ident img hi inp m M hr hlt hflt hno hhi
  exact ⟨r, h⟩

example : ∃ r, normalizeRounded false ⟨.f16, (twoPixels .f16 (250 : Int)).arr⟩ (0, 255) none true = ⟨[], .ok ⟨.u8, r⟩⟩ :=
  C135_result false _ 255 none 0 250 (by simpa using range_two .f16 250 (by decide)) (by norm_num) rfl (Or.inr (Or.inl rfl))
    (fun _ => ⟨by norm_num, fun _ => by norm_num⟩)

/-- And with that exception there is none. -/
theorem C135_half_overflow (hr : HasRange img.arr m M) (h16 : img.dtype = .f16) (hhi : Supported hi)
    (ho : 65520 ≤ M - m ∨ hi = 255 ∧ 65520 ≤ fl 11 (M - m) * 255) :
    (normalizeRounded ident img (0, hi) inp true).val = .error .notANumber := by
  have hof : (halfOverflow img.dtype [M - m] || halfOverflow (floatType img.dtype hi) [fl img.dtype.floatBits (M - m) * hi]) = true := by
    rw [h16, Bool.or_eq_true]
    rcases ho with ho | ⟨rfl, ho⟩
    · left
      have : (65520 : Rat) ≤ |M - m| := le_trans ho (le_abs_self _)
      simp [halfOverflow, this]
    · right
      have : (65520 : Rat) ≤ |fl 11 (M - m) * 255| := le_trans ho (le_abs_self _)
      simpa [halfOverflow, floatType, abs_mul, DType.floatBits] using this
  unfold normalizeRounded
  rw [if_neg (by rw [h16]; decide), if_neg (by rw [h16]; simp [alreadyNormalized, DType.isInteger])]
  simp only [if_true, (arrMin_iff _ _).2 hr.1, (arrMax_iff _ _).2 hr.2, bind, Except.bind, sub_zero, hof, PyW.lift,
    nanOutput, castOutput_supported hi hhi]

example : (normalizeRounded false halfImage (0, 255) none true).val = .error .notANumber :=
  C135_half_overflow false halfImage 255 none 0 300 halfImage_range rfl (Or.inr (Or.inl rfl))
    (Or.inr ⟨rfl, by decide +kernel⟩)

/-- **C135.** Normalizing a non-constant floating point image in floating point arithmetic: all results
lie in the data range, the darkest pixels become 0 and the order of the pixels is kept. -/
theorem C135_range_and_order (res : Image Rat) (hr : HasRange img.arr m M) (hlt : m < M)
    (hdt : img.dtype.isFloating = true) (hhi : Supported hi)
    (hres : (normalizeRounded ident img (0, hi) inp true).val = .ok res) :
    res.arr.shape = img.arr.shape ∧
    (∀ idx, InShape img.arr.shape idx → 0 ≤ res.arr.get idx ∧ res.arr.get idx ≤ hi) ∧
    (∀ idx, InShape img.arr.shape idx → img.arr.get idx = m → res.arr.get idx = 0) ∧
    (∀ i j, InShape img.arr.shape i → InShape img.arr.shape j →
      img.arr.get i ≤ img.arr.get j → res.arr.get i ≤ res.arr.get j) := by
  have hno := noOverflow_of_result ident img hi inp m M hr hdt hres
  obtain ⟨hp, hpq, hbits⟩ := bits_of_supported (hi := hi) hdt hhi
  have hhi0 : 0 ≤ hi := by rcases hhi with e | e | e <;> subst e <;> decide
  obtain ⟨r, h1, hs, hv⟩ := normalizeRounded_float ident img hi inp m M hr hlt hdt hno hhi
  rw [h1] at hres
  cases hres
  have f0 : finishPixel hi 0 = 0 := by unfold finishPixel; split <;> simp [fl_zero]
  refine ⟨hs, ?_, ?_, ?_⟩
  · intro idx hidx
    have hx : img.arr.get idx ∈ pixels img.arr := ⟨idx, hidx, rfl⟩
    simp only [hv idx hidx]
    constructor
    · rw [← f0]
      exact finishPixel_mono (scaledPixel_nonneg (by omega) (by omega) hhi0 hlt (hr.1.2 hx))
    · by_cases h : hi = 1
      · subst h
        have := finishPixel_mono (hi := 1) (scaledPixel_mono (p := img.dtype.floatBits) (q := (floatType img.dtype 1).floatBits) (by omega) (by omega) hhi0 hlt (hr.2.2 hx))
        rw [scaledPixel_unit (by omega) hpq hlt] at this
        refine this.trans ?_
        unfold finishPixel
        have := fl_int (K := Rat) (p := 24) (by norm_num) 1 (by norm_num)
        simp only [if_true, Int.cast_one] at this ⊢
        rw [this]
      · unfold finishPixel
        rw [if_neg h]
        have := scaledPixel_lt (p := img.dtype.floatBits) (by omega) hbits hhi hlt (hr.2.2 hx)
        have h3 : ⌊scaledPixel img.dtype.floatBits (floatType img.dtype hi).floatBits hi m M (img.arr.get idx)⌋ < hi + 1 := by
          rw [Int.floor_lt]; push_cast; linarith
        exact_mod_cast Int.lt_add_one_iff.1 h3
  · intro idx hidx he
    simp only [hv idx hidx, he, scaledPixel_dark, f0]
  · intro i j hi' hj hle
    simp only [hv i hi', hv j hj]
    exact finishPixel_mono (scaledPixel_mono (by omega) (by omega) hhi0 hlt hle)

/-- **C135.** Rounding moves a pixel by at most one step of the integer ranges (160 of the 65535 steps if the image
has type float16, whose differences have 11 bits) and by at most `2 ^ (-21)`
(float16: `2 ^ (-8)`) for the range 1, compared with the exact linear map. -/
theorem C135_near (res : Image Rat) (hr : HasRange img.arr m M) (hlt : m < M)
    (hdt : img.dtype.isFloating = true) (hhi : Supported hi)
    (hres : (normalizeRounded ident img (0, hi) inp true).val = .ok res) :
    ∀ idx, InShape img.arr.shape idx →
      |res.arr.get idx - quantize hi (linearTo hi m M (img.arr.get idx))| ≤ if hi = 1 then (if img.dtype = .f16 then 1 / 2 ^ 8 else 1 / 2 ^ 21)
        else if img.dtype = .f16 ∧ hi = 65535 then 160 else 1 := by
  have hno := noOverflow_of_result ident img hi inp m M hr hdt hres
  obtain ⟨hp, hpq, hbits⟩ := bits_of_supported (hi := hi) hdt hhi
  have hhi0 : 0 ≤ hi := by rcases hhi with e | e | e <;> subst e <;> decide
  obtain ⟨r, h1, hs, hv⟩ := normalizeRounded_float ident img hi inp m M hr hlt hdt hno hhi
  rw [h1] at hres
  cases hres
  intro idx hidx
  have hx : img.arr.get idx ∈ pixels img.arr := ⟨idx, hidx, rfl⟩
  have hn := scaledPixel_near (p := img.dtype.floatBits) (by omega) hpq hhi0 hlt (hr.1.2 hx)
  obtain ⟨l0, l1⟩ := linearTo_bounds hhi0 hlt (hr.1.2 hx) (hr.2.2 hx)
  have s0 := scaledPixel_nonneg (p := img.dtype.floatBits) (q := (floatType img.dtype hi).floatBits) (by omega) (by omega) hhi0 hlt (hr.1.2 hx)
  simp only [hv idx hidx]
  unfold finishPixel quantize
  generalize scaledPixel img.dtype.floatBits (floatType img.dtype hi).floatBits hi m M (img.arr.get idx) = v at *
  generalize linearTo hi m M (img.arr.get idx) = e at *
  by_cases h : hi = 1
  · subst h
    rw [if_pos rfl, if_pos rfl, if_pos rfl]
    push_cast at l1
    have h2 : |v - e| ≤ 5 / 2 ^ img.dtype.floatBits := hn.trans (by
      have : (0 : Rat) ≤ 5 / 2 ^ img.dtype.floatBits := by positivity
      nlinarith)
    have hu : (5 : Rat) / 2 ^ img.dtype.floatBits ≤ if img.dtype = .f16 then 5 / 2 ^ 11 else 5 / 2 ^ 24 := by
      split
      · rename_i h; rw [h]; exact le_rfl
      · rename_i h
        have : 24 ≤ img.dtype.floatBits := by revert h; cases img.dtype <;> decide
        exact div_le_div_of_nonneg_left (by norm_num) (by positivity) (pow_le_pow_right₀ (by norm_num) this)
    have h3 := fl_error 24 v
    rw [abs_of_nonneg s0] at h3
    have h4 : v ≤ 2 := by
      have h4 := (abs_le.1 h2).2
      split at hu <;> norm_num at hu h4 ⊢ <;> linarith
    have h5 : v / 2 ^ 24 ≤ 2 / 2 ^ 24 := div_le_div_of_nonneg_right h4 (by norm_num)
    calc |fl 24 v - e| = |(fl 24 v - v) + (v - e)| := by congr 1; ring
      _ ≤ |fl 24 v - v| + |v - e| := abs_add_le _ _
      _ ≤ 2 / 2 ^ 24 + if img.dtype = .f16 then 5 / 2 ^ 11 else 5 / 2 ^ 24 := add_le_add (h3.trans h5) (h2.trans hu)
      _ ≤ _ := by split <;> norm_num
  · rw [if_neg h, if_neg h, if_neg h]
    have hs : ∀ c : ℤ, |v - e| < c → |(⌊v⌋ : Rat) - ⌊e⌋| ≤ c := by
      intro c h2
      obtain ⟨h3, h4⟩ := abs_lt.1 h2
      have g1 : ⌊v⌋ ≤ ⌊e⌋ + c := by
        have : ⌊v⌋ < ⌊e⌋ + c + 1 := by
          rw [Int.floor_lt]; push_cast
          have := Int.lt_floor_add_one e
          linarith
        omega
      have g2 : ⌊e⌋ ≤ ⌊v⌋ + c := by
        have : ⌊e⌋ < ⌊v⌋ + c + 1 := by
          rw [Int.floor_lt]; push_cast
          have := Int.lt_floor_add_one v
          linarith
        omega
      have g1' : (⌊v⌋ : Rat) ≤ ⌊e⌋ + c := by exact_mod_cast g1
      have g2' : (⌊e⌋ : Rat) ≤ ⌊v⌋ + c := by exact_mod_cast g2
      rw [abs_le]
      constructor <;> linarith
    have hc : ∀ (k : ℕ) (c b : Rat), k ≤ img.dtype.floatBits → (hi : Rat) ≤ c → 0 ≤ c → c * (5 / 2 ^ k) < b → |v - e| < b := by
      intro k c b hk hc h0 hb
      have hu : (5 : Rat) / 2 ^ img.dtype.floatBits ≤ 5 / 2 ^ k :=
        div_le_div_of_nonneg_left (by norm_num) (by positivity) (pow_le_pow_right₀ (by norm_num) hk)
      exact lt_of_le_of_lt (hn.trans (mul_le_mul (l1.trans hc) hu (by positivity) h0)) hb
    by_cases h16 : img.dtype = .f16
    · rcases hhi with e' | e' | e'
      · exact absurd e' h
      · rw [if_neg (by rw [e']; simp)]
        exact_mod_cast hs 1 (hc 11 255 _ hp (by rw [e']; norm_num) (by norm_num) (by norm_num))
      · rw [if_pos ⟨h16, e'⟩]
        exact_mod_cast hs 160 (hc 11 65535 _ hp (by rw [e']; norm_num) (by norm_num) (by norm_num))
    · rw [if_neg (by simp [h16])]
      have hb : 24 ≤ img.dtype.floatBits := by revert h16; cases img.dtype <;> decide
      exact_mod_cast hs 1 (hc 24 65535 _ hb (by rcases hhi with e | e | e <;> rw [e] <;> norm_num) (by norm_num) (by norm_num))

/-- **C135.** For the range 1 the brightest pixels become 1. -/
theorem C135_bright_unit (res : Image Rat) (hr : HasRange img.arr m M) (hlt : m < M)
    (hdt : img.dtype.isFloating = true)
    (hres : (normalizeRounded ident img (0, 1) inp true).val = .ok res) :
    ∀ idx, InShape img.arr.shape idx → img.arr.get idx = M → res.arr.get idx = 1 := by
  have hno := noOverflow_of_result ident img 1 inp m M hr hdt hres
  obtain ⟨hp, hpq, hbits⟩ := bits_of_supported (hi := 1) hdt (Or.inl rfl)
  obtain ⟨r, h1, hs, hv⟩ := normalizeRounded_float ident img 1 inp m M hr hlt hdt hno (Or.inl rfl)
  rw [h1] at hres
  cases hres
  intro idx hidx he
  simp only [hv idx hidx, he]
  rw [scaledPixel_unit (by omega) hpq hlt]
  unfold finishPixel
  have := fl_int (K := Rat) (p := 24) (by norm_num) 1 (by norm_num)
  simpa using this

/-- **C135**, partially: for the ranges 255 and 65535 the brightest pixels become `hi` or `hi - 1`, and `hi` if
the extent `M - m` of the image and its product with `hi` can be represented (for example integers below
`2 ^ 37` stored as float64). Missing: `hi` for all images, see `C135_refuted`. -/
theorem C135_bright_partial (res : Image Rat) (hr : HasRange img.arr m M) (hlt : m < M)
    (hdt : img.dtype.isFloating = true) (hhi : Supported hi)
    (hres : (normalizeRounded ident img (0, hi) inp true).val = .ok res) :
    ∀ idx, InShape img.arr.shape idx → img.arr.get idx = M →
      (res.arr.get idx = hi ∨ res.arr.get idx = hi - 1) ∧
      (∀ n k : ℤ, M - m = n * 2 ^ k → |n * hi| ≤ 2 ^ img.dtype.floatBits → res.arr.get idx = hi) := by
  have hno := noOverflow_of_result ident img hi inp m M hr hdt hres
  obtain ⟨hp, hpq, hbits⟩ := bits_of_supported (hi := hi) hdt hhi
  have hhi0 : 0 < hi := by rcases hhi with e | e | e <;> subst e <;> decide
  have hd : (0 : Rat) < M - m := by linarith
  intro idx hidx he
  have hlin : linearTo hi m M M = hi := by unfold linearTo; field_simp
  have hqn : quantize hi hi = hi := by unfold quantize; split <;> simp
  constructor
  · by_cases h : hi = 1
    · subst h
      left
      simpa using C135_bright_unit ident img inp m M res hr hlt hdt hres idx hidx he
    · have hb := (C135_range_and_order ident img hi inp m M res hr hlt hdt hhi hres).2.1 idx hidx
      obtain ⟨r, h1, hs, hv⟩ := normalizeRounded_float ident img hi inp m M hr hlt hdt hno hhi
      rw [h1] at hres
      cases hres
      have hn := scaledPixel_bright (p := img.dtype.floatBits) (by omega) hbits hhi hlt
      simp only [hv idx hidx, finishPixel, if_neg h, he] at hb ⊢
      have a2 : hi - 1 ≤ ⌊scaledPixel img.dtype.floatBits (floatType img.dtype hi).floatBits hi m M M⌋ := by
        rw [Int.le_floor]; push_cast; exact hn.le
      generalize ⌊scaledPixel img.dtype.floatBits (floatType img.dtype hi).floatBits hi m M M⌋ = n at *
      have a1 : n ≤ hi := by exact_mod_cast hb.2
      rcases eq_or_lt_of_le a1 with h2 | h2
      · left; rw [h2]
      · right
        have : n = hi - 1 := by omega
        rw [this]; push_cast; rfl
  · intro n k hnk hle
    obtain ⟨r, h1, hs, hv⟩ := normalizeRounded_float ident img hi inp m M hr hlt hdt hno hhi
    rw [h1] at hres
    cases hres
    simp only [hv idx hidx, he]
    have hrep1 : Representable img.dtype.floatBits (M - m) := by
      refine ⟨n, k, le_trans ?_ hle, hnk⟩
      rw [abs_mul]
      exact le_mul_of_one_le_right (abs_nonneg n) (by rw [abs_of_pos hhi0]; omega)
    have hrep2 : Representable (floatType img.dtype hi).floatBits ((M - m) * hi) :=
      ⟨n * hi, k, hle.trans (pow_le_pow_right₀ (by norm_num) hpq), by rw [hnk]; push_cast; ring⟩
    have hs : scaledPixel img.dtype.floatBits (floatType img.dtype hi).floatBits hi m M M = hi := by
      unfold scaledPixel
      rw [fl_of_representable (by omega) hrep1, fl_of_representable (by omega) hrep2, mul_comm,
        mul_div_assoc, div_self hd.ne', mul_one, fl_int (by omega)]
      rw [abs_of_pos hhi0]
      rcases hbits with hq | ⟨hq, hne⟩
      · calc hi ≤ 2 ^ 24 := by rcases hhi with e | e | e <;> subst e <;> decide
          _ ≤ 2 ^ (floatType img.dtype hi).floatBits := pow_le_pow_right₀ (by norm_num) hq
      · calc hi ≤ 2 ^ 11 := by
              rcases hhi with e | e | e
              · subst e; decide
              · subst e; decide
              · exact absurd e hne
          _ ≤ 2 ^ (floatType img.dtype hi).floatBits := pow_le_pow_right₀ (by norm_num) hq
    rw [hs]
    unfold finishPixel
    split
    · rename_i h
      subst h
      have := fl_int (K := Rat) (p := 24) (by norm_num) 1 (by norm_num)
      simpa using this
    · simp

/-- The full statement: the brightest pixels become the largest value of the data range. -/
def BrightestIsLargest : Prop :=
  ∀ (ident : Bool) (img : Image Rat) (hi : Int) (inp : Option (Int × Int)) (m M : Rat) (res : Image Rat),
    HasRange img.arr m M → m < M → img.dtype.isFloating = true →
    (∀ v ∈ pixels img.arr, Representable img.dtype.floatBits v) → Supported hi →
    (normalizeRounded ident img (0, hi) inp true).val = .ok res →
    ∀ idx, InShape img.arr.shape idx → img.arr.get idx = M → res.arr.get idx = hi

/-- A 1 × 2 image with the pixels 0 and `v`. -/
def zeroAnd (dt : DType) (v : Rat) : Image Rat := ⟨dt, ⟨[1, 2], fun i => if i = [0, 1] then v else 0⟩⟩

/-- The float64 number written as 1.1. -/
def onePointOne : Rat := fl 53 (11 / 10)

theorem zeroAnd_range (dt : DType) (v : Rat) (h : 0 < v) : HasRange (zeroAnd dt v).arr 0 v := by
  constructor
  · refine ⟨⟨[0, 0], by simp [zeroAnd, InShape], by simp [zeroAnd]⟩, ?_⟩
    rintro _ ⟨i, -, rfl⟩
    simp only [zeroAnd]
    split <;> linarith
  · refine ⟨⟨[0, 1], by simp [zeroAnd, InShape], by simp [zeroAnd]⟩, ?_⟩
    rintro _ ⟨i, -, rfl⟩
    simp only [zeroAnd]
    split <;> linarith

theorem zeroAnd_pixels {p : ℕ} (dt : DType) (v : Rat) (h : Representable p v) :
    ∀ w ∈ pixels (zeroAnd dt v).arr, Representable p w := by
  rintro _ ⟨i, -, rfl⟩
  simp only [zeroAnd]
  split
  · exact h
  · exact ⟨0, 0, by simp, by simp⟩

/-- **C135, refuted:** the brightest pixel of the float64 image with the pixels 0 and 1.1 becomes 254. -/
theorem C135_refuted : ¬ BrightestIsLargest := by
  intro h
  have hpos : (0 : Rat) < onePointOne := fl_pos (by norm_num) (by norm_num)
  obtain ⟨r, h1, hs, hv⟩ := normalizeRounded_float false (zeroAnd .f64 onePointOne) 255 none 0 onePointOne
    (zeroAnd_range _ _ hpos) hpos rfl (no_overflow_of_ne (by simp [zeroAnd]) _ _ _) (Or.inr (Or.inl rfl))
  have h2 := h false (zeroAnd .f64 onePointOne) 255 none 0 onePointOne _ (zeroAnd_range _ _ hpos) hpos rfl
    (zeroAnd_pixels _ _ (fl_representable 53 _)) (Or.inr (Or.inl rfl)) (by rw [h1]) [0, 1] (by decide) rfl
  simp only [hv [0, 1] (by decide)] at h2
  exact absurd h2 (by decide +kernel)

/-- The same for float32 images of whole numbers: with the range 65535 the pixel 259 becomes 65534. -/
theorem C135_integers_refuted : ¬ BrightestIsLargest := by
  intro h
  obtain ⟨r, h1, hs, hv⟩ := normalizeRounded_float false (zeroAnd .f32 259) 65535 none 0 259
    (zeroAnd_range _ _ (by norm_num)) (by norm_num) rfl (no_overflow_of_ne (by simp [zeroAnd]) _ _ _) (Or.inr (Or.inr rfl))
  have h2 := h false (zeroAnd .f32 259) 65535 none 0 259 _ (zeroAnd_range _ _ (by norm_num)) (by norm_num) rfl
    (zeroAnd_pixels _ _ ⟨259, 0, by decide, by norm_num⟩) (Or.inr (Or.inr rfl)) (by rw [h1]) [0, 1] (by decide) rfl
  simp only [hv [0, 1] (by decide)] at h2
  exact absurd h2 (by decide +kernel)

/-- The same for float16 images: the pixel 11 becomes 254. -/
theorem C135_half_refuted : ¬ BrightestIsLargest := by
  intro h
  obtain ⟨r, h1, hs, hv⟩ := normalizeRounded_float false (zeroAnd .f16 11) 255 none 0 11
    (zeroAnd_range _ _ (by norm_num)) (by norm_num) rfl (by unfold NoOverflow; decide +kernel) (Or.inr (Or.inl rfl))
  have h2 := h false (zeroAnd .f16 11) 255 none 0 11 _ (zeroAnd_range _ _ (by norm_num)) (by norm_num) rfl
    (zeroAnd_pixels _ _ ⟨11, 0, by decide, by norm_num⟩) (Or.inr (Or.inl rfl)) (by rw [h1]) [0, 1] (by decide) rfl
  simp only [hv [0, 1] (by decide)] at h2
  exact absurd h2 (by decide +kernel)

example : finishPixel 255 (scaledPixel 11 11 255 0 11 11) = 254 := by decide +kernel

/-- The results of the two images. -/
example : finishPixel 255 (scaledPixel 53 53 255 0 onePointOne onePointOne) = 254 := by decide +kernel
example : finishPixel 65535 (scaledPixel 24 24 65535 0 259 259) = 65534 := by decide +kernel
example : finishPixel 255 (scaledPixel 53 53 255 2 6 3) = 63 := by decide +kernel


/-- **C12 with rounding:** normalizing to 1 twice gives the same image as normalizing once, in floating point
arithmetic. -/
theorem C12_unit_rounded (ident ident' : Bool) (res res' : Image Rat) (hr : HasRange img.arr m M) (hlt : m < M)
    (hdt : img.dtype.isFloating = true)
    (hres : (normalizeRounded ident img (0, 1) inp true).val = .ok res)
    (hres' : (normalizeRounded ident' res (0, 1) inp true).val = .ok res') :
    res'.dtype = res.dtype ∧ NDArray.Same res'.arr res.arr := by
  have hro := C135_range_and_order ident img 1 inp m M res hr hlt hdt (Or.inl rfl) hres
  have hbu := C135_bright_unit ident img inp m M res hr hlt hdt hres
  have hno := noOverflow_of_result ident img 1 inp m M hr hdt hres
  obtain ⟨r, h1, hs, hv⟩ := normalizeRounded_float ident img 1 inp m M hr hlt hdt hno (Or.inl rfl)
  rw [h1] at hres
  cases hres
  obtain ⟨⟨⟨i, hi1, hi2⟩, -⟩, ⟨⟨j, hj1, hj2⟩, -⟩⟩ := hr
  have hr' : HasRange r 0 1 := by
    refine ⟨⟨⟨i, by rw [hs]; exact hi1, hro.2.2.1 i hi1 hi2⟩, ?_⟩, ⟨⟨j, by rw [hs]; exact hj1, hbu j hj1 hj2⟩, ?_⟩⟩
    · rintro _ ⟨k, hk, rfl⟩
      rw [hs] at hk
      exact (hro.2.1 k hk).1
    · rintro _ ⟨k, hk, rfl⟩
      rw [hs] at hk
      have := (hro.2.1 k hk).2
      push_cast at this
      exact this
  obtain ⟨r', h2, hs', hv'⟩ := normalizeRounded_float ident' ⟨rangeType 1, r⟩ 1 inp 0 1 hr' (by norm_num)
    rfl (no_overflow_of_ne (by simp [rangeType]) _ _ _) (Or.inl rfl)
  rw [h2] at hres'
  cases hres'
  refine ⟨rfl, hs', ?_⟩
  intro idx hidx
  simp only [hs'] at hidx
  simp only [hv' idx hidx]
  have hrep : Representable 24 (r.get idx) := by
    rw [hv idx (by rw [← hs]; exact hidx)]
    simp only [finishPixel, if_true]
    exact fl_representable 24 _
  have hone := fl_int (K := Rat) (p := 24) (by norm_num) 1 (by norm_num)
  have hb : (⟨rangeType 1, r⟩ : Image Rat).dtype.floatBits = 24 := rfl
  have hx := fl_of_representable (p := 24) (by norm_num) hrep
  push_cast at hone
  rw [hb, show (floatType (rangeType 1) 1).floatBits = 24 from rfl]
  unfold finishPixel scaledPixel
  rw [if_pos rfl]
  push_cast
  rw [sub_zero, sub_zero, hone, hx, mul_one, hx, div_one, hx, hx]

/-! ### C136 integer images -/

/-- Rounding the quotient of two integers below `2 ^ q` does not change its integer part. -/
theorem floor_fl_quotient {q : ℕ} (hq : 1 ≤ q) (a b : ℕ) (hb : 0 < b) (ha : a < 2 ^ q) :
    ⌊fl q ((a : Rat) / b)⌋ = ⌊(a : Rat) / b⌋ := by
  have hb' : (0 : Rat) < b := by exact_mod_cast hb
  have hv0 : (0 : Rat) ≤ (a : Rat) / b := by positivity
  have hn : ⌊(a : Rat) / b⌋ = ((a / b : ℕ) : ℤ) := by
    have := floor_of_den (a : ℤ) (b : ℤ) (by exact_mod_cast hb)
    push_cast at this ⊢
    exact this
  have hle : a / b ≤ a := Nat.div_le_self a b
  have key : fl q ((a : Rat) / b) < ((a / b : ℕ) : Rat) + 1 := by
    have he := fl_error q ((a : Rat) / b)
    rw [abs_of_nonneg hv0] at he
    have h1 : (a : Rat) / b ≤ ((a / b : ℕ) : Rat) + 1 - 1 / b := by
      rw [div_le_iff₀ hb']
      have h2 : a + 1 ≤ (a / b + 1) * b := by
        have := Nat.lt_div_mul_add hb (a := a)
        nlinarith
      have h3 : ((a + 1 : ℕ) : Rat) ≤ (((a / b + 1) * b : ℕ) : Rat) := by exact_mod_cast h2
      push_cast at h3
      have : (((a / b : ℕ) : Rat) + 1 - 1 / b) * b = (((a / b : ℕ) : Rat) + 1) * b - 1 := by field_simp
      rw [this]
      push_cast
      linarith
    have h4 : (a : Rat) / b / 2 ^ q < 1 / b := by
      rw [div_div, div_lt_div_iff₀ (by positivity) hb']
      have : (a : Rat) < 2 ^ q := by exact_mod_cast ha
      nlinarith
    have := (abs_le.1 he).2
    linarith
  have low : ((a / b : ℕ) : Rat) ≤ fl q ((a : Rat) / b) := by
    have h1 : fl q (((a / b : ℕ) : ℤ) : Rat) = (((a / b : ℕ) : ℤ) : Rat) := by
      apply fl_int hq
      rw [abs_of_nonneg (by positivity)]
      have : a / b ≤ 2 ^ q := by omega
      exact_mod_cast this
    have h2 : ((a / b : ℕ) : Rat) ≤ (a : Rat) / b := by
      have := Int.floor_le ((a : Rat) / b)
      rw [hn] at this
      exact_mod_cast this
    have := fl_mono hq h2
    rw [Int.cast_natCast] at h1
    rwa [h1] at this
  rw [hn, Int.floor_eq_iff]
  push_cast
  push_cast at low key
  exact ⟨low, key⟩

theorem castUnsigned_fl {q : ℕ} (hq : 1 ≤ q) (bits : ℕ) (a b : ℤ) (hb : b ≠ 0) (ha : |a| < 2 ^ q) :
    castUnsigned bits (fl q ((a : Rat) / b)) = castUnsigned bits ((a : Rat) / b) := by
  have habs : |(a : Rat) / b| = (a.natAbs : Rat) / (b.natAbs : Rat) := by
    rw [abs_div, Nat.cast_natAbs, Nat.cast_natAbs]
    push_cast
    rfl
  have hfl := floor_fl_quotient hq a.natAbs b.natAbs (Int.natAbs_pos.2 hb) (by
    have : ((a.natAbs : ℕ) : ℤ) < 2 ^ q := by rwa [Int.natCast_natAbs]
    exact_mod_cast this)
  rw [← habs] at hfl
  unfold castUnsigned
  rcases le_or_gt 0 ((a : Rat) / b) with h | h
  · rw [abs_of_nonneg h] at hfl
    rw [if_pos h, if_pos (fl_nonneg hq h), hfl]
  · rw [abs_of_neg h, fl_neg] at hfl
    have h2 : fl q ((a : Rat) / b) < 0 := by
      have := fl_pos hq (show (0 : Rat) < -((a : Rat) / b) by linarith)
      rw [fl_neg] at this
      linarith
    rw [if_neg (not_le.2 h), if_neg (not_le.2 h2), hfl]

theorem wrapInt_abs (dt : DType) (x : ℤ) : |wrapInt dt x| ≤ 2 ^ dt.bits := by
  unfold wrapInt
  have h1 := Int.emod_nonneg (x - dt.intMin) (b := 2 ^ dt.bits) (by positivity)
  have h2 := Int.emod_lt_of_pos (x - dt.intMin) (b := 2 ^ dt.bits) (by positivity)
  have h3 : -2 ^ dt.bits ≤ dt.intMin ∧ dt.intMin ≤ 0 := by cases dt <;> decide
  rw [abs_le]
  constructor <;> omega

/-- **C136.** Rounding does not change the result for integer images of at most 32 bits and the ranges 255 and
65535: the floating point program gives the same image (or the same error and warning) as exact arithmetic. -/
theorem C136_integers (hint : img.dtype.isInteger = true) (hb : img.dtype.bits ≤ 32) (hhi : hi = 255 ∨ hi = 65535) :
    normalizeRounded ident img (0, hi) inp true = normalizeData ident img (0, hi) inp true := by
  have hsup : Supported hi := Or.inr hhi
  have hq : img.dtype.floatBits = 53 := by revert hint; cases img.dtype <;> simp [DType.isInteger, DType.floatBits]
  have hn16 : img.dtype ≠ .f16 := by intro h; rw [h] at hint; simp [DType.isInteger] at hint
  obtain ⟨t, ht, htb⟩ : ∃ t, arithType img.dtype hi = some t ∧ t.bits ≤ 32 := by
    revert hint hb
    rcases hhi with e | e <;> subst e <;> cases img.dtype <;>
      simp [arithType, DType.isInteger, DType.isUnsigned, DType.bits, unsignedWidth, unsignedType, signedType]
  have hft : floatType img.dtype hi = img.dtype := by revert hint; cases img.dtype <;> simp [DType.isInteger, floatType]
  unfold normalizeRounded normalizeData
  simp only [sub_zero, hq, hint, if_true, Bool.true_or, not_true, if_false, halfOverflow_of_ne hn16, Bool.or_self, hft, hq, Bool.false_eq_true]
  split
  · rfl
  congr 1
  simp only [bind, Except.bind]
  cases arrMin img.arr with
  | error e => rfl
  | ok mn =>
    cases arrMax img.arr with
    | error e => rfl
    | ok mx =>
      simp only [rescaleRounded, rescale, storeRounded, store, Option.bind, sub_zero, ht]
      by_cases hd : ((wrapInt img.dtype ⌊mx - mn⌋ : ℤ) : Rat) = 0
      · simp only [if_pos hd, nanOutput, castOutput_supported hi hsup]
      · simp only [if_neg hd, Int.cast_zero, add_zero]
        have hden : wrapInt img.dtype ⌊mx - mn⌋ ≠ 0 := by exact_mod_cast hd
        have hnum : ∀ x : ℤ, |wrapInt t x| < 2 ^ 53 := by
          intro x
          calc |wrapInt t x| ≤ 2 ^ t.bits := wrapInt_abs t x
            _ ≤ 2 ^ 32 := pow_le_pow_right₀ (by norm_num) htb
            _ < 2 ^ 53 := by norm_num
        unfold castRounded
        rw [castOutput_supported hi hsup, castOutput_supported hi hsup]
        have hne : outType hi ≠ .f32 := by rcases hhi with e | e <;> subst e <;> decide
        simp only [if_neg hne]
        congr 2
        simp only [NDArray.map]
        congr 1
        funext idx
        rw [fl_fl (by norm_num)]
        rcases hhi with e | e <;> subst e
        · simp only [outCast, if_true]
          exact castUnsigned_fl (by norm_num) 8 _ _ hden (hnum _)
        · simp only [outCast]
          rw [if_neg (by norm_num), if_pos trivial, if_neg (by norm_num), if_pos trivial]
          exact castUnsigned_fl (by norm_num) 16 _ _ hden (hnum _)

/-- A 16 bit image. -/
example : normalizeRounded false (twoPixels .u16 (200 : Int)) (0, 65535) none true
    = normalizeData false (twoPixels .u16 (200 : Int)) (0, 65535) none true :=
  C136_integers false _ 65535 none rfl (by decide) (Or.inr rfl)

/-- The bound is needed: with enough bits a quotient just below an integer is rounded up to it. -/
example : ⌊fl 53 (((2 ^ 60 - 1 : ℤ) : Rat) / (2 ^ 52 : ℤ))⌋ = 256 ∧ ⌊((2 ^ 60 - 1 : ℤ) : Rat) / (2 ^ 52 : ℤ)⌋ = 255 := by
  decide +kernel

/-- The image with the pixels 2, 3 and 6 can be normalized. -/
theorem exampleImg_rounded (hi : Int) (h : hi = 1 ∨ hi = 255) :
    ∃ res, (normalizeRounded false exampleImg (0, hi) none true).val = .ok res := by
  have key : (normalizeRounded false exampleImg (0, hi) none true).val.toBool = true := by
    rcases h with rfl | rfl <;> decide +kernel
  cases hv : (normalizeRounded false exampleImg (0, hi) none true).val with
  | error e => rw [hv] at key; cases key
  | ok res => exact ⟨res, rfl⟩

example : ∃ res, (normalizeRounded false exampleImg (0, 255) none true).val = .ok res ∧ res.arr.get [0, 0] = 0 ∧
    res.arr.get [0, 1] ≤ res.arr.get [0, 2] := by
  obtain ⟨res, h⟩ := exampleImg_rounded 255 (Or.inr rfl)
  have := C135_range_and_order false exampleImg 255 none 2 6 res exampleImg_range (by norm_num) rfl (Or.inr (Or.inl rfl)) h
  exact ⟨res, h, this.2.2.1 [0, 0] (by decide) rfl, this.2.2.2 [0, 1] [0, 2] (by decide) (by decide) (by decide +kernel)⟩

/-- The pixel 3 becomes 63.75 in exact arithmetic. -/
example : ∃ res, (normalizeRounded false exampleImg (0, 255) none true).val = .ok res ∧ |res.arr.get [0, 1] - 63| ≤ 1 := by
  obtain ⟨res, h⟩ := exampleImg_rounded 255 (Or.inr rfl)
  have := C135_near false exampleImg 255 none 2 6 res exampleImg_range (by norm_num) rfl (Or.inr (Or.inl rfl)) h [0, 1] (by decide)
  refine ⟨res, h, ?_⟩
  rw [if_neg (by decide), show quantize 255 (linearTo 255 2 6 (exampleImg.arr.get [0, 1])) = 63 by decide +kernel] at this
  exact this

example : ∃ res, (normalizeRounded false exampleImg (0, 1) none true).val = .ok res ∧ res.arr.get [0, 2] = 1 := by
  obtain ⟨res, h⟩ := exampleImg_rounded 1 (Or.inl rfl)
  exact ⟨res, h, C135_bright_unit false exampleImg none 2 6 res exampleImg_range (by norm_num) rfl h [0, 2] (by decide) rfl⟩

/-- The range is 1 · 2². -/
example : ∃ res, (normalizeRounded false exampleImg (0, 255) none true).val = .ok res ∧ res.arr.get [0, 2] = 255 := by
  obtain ⟨res, h⟩ := exampleImg_rounded 255 (Or.inr rfl)
  have := (C135_bright_partial false exampleImg 255 none 2 6 res exampleImg_range (by norm_num) rfl (Or.inr (Or.inl rfl)) h
    [0, 2] (by decide) rfl).2 1 2 (by norm_num) (by decide)
  exact ⟨res, h, by exact_mod_cast this⟩

example : ∃ res, (normalizeRounded false exampleImg (0, 1) none true).val = .ok res ∧
    ∀ res', (normalizeRounded false res (0, 1) none true).val = .ok res' → NDArray.Same res'.arr res.arr := by
  obtain ⟨res, h⟩ := exampleImg_rounded 1 (Or.inl rfl)
  exact ⟨res, h, fun res' h' => (C12_unit_rounded exampleImg none 2 6 false false res res' exampleImg_range (by norm_num)
    rfl h h').2⟩

end Viqa
