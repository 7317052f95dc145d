import Verif.Model.Gabor
import Verif.Props.Filters
import Verif.Props.Mad
import Mathlib.RingTheory.RootsOfUnity.Complex

/-!
C130 (the appearance index of MAD compares structure, not brightness), C131 (the bank of log-Gabor filters is
tuned as documented) and C132 (moving the image moves the filter responses).
-/

namespace Viqa

/-! ### The Fourier transform of a constant -/

theorem root_neg_pow {M : Nat} (hM : 0 < M) : Complex.exp (-(2 * Real.pi * Complex.I / M)) ^ M = 1 := by
  rw [← Complex.exp_nat_mul]
  have : (M : ℂ) ≠ 0 := by exact_mod_cast hM.ne'
  rw [show (M : ℂ) * -(2 * Real.pi * Complex.I / M) = -(2 * Real.pi * Complex.I) by field_simp]
  rw [Complex.exp_neg, Complex.exp_two_pi_mul_I, inv_one]

theorem root_neg_ne {M k : Nat} (hk : 0 < k) (hM : k < M) :
    Complex.exp (-(2 * Real.pi * Complex.I / M)) ^ k ≠ 1 := by
  have h := Complex.isPrimitiveRoot_exp M (by omega)
  have h' := h.inv
  rw [← Complex.exp_neg] at h'
  intro e
  have := Nat.le_of_dvd hk (h'.dvd_of_pow_eq_one k e)
  omega

theorem root_sum {M k : Nat} (hk : 0 < k) (hM : k < M) :
    ∑ p ∈ Finset.range M, Complex.exp (-(2 * Real.pi * Complex.I / M)) ^ (k * p) = 0 := by
  have h1 := root_neg_ne hk hM
  have h2 : (Complex.exp (-(2 * Real.pi * Complex.I / M)) ^ k) ^ M = 1 := by
    rw [← pow_mul, mul_comm k M, pow_mul, root_neg_pow (by omega), one_pow]
  have h3 := mul_geom_sum (Complex.exp (-(2 * Real.pi * Complex.I / M)) ^ k) M
  rw [h2, sub_self] at h3
  rcases mul_eq_zero.1 h3 with h | h
  · exact absurd (sub_eq_zero.1 h) h1
  · simpa only [pow_mul] using h

theorem dft2_add (M N : Nat) (x y : Nat → Nat → ℂ) (k l : Nat) :
    dft2 M N (fun p q => x p q + y p q) k l = dft2 M N x k l + dft2 M N y k l := by
  unfold dft2
  simp only [add_mul, Finset.sum_add_distrib]

theorem dft2_const {M N k l : Nat} (hk : k < M) (hl : l < N) (h : ¬ (k = 0 ∧ l = 0)) (c : ℂ) :
    dft2 M N (fun _ _ => c) k l = 0 := by
  unfold dft2
  have : ∀ p q, c * (Complex.exp (-(2 * Real.pi * Complex.I / M)) ^ (k * p) *
      Complex.exp (-(2 * Real.pi * Complex.I / N)) ^ (l * q)) =
      (c * Complex.exp (-(2 * Real.pi * Complex.I / M)) ^ (k * p)) *
        Complex.exp (-(2 * Real.pi * Complex.I / N)) ^ (l * q) := fun p q => by ring
  simp only [this, ← Finset.mul_sum, ← Finset.sum_mul]
  rcases Nat.eq_zero_or_pos k with hk0 | hk0
  · have hl0 : 0 < l := by omega
    rw [root_sum hl0 hl, mul_zero]
  · rw [root_sum hk0 hk, mul_zero, zero_mul]

theorem idft2_congr {M N : Nat} {X Y : Nat → Nat → ℂ} (h : ∀ k l, k < M → l < N → X k l = Y k l) :
    idft2 M N X = idft2 M N Y := by
  funext p q
  unfold idft2
  congr 1
  refine Finset.sum_congr rfl (fun k hk => Finset.sum_congr rfl (fun l hl => ?_))
  rw [h k l (Finset.mem_range.1 hk) (Finset.mem_range.1 hl)]

/-! ### C130: brightness -/

/-- Adding a constant to the image changes no filter response. -/
theorem C130_band (M N : Nat) (a : GaborArgs) (s o : Nat) (img : Nat → Nat → ℝ) (c : ℝ) :
    gaborBand M N a s o (fun p q => img p q + c) = gaborBand M N a s o img := by
  unfold gaborBand
  refine idft2_congr (fun k l hk hl => ?_)
  by_cases h : k = 0 ∧ l = 0
  · obtain ⟨rfl, rfl⟩ := h
    have : gaborGain M N a s o 0 0 = 0 := by simp [gaborGain, gaborFilter]
    rw [this]; simp
  · congr 1
    have := dft2_add M N (fun p q => (img p q : ℂ)) (fun _ _ => (c : ℂ)) k l
    rw [dft2_const hk hl h, add_zero] at this
    rw [← this]
    congr 1
    funext p q
    push_cast
    rfl

example : gaborBand 8 8 (madGabor 5 4) 1 2 (fun p q => (p : ℝ) * q + 100) = gaborBand 8 8 (madGabor 5 4) 1 2 (fun p q => (p : ℝ) * q) :=
  C130_band _ _ _ _ _ _ _

/-- The appearance index does not change when the brightness of one or both images is changed. -/
theorem C130_brightness (M N bs scales orientations : Nat) (weights : List ℝ)
    (stat : (Nat → Nat → ℝ) → Nat → Nat → ℝ × ℝ × ℝ) (r m : Nat → Nat → ℝ) (c d : ℝ) :
    lowQuality M N bs scales orientations weights stat (fun p q => r p q + c) (fun p q => m p q + d) =
      lowQuality M N bs scales orientations weights stat r m := by
  unfold lowQuality madBands
  simp only [C130_band]

/-- The appearance index of an image and a brightened copy is zero. -/
theorem C130_brightened (M N bs scales orientations : Nat) (weights : List ℝ)
    (stat : (Nat → Nat → ℝ) → Nat → Nat → ℝ × ℝ × ℝ) (r : Nat → Nat → ℝ) (c : ℝ)
    (hM : 2 * bs < M) (hN : 2 * bs < N) (hw : weights.length = scales) (h0 : weights.sum ≠ 0) (ho : orientations ≠ 0) :
    lowQuality M N bs scales orientations weights stat r (fun p q => r p q + c) = .ok 0 := by
  have e := C130_brightness M N bs scales orientations weights stat r r 0 c
  simp only [add_zero] at e
  rw [e]
  unfold lowQuality madWeights
  rw [if_neg (fun h => ho h.2), if_neg (by simpa using hw), if_neg (fun h => h0 h.2)]
  unfold appearIndex
  simp only
  rw [innerRms_zero (fun u v => ?_) hM hN]
  apply List.sum_eq_zero
  intro y hy
  simp only [madBands, List.mem_map, List.mem_flatMap] at hy
  obtain ⟨b, ⟨s, _, o, _, rfl⟩, rfl⟩ := hy
  simp

example (stat : (Nat → Nat → ℝ) → Nat → Nat → ℝ × ℝ × ℝ) :
    lowQuality 64 64 16 5 4 [0.5, 0.75, 1, 5, 6] stat (fun p q => (p : ℝ) * q) (fun p q => (p : ℝ) * q + 20) = .ok 0 :=
  C130_brightened _ _ _ _ _ _ _ _ _ (by decide) (by decide) (by simp) (by norm_num) (by decide)

/-- The appearance index is symmetric. -/
theorem C130_symmetric (M N bs scales orientations : Nat) (weights : List ℝ)
    (stat : (Nat → Nat → ℝ) → Nat → Nat → ℝ × ℝ × ℝ) (r m : Nat → Nat → ℝ) :
    lowQuality M N bs scales orientations weights stat r m =
      lowQuality M N bs scales orientations weights stat m r := by
  unfold lowQuality
  split
  · rfl
  cases madWeights scales weights with
  | error e => rfl
  | ok w =>
    unfold appearIndex
    simp only
    congr 1
    funext u v
    unfold madBands
    rw [List.map_flatMap, List.map_flatMap]
    refine congrArg List.sum (List.flatMap_congr (fun s _ => ?_))
    rw [List.map_map, List.map_map]
    refine List.map_congr_left (fun o _ => ?_)
    simp only [Function.comp_apply]
    rw [abs_sub_comm, abs_sub_comm (stat _ u v).2.1, abs_sub_comm (stat _ u v).2.2]

example (stat : (Nat → Nat → ℝ) → Nat → Nat → ℝ × ℝ × ℝ) :
    lowQuality 64 64 16 5 4 [0.5, 0.75, 1, 5, 6] stat (fun p q => (p : ℝ) * q) (fun p _ => p) =
      lowQuality 64 64 16 5 4 [0.5, 0.75, 1, 5, 6] stat (fun p _ => p) (fun p q => (p : ℝ) * q) := C130_symmetric _ _ _ _ _ _ _ _ _

/-- Only the proportions of the weights matter. -/
theorem C130_weights (M N bs scales orientations : Nat) (weights : List ℝ)
    (stat : (Nat → Nat → ℝ) → Nat → Nat → ℝ × ℝ × ℝ) (r m : Nat → Nat → ℝ) (t : ℝ) (ht : t ≠ 0) :
    lowQuality M N bs scales orientations (weights.map (t * ·)) stat r m =
      lowQuality M N bs scales orientations weights stat r m := by
  have hs : (weights.map (t * ·)).sum = t * weights.sum := by
    rw [List.sum_map_mul_left]; simp
  have : madWeights scales (weights.map (t * ·)) = madWeights scales weights := by
    unfold madWeights
    rw [hs, List.length_map]
    by_cases h : weights.length ≠ scales
    · rw [if_pos h, if_pos h]
    · rw [if_neg h, if_neg h]
      by_cases hnil : weights = []
      · subst hnil; simp
      by_cases h0 : weights.sum = 0
      · rw [if_pos ⟨by simpa using hnil, by rw [h0, mul_zero]⟩, if_pos ⟨hnil, h0⟩]
      · rw [if_neg (fun h => mul_ne_zero ht h0 h.2), if_neg (fun h => h0 h.2), List.map_map]
        congr 2
        funext x
        simp only [Function.comp_apply]
        rw [mul_div_mul_left _ _ ht]
  unfold lowQuality
  rw [this, List.length_map]

example (stat : (Nat → Nat → ℝ) → Nat → Nat → ℝ × ℝ × ℝ) :
    lowQuality 64 64 16 2 4 [1, 3] stat (fun p q => (p : ℝ) * q) (fun p _ => p) =
      lowQuality 64 64 16 2 4 [0.25, 0.75] stat (fun p q => (p : ℝ) * q) (fun p _ => p) := by
  rw [← C130_weights 64 64 16 2 4 [0.25, 0.75] stat _ _ 4 (by norm_num)]
  norm_num

/-- A number of weights that differs from the number of scales is refused; in particular another number of
scales with the default weights. -/
theorem C130_refused (M N bs scales orientations : Nat) (weights : List ℝ)
    (stat : (Nat → Nat → ℝ) → Nat → Nat → ℝ × ℝ × ℝ) (r m : Nat → Nat → ℝ) (h : weights.length ≠ scales) :
    lowQuality M N bs scales orientations weights stat r m =
      .error (.valueError "weights must be of length scales_num") := by
  unfold lowQuality madWeights
  rw [if_neg (fun h' => h h'.1), if_pos h]

/-- The filters do see structure: the response to a single bright pixel is the mean of the gains. -/
theorem C130_pixel {M N : Nat} (hM : 0 < M) (hN : 0 < N) (a : GaborArgs) (s o : Nat) (c : ℝ) :
    gaborBand M N a s o (fun p q => if p = 0 ∧ q = 0 then c else 0) 0 0 =
      (c * (∑ k ∈ Finset.range M, ∑ l ∈ Finset.range N, gaborGain M N a s o k l) / (M * N) : ℝ) := by
  have hd : ∀ k l, dft2 M N (fun p q => (((if p = 0 ∧ q = 0 then c else 0 : ℝ)) : ℂ)) k l = c := by
    intro k l
    unfold dft2
    rw [Finset.sum_eq_single 0, Finset.sum_eq_single 0]
    · simp
    · intro q _ hq; simp [hq]
    · intro h; exact absurd (Finset.mem_range.2 hN) h
    · intro p _ hp
      apply Finset.sum_eq_zero
      intro q _; simp [hp]
    · intro h; exact absurd (Finset.mem_range.2 hM) h
  unfold gaborBand idft2
  simp only [hd, mul_zero, pow_zero, mul_one, ← Finset.mul_sum]
  push_cast
  rfl

/-- Brightening and a bright pixel, for one scale and orientation. -/
example (stat : (Nat → Nat → ℝ) → Nat → Nat → ℝ × ℝ × ℝ) (r m : Nat → Nat → ℝ) :
    lowQuality 64 64 16 5 4 [0.5, 0.75, 1, 5, 6] stat r (fun p q => m p q + 10) =
      lowQuality 64 64 16 5 4 [0.5, 0.75, 1, 5, 6] stat r m := by
  have := C130_brightness 64 64 16 5 4 [0.5, 0.75, 1, 5, 6] stat r m 0 10
  simpa using this

/-- Four scales with the default weights. -/
example (stat : (Nat → Nat → ℝ) → Nat → Nat → ℝ × ℝ × ℝ) (r m : Nat → Nat → ℝ) :
    lowQuality 64 64 16 4 4 [0.5, 0.75, 1, 5, 6] stat r m = .error (.valueError "weights must be of length scales_num") :=
  C130_refused _ _ _ _ _ _ _ _ _ (by decide)

/-! ### C131: tuning -/

theorem gaborRadial_le (a : GaborArgs) (s : Nat) (y x : ℝ) : gaborRadial a s y x ≤ 1 := by
  unfold gaborRadial
  rw [Real.exp_le_one_iff]
  exact div_nonpos_of_nonneg_of_nonpos (sq_nonneg _) (by nlinarith [sq_nonneg (Real.log a.bandwidth)])

theorem gaborSpread_le (a : GaborArgs) (o : Nat) (y x : ℝ) : gaborSpread a o y x ≤ 1 := by
  unfold gaborSpread
  rw [Real.exp_le_one_iff]
  exact div_nonpos_of_nonpos_of_nonneg (by nlinarith [sq_nonneg (gaborDistance a o y x)])
    (by positivity)

theorem gaborRadius_pos (y x : ℝ) : 0 < gaborRadius y x := by
  unfold gaborRadius
  split
  · exact one_pos
  · rename_i h
    exact lt_of_le_of_ne (Real.sqrt_nonneg _) (Ne.symm h)

/-- No filter amplifies a frequency, and none inverts one. -/
theorem C131_gain (M N : Nat) (a : GaborArgs) (s o k l : Nat) :
    0 ≤ gaborGain M N a s o k l ∧ gaborGain M N a s o k l ≤ 1 := by
  unfold gaborGain gaborFilter
  simp only
  split
  · exact ⟨le_refl _, zero_le_one⟩
  · split
    · exact ⟨le_refl _, zero_le_one⟩
    · exact ⟨mul_nonneg (Real.exp_pos _).le (Real.exp_pos _).le,
        mul_le_one₀ (gaborRadial_le ..) (Real.exp_pos _).le (gaborSpread_le ..)⟩

example : gaborGain 7 6 (madGabor 5 4) 0 1 2 3 ≤ 1 := (C131_gain _ _ _ _ _ _ _).2

theorem gaborRadial_one (a : GaborArgs) (s : Nat) (y x : ℝ) (hw : 0 < a.minWavelength) (hs : 0 < a.scaling)
    (hb : 0 < a.bandwidth) (hb1 : a.bandwidth ≠ 1) :
    gaborRadial a s y x = 1 ↔ gaborRadius y x / 2 * (a.minWavelength * a.scaling ^ s) = 1 := by
  have hl : Real.log a.bandwidth ≠ 0 := Real.log_ne_zero_of_pos_of_ne_one hb hb1
  have hW : 0 < gaborWavelength a s := mul_pos hw (pow_pos hs s)
  have hr := gaborRadius_pos y x
  unfold gaborRadial
  rw [Real.exp_eq_one_iff, div_eq_zero_iff, or_iff_left (by simpa using hl), sq_eq_zero_iff, sub_eq_zero]
  constructor
  · intro h
    have := Real.log_injOn_pos (Set.mem_Ioi.2 hr) (Set.mem_Ioi.2 (by positivity)) h
    rw [this]
    change _ * gaborWavelength a s = 1
    field_simp
  · intro h
    have h' : gaborRadius y x / 2 * gaborWavelength a s = 1 := h
    congr 1
    field_simp at h' ⊢
    linarith

theorem arctan2_eq_zero (y x : ℝ) : arctan2 y x = 0 ↔ 0 ≤ x ∧ y = 0 := by
  unfold arctan2
  rw [Complex.arg_eq_zero_iff]

theorem gaborSpread_one (a : GaborArgs) (o : Nat) (y x : ℝ) (ho : 0 < a.orientations) (ht : a.thetaOnSigma ≠ 0) :
    gaborSpread a o y x = 1 ↔
      Real.cos (arctan2 (-y) x) = Real.cos (o * Real.pi / a.orientations) ∧
        Real.sin (arctan2 (-y) x) = Real.sin (o * Real.pi / a.orientations) := by
  have h1 : (a.orientations : ℝ) ≠ 0 := by exact_mod_cast ho.ne'
  have h2 : (2 * (Real.pi / a.orientations / a.thetaOnSigma) ^ 2 : ℝ) ≠ 0 := by
    have := Real.pi_ne_zero
    positivity
  unfold gaborSpread
  rw [Real.exp_eq_one_iff, div_eq_zero_iff, or_iff_left h2, neg_eq_zero, sq_eq_zero_iff]
  unfold gaborDistance
  simp only
  rw [abs_eq_zero, arctan2_eq_zero]
  generalize arctan2 (-y) x = t
  generalize (o : ℝ) * Real.pi / a.orientations = u
  have e1 := Real.sin_sq_add_cos_sq t
  have e2 := Real.sin_sq_add_cos_sq u
  constructor
  · rintro ⟨hc, hs⟩
    have hc1 : Real.cos t * Real.cos u + Real.sin t * Real.sin u = 1 := by
      have : (Real.cos t * Real.cos u + Real.sin t * Real.sin u) ^ 2 = 1 := by
        have h3 : (Real.cos t * Real.cos u + Real.sin t * Real.sin u) ^ 2 +
            (Real.sin t * Real.cos u - Real.cos t * Real.sin u) ^ 2 = 1 := by
          have : (Real.sin t ^ 2 + Real.cos t ^ 2) * (Real.sin u ^ 2 + Real.cos u ^ 2) = 1 := by rw [e1, e2, one_mul]
          linarith [this]
        rw [hs] at h3
        linarith
      nlinarith
    constructor
    · nlinarith [sq_nonneg (Real.cos t - Real.cos u), sq_nonneg (Real.sin t - Real.sin u)]
    · nlinarith [sq_nonneg (Real.cos t - Real.cos u), sq_nonneg (Real.sin t - Real.sin u)]
  · rintro ⟨hc, hs⟩
    rw [hc, hs]
    refine ⟨by nlinarith, by ring⟩

/-- Even sizes: a filter passes a frequency unchanged exactly when the frequency, in cycles per pixel, has the
wavelength of the scale and the direction of the orientation (counted from the horizontal axis, upwards). The
full claim is the same for every size. -/
theorem C131_tuned_partial {M N k l : Nat} (a : GaborArgs) (s o : Nat) (hM : M % 2 = 0) (hN : N % 2 = 0)
    (hk : k < M) (hl : l < N) (hw : 0 < a.minWavelength) (hs : 0 < a.scaling)
    (hb : 0 < a.bandwidth) (hb1 : a.bandwidth ≠ 1) (ho : 0 < a.orientations) (ht : a.thetaOnSigma ≠ 0) :
    gaborGain M N a s o k l = 1 ↔
      (trueFreq N l : ℝ) / N = Real.cos (o * Real.pi / a.orientations) / (a.minWavelength * a.scaling ^ s) ∧
        -((trueFreq M k : ℝ) / M) = Real.sin (o * Real.pi / a.orientations) / (a.minWavelength * a.scaling ^ s) := by
  have hM0 : (M : ℝ) ≠ 0 := by
    have : M ≠ 0 := by omega
    exact_mod_cast this
  have hN0 : (N : ℝ) ≠ 0 := by
    have : N ≠ 0 := by omega
    exact_mod_cast this
  have hW : 0 < a.minWavelength * a.scaling ^ s := mul_pos hw (pow_pos hs s)
  generalize hα : (o : ℝ) * Real.pi / a.orientations = α
  by_cases h : k = 0 ∧ l = 0
  · obtain ⟨rfl, rfl⟩ := h
    unfold gaborGain
    rw [C49_zero_gain]
    have : ∀ n : Nat, 0 < n → trueFreq n 0 = 0 := fun n hn => by simp [trueFreq, hn]
    rw [this M hk, this N hl]
    simp only [Int.cast_zero, zero_div, neg_zero]
    constructor
    · intro h; exact absurd h.symm one_ne_zero
    · rintro ⟨h1, h2⟩
      have h1 := (div_eq_zero_iff.1 h1.symm).resolve_right hW.ne'
      have h2 := (div_eq_zero_iff.1 h2.symm).resolve_right hW.ne'
      have := Real.sin_sq_add_cos_sq α
      rw [h1, h2] at this
      norm_num at this
  · unfold gaborGain
    rw [C49_even_partial _ hM hN hk hl h]
    have hy : ((((trueFreq M k : Rat) / ((M : Rat) / 2) : Rat)) : ℝ) = 2 * ((trueFreq M k : ℝ) / M) := by
      push_cast
      field_simp
    have hx : ((((trueFreq N l : Rat) / ((N : Rat) / 2) : Rat)) : ℝ) = 2 * ((trueFreq N l : ℝ) / N) := by
      push_cast
      field_simp
    rw [hy, hx]
    have hne : ¬ ((trueFreq M k : ℝ) / M = 0 ∧ (trueFreq N l : ℝ) / N = 0) := by
      rintro ⟨h1, h2⟩
      have h1 := (div_eq_zero_iff.1 h1).resolve_right hM0
      have h2 := (div_eq_zero_iff.1 h2).resolve_right hN0
      have h1 : trueFreq M k = 0 := by exact_mod_cast h1
      have h2 : trueFreq N l = 0 := by exact_mod_cast h2
      apply h
      unfold trueFreq at h1 h2
      constructor
      · split at h1 <;> omega
      · split at h2 <;> omega
    generalize (trueFreq M k : ℝ) / M = f at *
    generalize (trueFreq N l : ℝ) / N = g at *
    have hsq : 0 < (2 * g) ^ 2 + (2 * f) ^ 2 := by
      rcases not_and_or.1 hne with h | h
      · have := sq_pos_of_ne_zero (mul_ne_zero two_ne_zero h)
        nlinarith [sq_nonneg (2 * g)]
      · have := sq_pos_of_ne_zero (mul_ne_zero two_ne_zero h)
        nlinarith [sq_nonneg (2 * f)]
    have hR : gaborRadius (2 * f) (2 * g) = Real.sqrt ((2 * g) ^ 2 + (2 * f) ^ 2) := by
      unfold gaborRadius
      rw [if_neg (Real.sqrt_pos.2 hsq).ne']
    have hprod : gaborRadial a s (2 * f) (2 * g) * gaborSpread a o (2 * f) (2 * g) = 1 ↔
        gaborRadial a s (2 * f) (2 * g) = 1 ∧ gaborSpread a o (2 * f) (2 * g) = 1 := by
      have p1 : 0 < gaborRadial a s (2 * f) (2 * g) := Real.exp_pos _
      have p2 : 0 < gaborSpread a o (2 * f) (2 * g) := Real.exp_pos _
      have q1 := gaborRadial_le a s (2 * f) (2 * g)
      have q2 := gaborSpread_le a o (2 * f) (2 * g)
      constructor
      · intro h
        constructor <;> nlinarith
      · rintro ⟨h1, h2⟩; rw [h1, h2, one_mul]
    rw [hprod, gaborRadial_one a s _ _ hw hs hb hb1, gaborSpread_one a o _ _ ho ht, hR, hα]
    set R := Real.sqrt ((2 * g) ^ 2 + (2 * f) ^ 2) with hRdef
    have hRpos : 0 < R := Real.sqrt_pos.2 hsq
    have hRsq : R ^ 2 = (2 * g) ^ 2 + (2 * f) ^ 2 := Real.sq_sqrt hsq.le
    have hnorm : ‖(⟨2 * g, -(2 * f)⟩ : ℂ)‖ = R := by
      rw [Complex.norm_def, Complex.normSq_mk, hRdef]
      congr 1
      ring
    have hc : R * Real.cos (arctan2 (-(2 * f)) (2 * g)) = 2 * g := by
      have := Complex.norm_mul_cos_arg (⟨2 * g, -(2 * f)⟩ : ℂ)
      rwa [hnorm] at this
    have hsn : R * Real.sin (arctan2 (-(2 * f)) (2 * g)) = -(2 * f) := by
      have := Complex.norm_mul_sin_arg (⟨2 * g, -(2 * f)⟩ : ℂ)
      rwa [hnorm] at this
    generalize a.minWavelength * a.scaling ^ s = W at *
    constructor
    · rintro ⟨hr, h1, h2⟩
      rw [h1] at hc
      rw [h2] at hsn
      constructor
      · rw [eq_div_iff hW.ne']
        linear_combination (Real.cos α) * hr - W / 2 * hc
      · rw [eq_div_iff hW.ne']
        linear_combination (Real.sin α) * hr - W / 2 * hsn
    · rintro ⟨h1, h2⟩
      rw [eq_div_iff hW.ne'] at h1 h2
      have hr : R / 2 * W = 1 := by
        have : (R / 2 * W) ^ 2 = 1 := by
          have := Real.sin_sq_add_cos_sq α
          rw [← h1, ← h2] at this
          nlinarith
        nlinarith [mul_pos hRpos hW]
      refine ⟨hr, ?_, ?_⟩
      · have : R ≠ 0 := hRpos.ne'
        apply mul_left_cancel₀ this
        rw [hc, ← h1]
        linear_combination -2 * g * hr
      · have : R ≠ 0 := hRpos.ne'
        apply mul_left_cancel₀ this
        rw [hsn, ← h2]
        linear_combination 2 * f * hr

/-- The smallest filter of `_low_quality` passes the frequency of two cycles in six pixels unchanged. -/
example : gaborGain 6 6 (madGabor 5 4) 0 0 0 2 = 1 := by
  rw [C131_tuned_partial (madGabor 5 4) 0 0 (by norm_num) (by norm_num) (by norm_num) (by norm_num)
    (by norm_num [madGabor]) (by norm_num [madGabor]) (by norm_num [madGabor]) (by norm_num [madGabor])
    (by norm_num [madGabor]) (by norm_num [madGabor])]
  norm_num [madGabor, trueFreq]

/-- The same frequency in the vertical direction is not passed unchanged. -/
example : gaborGain 6 6 (madGabor 5 4) 0 0 2 0 ≠ 1 := by
  rw [Ne, C131_tuned_partial (madGabor 5 4) 0 0 (by norm_num) (by norm_num) (by norm_num) (by norm_num)
    (by norm_num [madGabor]) (by norm_num [madGabor]) (by norm_num [madGabor]) (by norm_num [madGabor])
    (by norm_num [madGabor]) (by norm_num [madGabor])]
  norm_num [madGabor, trueFreq]

/-- Odd sizes: a frequency of exactly the wavelength and direction of a filter can be removed by it. -/
theorem C131_refuted : ¬ ∀ (M N k l : Nat) (a : GaborArgs) (s o : Nat), k < M → l < N → 3 ≤ a.minWavelength →
    0 < a.scaling → 0 < a.bandwidth → a.bandwidth ≠ 1 → 0 < a.orientations → a.thetaOnSigma ≠ 0 →
    (trueFreq N l : ℝ) / N = Real.cos (o * Real.pi / a.orientations) / (a.minWavelength * a.scaling ^ s) →
    -((trueFreq M k : ℝ) / M) = Real.sin (o * Real.pi / a.orientations) / (a.minWavelength * a.scaling ^ s) →
    gaborGain M N a s o k l = 1 := by
  intro h
  have hs2 : Real.sqrt 2 ^ 2 = 2 := Real.sq_sqrt (by norm_num)
  have hp : 0 < Real.sqrt 2 := Real.sqrt_pos.2 (by norm_num)
  have hang : ((3 : Nat) : ℝ) * Real.pi / ((4 : Nat) : ℝ) = Real.pi - Real.pi / 4 := by push_cast; ring
  have := h 5 5 4 4 ⟨5, 4, 5 / Real.sqrt 2, 3, 55 / 100, 3 / 2⟩ 0 3 (by norm_num) (by norm_num)
    (by rw [le_div_iff₀ hp]; nlinarith) (by norm_num) (by norm_num) (by norm_num) (by norm_num) (by norm_num)
    (by
      simp only [hang, Real.cos_pi_sub, Real.cos_pi_div_four]
      norm_num [trueFreq]
      field_simp
      linarith)
    (by
      simp only [hang, Real.sin_pi_sub, Real.sin_pi_div_four]
      norm_num [trueFreq]
      field_simp
      linarith)
  have h0 : gaborGain 5 5 ⟨5, 4, 5 / Real.sqrt 2, 3, 55 / 100, 3 / 2⟩ 0 3 4 4 = 0 := by
    simp [gaborGain, gaborFilter, fftshiftSource]
  rw [h0] at this
  exact zero_ne_one this

/-! ### C132: moving the image -/

theorem sum_shift {M : Nat} (hM : 0 < M) (a : Nat) (f : Nat → ℂ) :
    ∑ p ∈ Finset.range M, f ((p + a) % M) = ∑ p ∈ Finset.range M, f p := by
  refine Finset.sum_nbij' (fun p => (p + a) % M) (fun p => (p + (M - a % M)) % M) ?_ ?_ ?_ ?_ (fun _ _ => rfl)
  · intro p _; exact Finset.mem_range.2 (Nat.mod_lt _ hM)
  · intro p _; exact Finset.mem_range.2 (Nat.mod_lt _ hM)
  · intro p hp
    have hp := Finset.mem_range.1 hp
    have ha := Nat.mod_lt a hM
    simp only [Nat.mod_add_mod]
    rw [show p + a + (M - a % M) = p + (a - a % M) + M by have := Nat.mod_le a M; omega, Nat.add_mod_right]
    rw [Nat.add_mod, Nat.sub_mod_eq_zero_of_mod_eq (by simp), add_zero, Nat.mod_mod, Nat.mod_eq_of_lt hp]
  · intro p hp
    have hp := Finset.mem_range.1 hp
    have ha := Nat.mod_lt a hM
    simp only [Nat.mod_add_mod]
    rw [show p + (M - a % M) + a = p + (a - a % M) + M by have := Nat.mod_le a M; omega, Nat.add_mod_right]
    rw [Nat.add_mod, Nat.sub_mod_eq_zero_of_mod_eq (by simp), add_zero, Nat.mod_mod, Nat.mod_eq_of_lt hp]

theorem root_mod {w : ℂ} {M : Nat} (hw : w ^ M = 1) (k n : Nat) : w ^ (k * (n % M)) = w ^ (k * n) := by
  conv_rhs => rw [← Nat.div_add_mod n M, Nat.mul_add, pow_add]
  rw [show k * (M * (n / M)) = M * (k * (n / M)) by ring, pow_mul w M, hw, one_pow, one_mul]

theorem root_pow {M : Nat} (hM : 0 < M) : Complex.exp (2 * Real.pi * Complex.I / M) ^ M = 1 := by
  rw [← Complex.exp_nat_mul]
  have : (M : ℂ) ≠ 0 := by exact_mod_cast hM.ne'
  rw [show (M : ℂ) * (2 * Real.pi * Complex.I / M) = 2 * Real.pi * Complex.I by field_simp]
  exact Complex.exp_two_pi_mul_I

theorem dft2_shift {M N : Nat} (hM : 0 < M) (hN : 0 < N) (a b : Nat) (x : Nat → Nat → ℂ) (k l : Nat) :
    dft2 M N (fun p q => x ((p + a) % M) ((q + b) % N)) k l *
      (Complex.exp (-(2 * Real.pi * Complex.I / M)) ^ (k * a) * Complex.exp (-(2 * Real.pi * Complex.I / N)) ^ (l * b)) =
      dft2 M N x k l := by
  unfold dft2
  have h1 := root_neg_pow hM
  have h2 := root_neg_pow hN
  generalize Complex.exp (-(2 * Real.pi * Complex.I / M)) = w at *
  generalize Complex.exp (-(2 * Real.pi * Complex.I / N)) = v at *
  rw [Finset.sum_mul]
  refine Eq.trans ?_ (sum_shift hM a _)
  refine Finset.sum_congr rfl (fun p _ => ?_)
  rw [Finset.sum_mul]
  refine Eq.trans ?_ (sum_shift hN b _)
  refine Finset.sum_congr rfl (fun q _ => ?_)
  rw [root_mod h1, root_mod h2, Nat.mul_add, Nat.mul_add, pow_add, pow_add]
  ring

/-- Moving the image, with what leaves at one side entering at the other, moves every filter response. -/
theorem C132_shift {M N : Nat} (hM : 0 < M) (hN : 0 < N) (g : GaborArgs) (s o a b : Nat)
    (img : Nat → Nat → ℝ) (p q : Nat) :
    gaborBand M N g s o (fun p q => img ((p + a) % M) ((q + b) % N)) p q =
      gaborBand M N g s o img ((p + a) % M) ((q + b) % N) := by
  unfold gaborBand idft2
  congr 1
  refine Finset.sum_congr rfl (fun k _ => Finset.sum_congr rfl (fun l _ => ?_))
  rw [root_mod (root_pow hM), root_mod (root_pow hN)]
  simp only
  rw [← dft2_shift hM hN a b (fun p q => (img p q : ℂ)) k l]
  have e : ∀ n : Nat, Complex.exp (-(2 * Real.pi * Complex.I / n)) = (Complex.exp (2 * Real.pi * Complex.I / n))⁻¹ :=
    fun n => Complex.exp_neg _
  rw [e M, e N]
  have n1 : Complex.exp (2 * Real.pi * Complex.I / M) ≠ 0 := Complex.exp_ne_zero _
  have n2 : Complex.exp (2 * Real.pi * Complex.I / N) ≠ 0 := Complex.exp_ne_zero _
  generalize Complex.exp (2 * Real.pi * Complex.I / M) = w at *
  generalize Complex.exp (2 * Real.pi * Complex.I / N) = v at *
  rw [Nat.mul_add, Nat.mul_add, pow_add, pow_add, inv_pow, inv_pow]
  field_simp

/-- A shift by one row and two columns of an image of four by four pixels. -/
example (img : Nat → Nat → ℝ) : gaborBand 4 4 (madGabor 5 4) 1 2 (fun p q => img ((p + 1) % 4) ((q + 2) % 4)) 3 3 =
    gaborBand 4 4 (madGabor 5 4) 1 2 img 0 1 :=
  C132_shift (by norm_num) (by norm_num) _ _ _ 1 2 img 3 3

end Viqa
