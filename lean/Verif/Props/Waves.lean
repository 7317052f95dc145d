import Verif.Props.MadFull

/-!
Responses to waves: C131 (a log-Gabor filter multiplies the two complex parts of a wave by its gains at the two
frequencies), C120 (the contrast sensitivity filter multiplies a wave by the mean of the weights of its two
frequencies) and C130 (the appearance index of different structures is not zero).
-/

namespace Viqa

/-- The complex wave with `k0` periods along the rows and `l0` along the columns. -/
noncomputable def complexWave (M N k0 l0 p q : Nat) : ℂ :=
  Complex.exp (2 * Real.pi * Complex.I / M) ^ (k0 * p) * Complex.exp (2 * Real.pi * Complex.I / N) ^ (l0 * q)

/-- The wave as an image. -/
noncomputable def Spec.wave (M N k0 l0 p q : Nat) : ℝ :=
  Real.cos (2 * Real.pi * ((k0 : ℝ) * p / M + (l0 : ℝ) * q / N))

theorem root_sum_two {M k k0 : Nat} (hk : k < M) (hk0 : k0 < M) :
    ∑ p ∈ Finset.range M, Complex.exp (2 * Real.pi * Complex.I / M) ^ (k0 * p) *
      Complex.exp (-(2 * Real.pi * Complex.I / M)) ^ (k * p) = if k = k0 then (M : ℂ) else 0 := by
  have h := Complex.isPrimitiveRoot_exp M (by omega)
  rw [Complex.exp_neg]
  generalize Complex.exp (2 * Real.pi * Complex.I / M) = w at *
  have hterm : ∀ p, w ^ (k0 * p) * w⁻¹ ^ (k * p) = (w ^ (k0 + (M - k))) ^ p := by
    intro p
    rw [inv_pow, ← pow_mul, Nat.add_mul, pow_add]
    congr 1
    refine inv_eq_of_mul_eq_one_left ?_
    rw [← pow_add, ← Nat.add_mul, show M - k + k = M by omega, pow_mul, h.pow_eq_one, one_pow]
  simp only [hterm]
  split
  · rename_i e
    subst e
    rw [show k + (M - k) = M by omega, h.pow_eq_one]
    simp
  · rename_i e
    have h1 : w ^ (k0 + (M - k)) ≠ 1 := by
      intro e1
      obtain ⟨c, hc⟩ := h.dvd_of_pow_eq_one _ e1
      have : c = 1 := by
        have : 0 < c := by
          rcases Nat.eq_zero_or_pos c with rfl | h
          · simp at hc; omega
          · exact h
        have : c < 2 := by
          by_contra h2
          have : M * 2 ≤ M * c := Nat.mul_le_mul_left M (by omega)
          omega
        omega
      subst this
      omega
    have h2 : (w ^ (k0 + (M - k))) ^ M = 1 := by rw [← pow_mul, Nat.mul_comm, pow_mul, h.pow_eq_one, one_pow]
    have h3 := mul_geom_sum (w ^ (k0 + (M - k))) M
    rw [h2, sub_self] at h3
    exact (mul_eq_zero.1 h3).resolve_left (sub_ne_zero.2 h1)

theorem dft2_wave {M N k l k0 l0 : Nat} (hk : k < M) (hl : l < N) (hk0 : k0 < M) (hl0 : l0 < N) :
    dft2 M N (complexWave M N k0 l0) k l = if k = k0 ∧ l = l0 then (M : ℂ) * N else 0 := by
  unfold dft2 complexWave
  have : ∀ p q : Nat, Complex.exp (2 * Real.pi * Complex.I / M) ^ (k0 * p) *
      Complex.exp (2 * Real.pi * Complex.I / N) ^ (l0 * q) *
        (Complex.exp (-(2 * Real.pi * Complex.I / M)) ^ (k * p) * Complex.exp (-(2 * Real.pi * Complex.I / N)) ^ (l * q)) =
      (Complex.exp (2 * Real.pi * Complex.I / M) ^ (k0 * p) * Complex.exp (-(2 * Real.pi * Complex.I / M)) ^ (k * p)) *
        (Complex.exp (2 * Real.pi * Complex.I / N) ^ (l0 * q) * Complex.exp (-(2 * Real.pi * Complex.I / N)) ^ (l * q)) :=
    fun p q => by ring
  simp only [this, ← Finset.mul_sum, ← Finset.sum_mul, root_sum_two hk hk0, root_sum_two hl hl0]
  by_cases h1 : k = k0 <;> by_cases h2 : l = l0 <;> simp [h1, h2]

/-- A filter in the frequency domain multiplies a complex wave by its value at the frequency of the wave. -/
theorem filter_wave {M N k0 l0 : Nat} (hk0 : k0 < M) (hl0 : l0 < N) (F : Nat → Nat → ℂ) (p q : Nat) :
    idft2 M N (fun k l => dft2 M N (complexWave M N k0 l0) k l * F k l) p q = F k0 l0 * complexWave M N k0 l0 p q := by
  have hM : (M : ℂ) ≠ 0 := by
    have : M ≠ 0 := by omega
    exact_mod_cast this
  have hN : (N : ℂ) ≠ 0 := by
    have : N ≠ 0 := by omega
    exact_mod_cast this
  rw [idft2_congr (Y := fun k l => (if k = k0 ∧ l = l0 then (M : ℂ) * N else 0) * F k l)
    (fun k l hk hl => by rw [dft2_wave hk hl hk0 hl0])]
  unfold idft2
  simp only
  rw [Finset.sum_eq_single k0, Finset.sum_eq_single l0]
  · unfold complexWave
    rw [if_pos ⟨rfl, rfl⟩]
    field_simp
  · intro l _ hl; rw [if_neg (fun h => hl h.2), zero_mul, zero_mul]
  · intro h; exact absurd (Finset.mem_range.2 hl0) h
  · intro k _ hk
    apply Finset.sum_eq_zero
    intro l _; rw [if_neg (fun h => hk h.1), zero_mul, zero_mul]
  · intro h; exact absurd (Finset.mem_range.2 hk0) h

/-- The index of the opposite frequency. -/
def Spec.opposite (M k : Nat) : Nat := (M - k) % M

theorem complexWave_exp {M N : Nat} (k0 l0 p q : Nat) :
    complexWave M N k0 l0 p q = Complex.exp ((2 * Real.pi * ((k0 : ℝ) * p / M + (l0 : ℝ) * q / N) : ℝ) * Complex.I) := by
  unfold complexWave
  rw [← Complex.exp_nat_mul, ← Complex.exp_nat_mul, ← Complex.exp_add]
  congr 1
  push_cast
  ring

theorem root_opposite {M : Nat} (hM : 0 < M) (k p : Nat) (hk : k < M) :
    Complex.exp (2 * Real.pi * Complex.I / M) ^ (Spec.opposite M k * p) =
      (Complex.exp (2 * Real.pi * Complex.I / M) ^ (k * p))⁻¹ := by
  unfold Spec.opposite
  rw [Nat.mul_comm, root_mod (root_pow hM), Nat.mul_comm p]
  refine eq_inv_of_mul_eq_one_left ?_
  rw [← pow_add, ← Nat.add_mul, show M - k + k = M by omega, pow_mul, root_pow hM, one_pow]

theorem wave_eq {M N : Nat} (k0 l0 p q : Nat) (hk : k0 < M) (hl : l0 < N) :
    ((Spec.wave M N k0 l0 p q : ℝ) : ℂ) =
      1 / 2 * complexWave M N k0 l0 p q + 1 / 2 * complexWave M N (Spec.opposite M k0) (Spec.opposite N l0) p q := by
  have e : complexWave M N (Spec.opposite M k0) (Spec.opposite N l0) p q = (complexWave M N k0 l0 p q)⁻¹ := by
    unfold complexWave
    rw [root_opposite (by omega) _ _ hk, root_opposite (by omega) _ _ hl, mul_inv]
  rw [e, complexWave_exp, ← Complex.exp_neg]
  unfold Spec.wave
  rw [Complex.ofReal_cos, Complex.cos]
  rw [neg_mul]
  ring

theorem dft2_smul (M N : Nat) (c : ℂ) (x : Nat → Nat → ℂ) (k l : Nat) :
    dft2 M N (fun p q => c * x p q) k l = c * dft2 M N x k l := by
  unfold dft2
  rw [Finset.mul_sum]
  refine Finset.sum_congr rfl (fun p _ => ?_)
  rw [Finset.mul_sum]
  refine Finset.sum_congr rfl (fun q _ => ?_)
  ring

theorem idft2_add (M N : Nat) (X Y : Nat → Nat → ℂ) (p q : Nat) :
    idft2 M N (fun k l => X k l + Y k l) p q = idft2 M N X p q + idft2 M N Y p q := by
  unfold idft2
  simp only [add_mul, Finset.sum_add_distrib, add_div]

theorem idft2_smul (M N : Nat) (c : ℂ) (X : Nat → Nat → ℂ) (p q : Nat) :
    idft2 M N (fun k l => c * X k l) p q = c * idft2 M N X p q := by
  unfold idft2
  rw [← mul_div_assoc, Finset.mul_sum]
  congr 1
  refine Finset.sum_congr rfl (fun p _ => ?_)
  rw [Finset.mul_sum]
  refine Finset.sum_congr rfl (fun q _ => ?_)
  ring

theorem opposite_lt {M : Nat} (hM : 0 < M) (k : Nat) : Spec.opposite M k < M := Nat.mod_lt _ hM

/-- A filter in the frequency domain applied to a wave. -/
theorem filter_real_wave {M N k0 l0 : Nat} (hk0 : k0 < M) (hl0 : l0 < N) (F : Nat → Nat → ℂ) (p q : Nat) :
    idft2 M N (fun k l => dft2 M N (fun p q => (Spec.wave M N k0 l0 p q : ℂ)) k l * F k l) p q =
      1 / 2 * (F k0 l0 * complexWave M N k0 l0 p q) + 1 / 2 * (F (Spec.opposite M k0) (Spec.opposite N l0) *
        complexWave M N (Spec.opposite M k0) (Spec.opposite N l0) p q) := by
  have hf : (fun p q => ((Spec.wave M N k0 l0 p q : ℝ) : ℂ)) = fun p q => 1 / 2 * complexWave M N k0 l0 p q +
      1 / 2 * complexWave M N (Spec.opposite M k0) (Spec.opposite N l0) p q := by
    funext p q
    exact wave_eq k0 l0 p q hk0 hl0
  rw [hf]
  simp only [dft2_add, dft2_smul, add_mul, mul_assoc]
  rw [idft2_add, idft2_smul, idft2_smul, filter_wave hk0 hl0, filter_wave (opposite_lt (by omega) _) (opposite_lt (by omega) _)]

/-- The response of a log-Gabor filter to a wave: the two complex parts are multiplied by the gains of the
two frequencies of the wave. -/
theorem C131_wave {M N k0 l0 : Nat} (hk0 : k0 < M) (hl0 : l0 < N) (a : GaborArgs) (s o p q : Nat) :
    gaborBand M N a s o (Spec.wave M N k0 l0) p q =
      1 / 2 * (gaborGain M N a s o k0 l0 *
        Complex.exp ((2 * Real.pi * ((k0 : ℝ) * p / M + (l0 : ℝ) * q / N) : ℝ) * Complex.I)) +
      1 / 2 * (gaborGain M N a s o (Spec.opposite M k0) (Spec.opposite N l0) *
        Complex.exp (-((2 * Real.pi * ((k0 : ℝ) * p / M + (l0 : ℝ) * q / N) : ℝ) * Complex.I))) := by
  unfold gaborBand
  rw [filter_real_wave hk0 hl0]
  have e : complexWave M N (Spec.opposite M k0) (Spec.opposite N l0) p q = (complexWave M N k0 l0 p q)⁻¹ := by
    unfold complexWave
    rw [root_opposite (by omega) _ _ hk0, root_opposite (by omega) _ _ hl0, mul_inv]
  rw [e, complexWave_exp, Complex.exp_neg]

/-! ### The contrast sensitivity filter -/

theorem fftshift_ifftshift {n k : Nat} (hk : k < n) : fftshiftSource n (ifftshiftSource n k) = k := by
  unfold fftshiftSource ifftshiftSource
  rw [Nat.mod_add_mod, show k + n / 2 + (n - n / 2) = k + n by omega, Nat.add_mod_right, Nat.mod_eq_of_lt hk]

/-- The contrast sensitivity filter multiplies a wave by the mean of the weights of its two frequencies; the
weight of a frequency is read at the place of this frequency in the shifted spectrum. -/
theorem C120_wave {M N k0 l0 : Nat} (hk0 : k0 < M) (hl0 : l0 < N) (csf : Nat → Nat → ℝ) (p q : Nat) :
    csfFiltered M N csf (Spec.wave M N k0 l0) p q =
      (csf ((k0 + M / 2) % M) ((l0 + N / 2) % N) +
        csf ((Spec.opposite M k0 + M / 2) % M) ((Spec.opposite N l0 + N / 2) % N)) / 2 * Spec.wave M N k0 l0 p q := by
  have h := filter_real_wave hk0 hl0 (fun k l => (csf (ifftshiftSource M k) (ifftshiftSource N l) : ℂ)) p q
  unfold csfFiltered shiftedIfft
  rw [idft2_congr (Y := fun k l => dft2 M N (fun p q => (Spec.wave M N k0 l0 p q : ℂ)) k l *
    (csf (ifftshiftSource M k) (ifftshiftSource N l) : ℂ)) (fun k l hk hl => by
      unfold shiftedFft
      simp only
      rw [fftshift_ifftshift hk, fftshift_ifftshift hl, mul_comm]), h]
  have e : complexWave M N (Spec.opposite M k0) (Spec.opposite N l0) p q = (complexWave M N k0 l0 p q)⁻¹ := by
    unfold complexWave
    rw [root_opposite (by omega) _ _ hk0, root_opposite (by omega) _ _ hl0, mul_inv]
  rw [e, complexWave_exp, ← Complex.exp_neg, ← neg_mul, ← Complex.ofReal_neg]
  unfold Spec.wave ifftshiftSource
  generalize 2 * Real.pi * ((k0 : ℝ) * p / M + (l0 : ℝ) * q / N) = t
  simp only [Complex.add_re, Complex.mul_re, Complex.exp_ofReal_mul_I_re, Complex.ofReal_re, Complex.ofReal_im,
    zero_mul, sub_zero, Real.cos_neg]
  norm_num
  ring

/-! ### Structure is seen -/

theorem gaborGain_pos {M N k l : Nat} (a : GaborArgs) (s o : Nat) (hM : M % 2 = 0) (hN : N % 2 = 0)
    (hk : k < M) (hl : l < N) (h : ¬ (k = 0 ∧ l = 0)) : 0 < gaborGain M N a s o k l := by
  unfold gaborGain
  rw [C49_even_partial _ hM hN hk hl h]
  exact mul_pos (Real.exp_pos _) (Real.exp_pos _)

theorem innerRms_pos {M N bs : Nat} {a : Nat → Nat → ℝ} (hA : ∀ u v, 0 < a u v) (hM : 2 * bs < M) (hN : 2 * bs < N) :
    ∃ v, innerRms M N bs a = .ok v ∧ 0 < v := by
  obtain ⟨v, hv⟩ := (innerRms_defined (M := M) (N := N) (bs := bs) a).1 ⟨hM, hN⟩
  refine ⟨v, hv, ?_⟩
  unfold innerRms at hv
  simp only at hv
  split at hv
  · simp at hv
  rename_i hne
  simp only [Except.ok.injEq] at hv
  rw [← hv]
  have hlen : 0 < (((innerRange M bs).flatMap (fun u => (innerRange N bs).map (fun v => a u v ^ 2))).length : ℝ) := by
    exact_mod_cast List.length_pos_iff.2 hne
  refine div_pos (Real.sqrt_pos.2 ?_) (Real.sqrt_pos.2 hlen)
  refine List.sum_pos _ (fun x hx => ?_) hne
  simp only [List.mem_flatMap, List.mem_map] at hx
  obtain ⟨u, _, v, _, rfl⟩ := hx
  exact pow_pos (hA u v) 2

/-- A single bright pixel on a dark image is seen: the appearance index is positive (for even sizes, and a
statistic that reads the response at this pixel). -/
theorem C130_sees {M N bs scales orientations : Nat} (weights : List ℝ) (c : ℝ) (hc : c ≠ 0) (hM : M % 2 = 0)
    (hN : N % 2 = 0) (h1 : 2 * bs < M) (h2 : 2 * bs < N) (hs : 0 < scales) (ho : 0 < orientations)
    (hw : weights.length = scales) (hp : ∀ w ∈ weights, 0 < w) :
    ∃ v, lowQuality M N bs scales orientations weights (fun f _ _ => (f 0 0, 0, 0)) (fun _ _ => 0)
      (fun p q => if p = 0 ∧ q = 0 then c else 0) = .ok v ∧ 0 < v := by
  have hne : weights ≠ [] := by
    intro e; rw [e] at hw; simp at hw; omega
  have hsum : 0 < weights.sum := List.sum_pos _ hp hne
  have hzero : ∀ s o, gaborBand M N (madGabor scales orientations) s o (fun _ _ => 0) 0 0 = 0 := by
    intro s o
    have := C130_pixel (M := M) (N := N) (by omega) (by omega) (madGabor scales orientations) s o 0
    simpa using this
  have hband : ∀ s o, 0 < ‖gaborBand M N (madGabor scales orientations) s o (fun p q => if p = 0 ∧ q = 0 then c else 0) 0 0‖ := by
    intro s o
    rw [C130_pixel (by omega) (by omega), norm_pos_iff, Ne, Complex.ofReal_eq_zero]
    have hg : 0 < ∑ k ∈ Finset.range M, ∑ l ∈ Finset.range N, gaborGain M N (madGabor scales orientations) s o k l := by
      have hnn : ∀ k l, 0 ≤ gaborGain M N (madGabor scales orientations) s o k l := fun k l => (C131_gain ..).1
      refine Finset.sum_pos' (fun k _ => Finset.sum_nonneg (fun l _ => hnn k l)) ⟨1, Finset.mem_range.2 (by omega), ?_⟩
      refine Finset.sum_pos' (fun l _ => hnn 1 l) ⟨0, Finset.mem_range.2 (by omega), ?_⟩
      exact gaborGain_pos _ s o hM hN (by omega) (by omega) (by omega)
    have hM0 : (0 : ℝ) < M := by
      have : 0 < M := by omega
      exact_mod_cast this
    have hN0 : (0 : ℝ) < N := by
      have : 0 < N := by omega
      exact_mod_cast this
    exact div_ne_zero (mul_ne_zero hc hg.ne') (mul_pos hM0 hN0).ne'
  unfold lowQuality madWeights
  rw [if_neg (fun h => ho.ne' h.2), if_neg (by simpa using hw), if_neg (fun h => hsum.ne' h.2)]
  simp only
  unfold appearIndex
  refine innerRms_pos (fun _ _ => ?_) h1 h2
  refine List.sum_pos _ (fun x hx => ?_) ?_
  · simp only [madBands, List.mem_map, List.mem_flatMap, List.mem_range] at hx
    obtain ⟨b, ⟨s, hs', o, _, rfl⟩, rfl⟩ := hx
    simp only [hzero, norm_zero, sub_zero, abs_zero, mul_zero, add_zero, abs_norm]
    refine mul_pos ?_ (hband s o)
    have hlt : s < weights.length := by rw [hw]; exact hs'
    rw [List.getD_eq_getElem?_getD, List.getElem?_map, List.getElem?_eq_getElem hlt]
    exact div_pos (hp _ (List.getElem_mem hlt)) hsum
  · intro e
    have := congrArg List.length e
    simp [madBands, madGabor] at this
    rcases this with h | h <;> omega

/-- The weights belong to the scales: with a weight for one scale only, images that differ in the other scales
only are not told apart. -/
theorem C130_scale {M N bs scales orientations : Nat} (weights : List ℝ)
    (stat : (Nat → Nat → ℝ) → Nat → Nat → ℝ × ℝ × ℝ) (r m : Nat → Nat → ℝ) (s0 : Nat) (h1 : 2 * bs < M) (h2 : 2 * bs < N)
    (hw : weights.length = scales) (h0 : weights.sum ≠ 0) (hz : ∀ s : Nat, s ≠ s0 → weights.getD s 0 = 0)
    (hn : orientations ≠ 0)
    (hb : ∀ o p q, o < orientations → ‖gaborBand M N (madGabor scales orientations) s0 o r p q‖ =
      ‖gaborBand M N (madGabor scales orientations) s0 o m p q‖) :
    lowQuality M N bs scales orientations weights stat r m = .ok 0 := by
  unfold lowQuality madWeights
  rw [if_neg (fun h => hn h.2), if_neg (by simpa using hw), if_neg (fun h => h0 h.2)]
  simp only
  unfold appearIndex
  refine innerRms_zero (fun u v => ?_) h1 h2
  apply List.sum_eq_zero
  intro x hx
  simp only [madBands, List.mem_map, List.mem_flatMap, List.mem_range] at hx
  obtain ⟨b, ⟨s, _, o, ho, rfl⟩, rfl⟩ := hx
  by_cases e : s = s0
  · subst e
    simp only [fun p q => hb o p q ho]
    simp
  · have : (weights.map (· / weights.sum)).getD s 0 = 0 := by
      have := hz s e
      rw [List.getD_eq_getElem?_getD] at this ⊢
      rw [List.getElem?_map]
      cases h : weights[s]? with
      | none => rfl
      | some w =>
        rw [h] at this
        simp only [Option.getD_some] at this
        simp [this]
    simp only [this, zero_mul]

/-- Images of 64 by 64 pixels with the default parameters. -/
example : ∃ v, lowQuality 64 64 16 5 4 [0.5, 0.75, 1, 5, 6] (fun f _ _ => (f 0 0, 0, 0)) (fun _ _ => 0)
    (fun p q => if p = 0 ∧ q = 0 then 200 else 0) = .ok v ∧ 0 < v :=
  C130_sees _ 200 (by norm_num) (by norm_num) (by norm_num) (by norm_num) (by norm_num) (by norm_num) (by norm_num) rfl
    (by simp; norm_num)

/-- The wave of two periods along the rows of an image of six by six pixels: the filter for this wave keeps
one complex part of it. -/
example (p q : Nat) : csfFiltered 6 6 (fun _ _ => 3) (Spec.wave 6 6 0 2) p q = 3 * Spec.wave 6 6 0 2 p q := by
  rw [C120_wave (by norm_num) (by norm_num)]
  norm_num

/-- The response at the first pixel is the mean of the two gains. -/
example : gaborBand 6 6 (madGabor 5 4) 0 0 (Spec.wave 6 6 0 2) 0 0 =
    1 / 2 * gaborGain 6 6 (madGabor 5 4) 0 0 0 2 + 1 / 2 * gaborGain 6 6 (madGabor 5 4) 0 0 (Spec.opposite 6 0) (Spec.opposite 6 2) := by
  rw [C131_wave (by norm_num) (by norm_num)]
  simp

end Viqa
