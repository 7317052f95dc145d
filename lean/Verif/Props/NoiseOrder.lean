import Verif.Props.NoiseAccuracy
import Verif.Props.SsimRounded

/-! C204: SNR and CNR of integer images are reproducible. -/

namespace Viqa

/-- A list of gray values with `b` bits. -/
def GrayValues (b : ℕ) (l : List ℝ) : Prop := ∀ v ∈ l, ∃ n : ℤ, v = n ∧ 0 ≤ n ∧ n < 2 ^ b

theorem gray_nonneg {b : ℕ} {l : List ℝ} (h : GrayValues b l) : ∀ v ∈ l, 0 ≤ v := by
  intro v hv
  obtain ⟨n, rfl, h0, -⟩ := h v hv
  exact_mod_cast h0

/-- The sum of gray values is an integer. -/
theorem gray_sum (b : ℕ) (l : List ℝ) (h : GrayValues b l) : ∃ n : ℤ, l.sum = n ∧ 0 ≤ n ∧ n ≤ l.length * (2 ^ b - 1) := by
  induction l with
  | nil => exact ⟨0, by simp⟩
  | cons v l ih =>
    obtain ⟨n, hn, h0, h1⟩ := h v (by simp)
    obtain ⟨m, hm, m0, m1⟩ := ih (fun w hw => h w (by simp [hw]))
    refine ⟨n + m, by rw [List.sum_cons, hn, hm]; push_cast; ring, by omega, ?_⟩
    rw [List.length_cons]
    push_cast
    have : n ≤ 2 ^ b - 1 := by omega
    linarith

/-- A sum of multiples of a power of two without rounding errors. -/
theorem eval_multiples (t : Summation) (e : ℤ) (B : ℤ) (h : ∀ v ∈ t.leaves, ∃ n : ℤ, v = n * 2 ^ e ∧ |n| ≤ B)
    (hB : t.size * B ≤ 2 ^ 53) : t.eval 53 = t.leaves.sum := by
  refine Summation.eval_exact 53 (by norm_num) e t (fun v => ⌊v / 2 ^ e⌋) ?_ ?_
  · intro v hv
    obtain ⟨n, rfl, -⟩ := h v hv
    rw [mul_div_cancel_right₀ _ (by positivity), Int.floor_intCast]
  · refine le_trans ?_ hB
    unfold Summation.size
    have : ∀ v ∈ t.leaves, |⌊v / (2 : ℝ) ^ e⌋| ≤ B := by
      intro v hv
      obtain ⟨n, rfl, hn⟩ := h v hv
      rw [mul_div_cancel_right₀ _ (by positivity), Int.floor_intCast]
      exact hn
    generalize t.leaves = l at this
    induction l with
    | nil => simp
    | cons v l ih =>
      rw [List.map_cons, List.sum_cons, List.length_cons]
      have a := this v (by simp)
      have c := ih (fun w hw => this w (by simp [hw]))
      push_cast
      linarith

/-- **C204, partial**: for regions with `2 ^ k` pixels of `b` bits and `2 b + 3 k ≤ 53` (8 bits: up to 4096 pixels, a cube with
the radius 8 or a square with the radius 32; 16 bits: up to 128 pixels), mean and variance are computed without rounding
errors, in every order. -/
theorem C204_exact_partial (t : Summation) (b k : ℕ) (h : GrayValues b t.leaves) (hk : t.size = 2 ^ k) (hb : 2 * b + 3 * k ≤ 53) :
    meanRounded 53 t = Spec.mean t.leaves ∧ varRounded 53 t = Spec.variance t.leaves := by
  have hlen : t.leaves.length = 2 ^ k := hk
  obtain ⟨N, hN, N0, N1⟩ := gray_sum b t.leaves h
  rw [hlen] at N1
  push_cast at N1
  have kpos : (0 : ℤ) < 2 ^ k := by positivity
  have bpos : (0 : ℤ) < 2 ^ b := by positivity
  have p1 : (2 : ℤ) ^ k * 2 ^ b ≤ 2 ^ 53 := by
    rw [← pow_add]; exact pow_le_pow_right₀ (by norm_num) (by omega)
  have ev : t.eval 53 = N := by
    rw [eval_multiples t 0 (2 ^ b) (fun v hv => by
      obtain ⟨n, rfl, h0, h1⟩ := h v hv
      exact ⟨n, by simp, by rw [abs_of_nonneg h0]; exact h1.le⟩) (by rw [hk]; push_cast; exact p1), hN]
  have k2 : (2 : ℝ) ^ k ≠ 0 := by positivity
  have hq : t.eval 53 / (t.size : ℝ) = N * 2 ^ (-(k : ℤ)) := by
    rw [ev, hk, zpow_neg, zpow_natCast]; push_cast; rfl
  have NB : |N| ≤ 2 ^ 53 := by
    rw [abs_of_nonneg N0]; nlinarith
  have hr : Representable 53 (t.eval 53 / (t.size : ℝ)) := ⟨N, _, NB, hq⟩
  have hmean : Spec.mean t.leaves = N * 2 ^ (-(k : ℤ)) := by
    unfold Spec.mean
    rw [hN, hlen, zpow_neg, zpow_natCast]; push_cast; rfl
  have hm : meanRounded 53 t = Spec.mean t.leaves := by
    unfold meanRounded
    rw [viaDouble_of_representable (by norm_num) hr, hq, hmean]
  have hc : centreRounded 53 t = Spec.mean t.leaves := by
    unfold centreRounded
    split
    · rw [fl_of_representable (by norm_num) hr, hq, hmean]
    · exact hm
  refine ⟨hm, ?_⟩
  -- deviations
  have dev : ∀ v ∈ t.leaves, ∃ m : ℤ, v - Spec.mean t.leaves = m * 2 ^ (-(k : ℤ)) ∧ |m| ≤ 2 ^ k * 2 ^ b := by
    intro v hv
    obtain ⟨n, rfl, h0, h1⟩ := h v hv
    refine ⟨n * 2 ^ k - N, ?_, ?_⟩
    · rw [hmean]
      push_cast
      rw [sub_mul, mul_assoc, ← zpow_natCast, ← zpow_add₀ (by norm_num : (2 : ℝ) ≠ 0)]
      simp
    · rw [abs_le]
      constructor <;> nlinarith
  have p2 : ((2 : ℤ) ^ k * 2 ^ b) * (2 ^ k * 2 ^ b) * 2 ^ k ≤ 2 ^ 53 := by
    rw [show ((2 : ℤ) ^ k * 2 ^ b) * (2 ^ k * 2 ^ b) * 2 ^ k = 2 ^ (2 * b + 3 * k) by ring]
    exact pow_le_pow_right₀ (by norm_num) hb
  have kone : (1 : ℤ) ≤ 2 ^ k := by omega
  have p3 : ((2 : ℤ) ^ k * 2 ^ b) * (2 ^ k * 2 ^ b) ≤ 2 ^ 53 := by
    refine le_trans ?_ p2
    exact le_mul_of_one_le_right (by positivity) kone
  have sqr : ∀ v ∈ t.leaves, fl 53 (fl 53 (v - centreRounded 53 t) * fl 53 (v - centreRounded 53 t)) = (v - Spec.mean t.leaves) ^ 2 ∧
      ∃ m : ℤ, (v - Spec.mean t.leaves) ^ 2 = m * 2 ^ (-(2 * k : ℤ)) ∧ |m| ≤ (2 ^ k * 2 ^ b) * (2 ^ k * 2 ^ b) := by
    intro v hv
    obtain ⟨m, hm', hB⟩ := dev v hv
    have e2 : (v - Spec.mean t.leaves) ^ 2 = ((m * m : ℤ) : ℝ) * 2 ^ (-(2 * k : ℤ)) := by
      rw [hm', show (-(2 * k : ℤ)) = -(k : ℤ) + -(k : ℤ) by ring, zpow_add₀ (by norm_num : (2 : ℝ) ≠ 0)]
      push_cast
      ring
    have hmm : |m * m| ≤ (2 ^ k * 2 ^ b) * (2 ^ k * 2 ^ b) := by
      rw [abs_mul]; exact mul_le_mul hB hB (abs_nonneg _) (by positivity)
    have d1 : fl 53 (v - centreRounded 53 t) = v - Spec.mean t.leaves := by
      rw [hc]
      exact fl_of_representable (by norm_num) ⟨m, _, hB.trans p1, hm'⟩
    refine ⟨?_, _, e2, hmm⟩
    rw [d1, ← sq]
    exact fl_of_representable (by norm_num) ⟨m * m, _, hmm.trans p3, e2⟩
  have hl : (t.map (fun v => fl 53 (fl 53 (v - centreRounded 53 t) * fl 53 (v - centreRounded 53 t)))).leaves =
      t.leaves.map (fun v => (v - Spec.mean t.leaves) ^ 2) := by
    rw [Summation.leaves_map]
    exact List.map_congr_left fun v hv => (sqr v hv).1
  have ev2 : (t.map (fun v => fl 53 (fl 53 (v - centreRounded 53 t) * fl 53 (v - centreRounded 53 t)))).eval 53 =
      (t.leaves.map (fun v => (v - Spec.mean t.leaves) ^ 2)).sum := by
    rw [eval_multiples _ (-(2 * k : ℤ)) ((2 ^ k * 2 ^ b) * (2 ^ k * 2 ^ b)) (fun v hv => by
      rw [hl, List.mem_map] at hv
      obtain ⟨w, hw, rfl⟩ := hv
      exact (sqr w hw).2) (by
      rw [Summation.size_map, hk]
      push_cast
      linarith), hl]
  have tot : ∃ m : ℤ, (t.leaves.map (fun v => (v - Spec.mean t.leaves) ^ 2)).sum = (m : ℝ) * (2 : ℝ) ^ (-(2 * k : ℤ)) ∧
      |m| ≤ (t.leaves.length : ℤ) * (((2 : ℤ) ^ k * 2 ^ b) * (2 ^ k * 2 ^ b)) := by
    generalize hq : Spec.mean t.leaves = c at sqr
    have sq' : ∀ v ∈ t.leaves, ∃ m : ℤ, (v - c) ^ 2 = m * 2 ^ (-(2 * k : ℤ)) ∧ |m| ≤ ((2 : ℤ) ^ k * 2 ^ b) * (2 ^ k * 2 ^ b) :=
      fun v hv => (sqr v hv).2
    generalize t.leaves = l at sq'
    induction l with
    | nil => exact ⟨0, by simp, by simp⟩
    | cons v l ih =>
      obtain ⟨a, ha, ha'⟩ := sq' v (by simp)
      obtain ⟨d, hd, hd'⟩ := ih (fun w hw => sq' w (by simp [hw]))
      refine ⟨a + d, by rw [List.map_cons, List.sum_cons, ha, hd]; push_cast; ring, ?_⟩
      refine (abs_add_le _ _).trans ?_
      rw [List.length_cons]
      push_cast
      linarith
  obtain ⟨m, hm', hB⟩ := tot
  unfold varRounded
  rw [ev2]
  unfold Spec.variance
  rw [hk, hlen]
  refine viaDouble_of_representable (by norm_num) ⟨m, -(2 * k : ℤ) + -(k : ℤ), ?_, ?_⟩
  · rw [hlen] at hB
    push_cast at hB
    linarith
  · rw [hm', zpow_add₀ (by norm_num : (2 : ℝ) ≠ 0), ← mul_assoc, zpow_neg _ (k : ℤ), zpow_natCast]
    push_cast
    rfl

theorem mean_perm {l l' : List ℝ} (h : l.Perm l') : Spec.mean l = Spec.mean l' := by
  unfold Spec.mean
  rw [h.sum_eq, h.length_eq]

theorem variance_perm {l l' : List ℝ} (h : l.Perm l') : Spec.variance l = Spec.variance l' := by
  unfold Spec.variance
  rw [mean_perm h, (h.map _).sum_eq, h.length_eq]

/-- **C204**: the mean of gray values does not depend on the order of the additions (8 bits: up to 2^45 pixels, 16 bits: up to
2^37). -/
theorem C204_mean (t t' : Summation) (b : ℕ) (h : GrayValues b t.leaves) (hs : t.size * 2 ^ b ≤ 2 ^ 53)
    (hp : t.leaves.Perm t'.leaves) : meanRounded 53 t = meanRounded 53 t' := by
  have hsz : t'.size = t.size := hp.length_eq.symm
  have g : ∀ s : Summation, GrayValues b s.leaves → s.size * 2 ^ b ≤ 2 ^ 53 → s.eval 53 = s.leaves.sum := by
    intro s h' hs'
    refine eval_multiples s 0 (2 ^ b) (fun v hv => ?_) (by exact_mod_cast hs')
    obtain ⟨n, rfl, h0, h1⟩ := h' v hv
    exact ⟨n, by simp, by rw [abs_of_nonneg h0]; exact h1.le⟩
  unfold meanRounded
  rw [g t h hs, g t' (fun v hv => h v (hp.mem_iff.2 hv)) (by rw [hsz]; exact hs), hp.sum_eq, hsz]

/-- **C204, partial**: SNR of regions with `2 ^ k` pixels of `b` bits does not depend on the order of the additions, nor on the
arrangement of the pixels. Missing: other numbers of pixels, see `C204_refuted`. -/
theorem C204_snr_partial (t t' : Summation) (b k : ℕ) (h : GrayValues b t.leaves) (hk : t.size = 2 ^ k) (hb : 2 * b + 3 * k ≤ 53)
    (hp : t.leaves.Perm t'.leaves) : snrRounded 53 t = snrRounded 53 t' := by
  obtain ⟨m, v⟩ := C204_exact_partial t b k h hk hb
  obtain ⟨m', v'⟩ := C204_exact_partial t' b k (fun v hv => h v (hp.mem_iff.2 hv)) (hp.length_eq.symm.trans hk) hb
  unfold snrRounded stdRounded
  rw [m, m', v, v', mean_perm hp, variance_perm hp]

/-- **C204, partial**: CNR alike; the number of pixels of the signal region does not matter. -/
theorem C204_cnr_partial (s s' t t' : Summation) (b k : ℕ) (hs : GrayValues b s.leaves) (ns : s.size * 2 ^ b ≤ 2 ^ 53)
    (h : GrayValues b t.leaves) (hk : t.size = 2 ^ k) (hb : 2 * b + 3 * k ≤ 53)
    (ps : s.leaves.Perm s'.leaves) (hp : t.leaves.Perm t'.leaves) : cnrRounded 53 s t = cnrRounded 53 s' t' := by
  obtain ⟨m, v⟩ := C204_exact_partial t b k h hk hb
  obtain ⟨m', v'⟩ := C204_exact_partial t' b k (fun v hv => h v (hp.mem_iff.2 hv)) (hp.length_eq.symm.trans hk) hb
  unfold cnrRounded stdRounded
  rw [C204_mean s s' b hs ns ps, m, m', v, v', mean_perm hp, variance_perm hp]

/-- **C204**: any two orders give the same SNR up to `2 ^ (-27)`, for up to `2 ^ 20` pixels. -/
theorem C204_close (t t' : Summation) (b : ℕ) (h : GrayValues b t.leaves) (hv : 0 < Spec.variance t.leaves)
    (hn : t.size ≤ 2 ^ 20) (hs : Spec.snr t.leaves ≤ 2 ^ 16) (hp : t.leaves.Perm t'.leaves) :
    |snrRounded 53 t - snrRounded 53 t'| ≤ Spec.snr t.leaves / 2 ^ 27 := by
  have e : Spec.snr t'.leaves = Spec.snr t.leaves := by
    unfold Spec.snr; rw [mean_perm hp, variance_perm hp]
  have a := abs_le.1 (C141_snr_digits t (gray_nonneg h) hv hn hs)
  have c := abs_le.1 (C141_snr_digits t' (fun v hv => gray_nonneg h v (hp.mem_iff.2 hv)) (by rw [← variance_perm hp]; exact hv)
    (by rw [show t'.size = t.size from hp.length_eq.symm]; exact hn) (by rw [e]; exact hs))
  rw [e] at c
  rw [abs_le]
  norm_num at a c ⊢
  constructor <;> linarith

/-- The additions of `np.sum` for five numbers: one after the other. -/
def fiveInARow (a b c d e : ℝ) : Summation := .node (.node (.node (.node (.leaf a) (.leaf b)) (.leaf c)) (.leaf d)) (.leaf e)

/-- The root of a number between two squares. -/
theorem fl_sqrt_between (v a b m : ℚ) (hb : 0 ≤ b) (h1 : a * a ≤ v) (h2 : v ≤ b * b) (ea : fl 53 a = m) (eb : fl 53 b = m) :
    fl 53 (Real.sqrt (v : ℝ)) = (m : ℝ) := by
  have s1 : (a : ℝ) ≤ Real.sqrt v := Real.le_sqrt_of_sq_le (by rw [sq]; exact_mod_cast h1)
  have s2 : Real.sqrt v ≤ (b : ℝ) := Real.sqrt_le_iff.2 ⟨by exact_mod_cast hb, by rw [sq]; exact_mod_cast h2⟩
  have r1 := fl_mono (p := 53) (by norm_num) s1
  have r2 := fl_mono (p := 53) (by norm_num) s2
  rw [fl_value 53 a m ea] at r1
  rw [fl_value 53 b m eb] at r2
  exact le_antisymm r2 r1

/-- Five pixels of which one is bright. -/
theorem var_five (a b c d e : ℚ) (hc : fl 53 (fl 53 ((fl 53 (fl 53 (fl 53 (fl 53 (a + b) + c) + d) + e)) / 5)) = 3602879701896397 / 18014398509481984)
    (hc' : fl 53 ((fl 53 (fl 53 (fl 53 (fl 53 (a + b) + c) + d) + e)) / 5) = 3602879701896397 / 18014398509481984) :
    meanRounded 53 (fiveInARow a b c d e) = ((3602879701896397 / 18014398509481984 : ℚ) : ℝ) ∧
    varRounded 53 (fiveInARow a b c d e) = ((fl 53 (fl 53 (fl 53 (fl 53 (fl 53 (fl 53
      (fl 53 (fl 53 (a - 3602879701896397 / 18014398509481984) * fl 53 (a - 3602879701896397 / 18014398509481984)) + fl 53 (fl 53 (b - 3602879701896397 / 18014398509481984) * fl 53 (b - 3602879701896397 / 18014398509481984))) +
      fl 53 (fl 53 (c - 3602879701896397 / 18014398509481984) * fl 53 (c - 3602879701896397 / 18014398509481984))) + fl 53 (fl 53 (d - 3602879701896397 / 18014398509481984) * fl 53 (d - 3602879701896397 / 18014398509481984))) +
      fl 53 (fl 53 (e - 3602879701896397 / 18014398509481984) * fl 53 (e - 3602879701896397 / 18014398509481984))) / 5)) : ℚ) : ℝ) := by
  have hs : ∀ a b c d e : ℝ, (fiveInARow a b c d e).size = 5 := fun _ _ _ _ _ => rfl
  have hcen : centreRounded 53 (fiveInARow a b c d e) = ((3602879701896397 / 18014398509481984 : ℚ) : ℝ) := by
    unfold centreRounded
    rw [hs, if_pos (by norm_num), ← hc']
    simp only [fiveInARow, Summation.eval, fl_ratCast, Rat.cast_add, Rat.cast_div, Rat.cast_ofNat, Nat.cast_ofNat]
  constructor
  · unfold meanRounded viaDouble
    rw [hs, max_self, ← hc]
    simp only [fiveInARow, Summation.eval, fl_ratCast, Rat.cast_add, Rat.cast_div, Rat.cast_ofNat, Nat.cast_ofNat]
  · unfold varRounded viaDouble
    rw [hs, max_self, hcen]
    simp only [fiveInARow, Summation.map, Summation.eval, fl_ratCast, Rat.cast_add, Rat.cast_sub, Rat.cast_mul, Rat.cast_div, Rat.cast_ofNat,
      Nat.cast_ofNat]

/-- SNR of the bright pixel at the end of a row of five. -/
theorem snr_last : snrRounded 53 (fiveInARow 0 0 0 0 1) = ((1 / 2 : ℚ) : ℝ) := by
  obtain ⟨hm, hv⟩ := var_five 0 0 0 0 1 (by decide +kernel) (by decide +kernel)
  rw [Rat.cast_zero, Rat.cast_one] at hm hv
  have hstd : stdRounded 53 (fiveInARow 0 0 0 0 1) = ((3602879701896397 / 9007199254740992 : ℚ) : ℝ) := by
    unfold stdRounded
    rw [hv]
    exact fl_sqrt_between _ (21617278211378381 / 54043195528445952) (21617278211378383 / 54043195528445952) _ (by norm_num) (by decide +kernel) (by decide +kernel)
      (by decide +kernel) (by decide +kernel)
  unfold snrRounded
  rw [hstd, hm, if_neg (by norm_num), ← Rat.cast_div]
  exact fl_value 53 _ _ (by decide +kernel)

/-- SNR of the mirrored row. -/
theorem snr_first : snrRounded 53 (fiveInARow 1 0 0 0 0) = ((9007199254740991 / 18014398509481984 : ℚ) : ℝ) := by
  obtain ⟨hm, hv⟩ := var_five 1 0 0 0 0 (by decide +kernel) (by decide +kernel)
  rw [Rat.cast_zero, Rat.cast_one] at hm hv
  have hstd : stdRounded 53 (fiveInARow 1 0 0 0 0) = ((7205759403792795 / 18014398509481984 : ℚ) : ℝ) := by
    unfold stdRounded
    rw [hv]
    exact fl_sqrt_between _ (1351079888211149 / 3377699720527872) (10808639105689193 / 27021597764222976) _ (by norm_num) (by decide +kernel) (by decide +kernel)
      (by decide +kernel) (by decide +kernel)
  unfold snrRounded
  rw [hstd, hm, if_neg (by norm_num), ← Rat.cast_div]
  exact fl_value 53 _ _ (by decide +kernel)

/-- What C204 asks for. -/
def ReproducibleSnr : Prop := ∀ t t' : Summation, GrayValues 8 t.leaves → t.leaves.Perm t'.leaves → snrRounded 53 t = snrRounded 53 t'

/-- **C204, refuted**: an image with one row of five pixels, of which the last is bright, has an SNR of exactly 0.5; the mirrored
image has an SNR below 0.5. -/
theorem C204_refuted : ¬ ReproducibleSnr ∧ snrRounded 53 (fiveInARow 0 0 0 0 1) = 1 / 2 ∧ snrRounded 53 (fiveInARow 1 0 0 0 0) < 1 / 2 := by
  have h1 := snr_last
  have h2 := snr_first
  have g1 : snrRounded 53 (fiveInARow 0 0 0 0 1) = 1 / 2 := by rw [h1]; norm_num
  have g2 : snrRounded 53 (fiveInARow 1 0 0 0 0) < 1 / 2 := by rw [h2]; norm_num
  refine ⟨fun h => ?_, g1, g2⟩
  have e := h (fiveInARow 0 0 0 0 1) (fiveInARow 1 0 0 0 0) (by
    intro v hv
    simp only [fiveInARow, Summation.leaves, List.mem_append, List.mem_singleton] at hv
    rcases hv with (((rfl | rfl) | rfl) | rfl) | rfl
    · exact ⟨0, by norm_num⟩
    · exact ⟨0, by norm_num⟩
    · exact ⟨0, by norm_num⟩
    · exact ⟨0, by norm_num⟩
    · exact ⟨1, by norm_num⟩) (by
    show [(0 : ℝ), 0, 0, 0, 1].Perm [1, 0, 0, 0, 0]
    exact (List.reverse_perm [(1 : ℝ), 0, 0, 0, 0]))
  linarith

/-- The partial result applied: four pixels in two orders. -/
example : snrRounded 53 (.node (.node (.leaf 3) (.leaf 200)) (.node (.leaf 7) (.leaf 255))) =
    snrRounded 53 (.node (.node (.node (.leaf 255) (.leaf 7)) (.leaf 200)) (.leaf 3)) := by
  refine C204_snr_partial _ _ 8 2 ?_ rfl (by norm_num) ?_
  · intro v hv
    simp only [Summation.leaves, List.mem_append, List.mem_singleton] at hv
    rcases hv with (rfl | rfl) | (rfl | rfl)
    · exact ⟨3, by norm_num⟩
    · exact ⟨200, by norm_num⟩
    · exact ⟨7, by norm_num⟩
    · exact ⟨255, by norm_num⟩
  · show [(3 : ℝ), 200, 7, 255].Perm [255, 7, 200, 3]
    exact (List.reverse_perm [(255 : ℝ), 7, 200, 3])

end Viqa
