import Verif.Props.Arrangement

/-!
C182: a few changed pixels change RMSE and PSNR by their share of the image.
-/

namespace Viqa

theorem sum_few {ι : Type} [DecidableEq ι] (P D : List ι) (hP : P.Nodup) (f g : ι → ℝ) (B : ℝ) (hB : 0 ≤ B)
    (hD : ∀ i ∈ P, i ∉ D → f i = g i) (hf : ∀ i ∈ P, 0 ≤ f i ∧ f i ≤ B) (hg : ∀ i ∈ P, 0 ≤ g i ∧ g i ≤ B) :
    |(P.map f).sum - (P.map g).sum| ≤ D.length * B := by
  have key : |(P.map f).sum - (P.map g).sum| ≤ (P.filter (· ∈ D)).length * B := by
    clear hP
    induction P with
    | nil => simp
    | cons i P ih =>
      have ih := ih (fun j hj => hD j (List.mem_cons_of_mem _ hj)) (fun j hj => hf j (List.mem_cons_of_mem _ hj))
        (fun j hj => hg j (List.mem_cons_of_mem _ hj))
      rw [List.map_cons, List.map_cons, List.sum_cons, List.sum_cons, List.filter_cons]
      rw [show f i + (P.map f).sum - (g i + (P.map g).sum) = (f i - g i) + ((P.map f).sum - (P.map g).sum) by ring]
      refine (abs_add_le _ _).trans ?_
      by_cases hi : i ∈ D
      · have h1 := hf i (by simp)
        have h2 := hg i (by simp)
        have : |f i - g i| ≤ B := by rw [abs_le]; constructor <;> linarith
        simp only [hi, decide_true, if_true, List.length_cons]
        push_cast
        linarith
      · rw [hD i (by simp) hi]
        simpa [hi] using ih
  refine key.trans (mul_le_mul_of_nonneg_right ?_ hB)
  have hn : (P.filter (· ∈ D)).Nodup := hP.filter _
  have : (P.filter (· ∈ D)) ⊆ D := fun i hi => by simpa using (List.mem_filter.1 hi).2
  exact_mod_cast (hn.subperm this).length_le

/-- **C182.** If two pairs of images agree up to the pixels of a list `D` and no two corresponding pixels are more than `R` apart, then
the mean squared errors differ by at most the share of these pixels times `R²`, the scores by at most `R` times the root of the share. -/
theorem C182_rmse (R : ℝ) (x y x' y' : NDArray ℝ) (D : List (List Nat)) (hx : x'.shape = x.shape) (hy : y'.shape = y.shape)
    (hD : ∀ i, InShape x.shape i → i ∉ D → x'.get i = x.get i ∧ y'.get i = y.get i)
    (hr : ∀ i, InShape x.shape i → |x.get i - y.get i| ≤ R ∧ |x'.get i - y'.get i| ≤ R) (v : ℝ) (h : rmse x y = .ok v) :
    ∃ v', rmse x' y' = .ok v' ∧ |v' ^ 2 - v ^ 2| ≤ D.length / x.size * R ^ 2 ∧ |v' - v| ≤ R * Real.sqrt (D.length / x.size) := by
  have hs : x.shape = y.shape := by
    by_contra hne
    unfold rmse meanSquaredError at h
    rw [if_pos hne] at h
    cases h
  have hz : x.size ≠ 0 := by
    intro hz
    unfold rmse meanSquaredError at h
    rw [if_neg (not_not_intro hs), if_pos hz] at h
    cases h
  have hz' : x'.size ≠ 0 := by unfold NDArray.size at *; rw [hx]; exact hz
  have hsz : x'.size = x.size := by unfold NDArray.size; rw [hx]
  unfold rmse meanSquaredError at h ⊢
  rw [if_neg (not_not_intro hs), if_neg hz] at h
  rw [if_neg (not_not_intro (hx.trans (hs.trans hy.symm))), if_neg hz', hx, hsz]
  cases h
  have hpos : (0 : ℝ) < x.size := by exact_mod_cast Nat.pos_of_ne_zero hz
  have hR : 0 ≤ R := by
    have hne : indices x.shape ≠ [] := by
      intro he
      apply hz
      have := indices_length x.shape
      rw [he] at this
      exact this.symm
    obtain ⟨i, hi⟩ := List.exists_mem_of_ne_nil _ hne
    exact (abs_nonneg _).trans (hr i ((mem_indices _ _).1 hi)).1
  have hsq : ∀ t : ℝ, |t| ≤ R → 0 ≤ t ^ 2 ∧ t ^ 2 ≤ R ^ 2 := fun t ht => ⟨sq_nonneg t, sq_le_sq.2 (by rw [abs_of_nonneg hR]; exact ht)⟩
  have hsum := sum_few (indices x.shape) D (indices_nodup _) (fun i => (x'.get i - y'.get i) ^ 2) (fun i => (x.get i - y.get i) ^ 2) (R ^ 2)
    (sq_nonneg R) (fun i hi hn => by
      obtain ⟨h1, h2⟩ := hD i ((mem_indices _ _).1 hi) hn
      simp only [h1, h2])
    (fun i hi => hsq _ (hr i ((mem_indices _ _).1 hi)).2) (fun i hi => hsq _ (hr i ((mem_indices _ _).1 hi)).1)
  set S' := ((indices x.shape).map fun i => (x'.get i - y'.get i) ^ 2).sum with hS'
  set S := ((indices x.shape).map fun i => (x.get i - y.get i) ^ 2).sum with hS
  have hn' : 0 ≤ S' / x.size := div_nonneg (List.sum_nonneg (by simp only [List.mem_map]; rintro _ ⟨i, _, rfl⟩; positivity)) hpos.le
  have hn : 0 ≤ S / x.size := div_nonneg (List.sum_nonneg (by simp only [List.mem_map]; rintro _ ⟨i, _, rfl⟩; positivity)) hpos.le
  have hm : |S' / x.size - S / x.size| ≤ D.length / x.size * R ^ 2 := by
    rw [← sub_div, abs_div, abs_of_pos hpos, div_mul_eq_mul_div]
    exact div_le_div_of_nonneg_right hsum hpos.le
  refine ⟨_, rfl, ?_, ?_⟩
  · rw [Real.sq_sqrt hn, Real.sq_sqrt hn']
    exact hm
  · set a := Real.sqrt (S' / x.size)
    set b := Real.sqrt (S / x.size)
    have ha : 0 ≤ a := Real.sqrt_nonneg _
    have hb : 0 ≤ b := Real.sqrt_nonneg _
    have hab : (a - b) ^ 2 ≤ D.length / x.size * R ^ 2 := by
      have h1 : |a ^ 2 - b ^ 2| ≤ D.length / x.size * R ^ 2 := by
        rw [Real.sq_sqrt hn, Real.sq_sqrt hn']
        exact hm
      refine le_trans ?_ h1
      rw [show a ^ 2 - b ^ 2 = (a - b) * (a + b) by ring, abs_mul, abs_of_nonneg (add_nonneg ha hb), ← sq_abs, sq]
      refine mul_le_mul_of_nonneg_left ?_ (abs_nonneg _)
      rw [abs_le]
      constructor <;> linarith
    have := Real.sqrt_le_sqrt hab
    rw [Real.sqrt_sq_eq_abs, Real.sqrt_mul (by positivity), Real.sqrt_sq hR, mul_comm] at this
    exact this

/-- **C182.** An image in which at most a share of the pixels was replaced by arbitrary values of the data range has a PSNR of at least
ten times the logarithm of the reciprocal of the share. -/
theorem C182_psnr (dr : ℝ) (hdr : 0 < dr) (x y : NDArray ℝ) (D : List (List Nat)) (hs : x.shape = y.shape) (hz : x.size ≠ 0) (hk : D ≠ [])
    (hD : ∀ i, InShape x.shape i → i ∉ D → y.get i = x.get i) (hr : ∀ i, InShape x.shape i → |x.get i - y.get i| ≤ dr) :
    psnr dr x y = .ok .infinite ∨ ∃ v, psnr dr x y = .ok (.finite v) ∧ 10 * Real.logb 10 (x.size / D.length) ≤ v := by
  by_cases he : arrayEqual x y
  · left
    unfold psnr
    rw [if_pos he]
  right
  have hpos : (0 : ℝ) < x.size := by exact_mod_cast Nat.pos_of_ne_zero hz
  have hkpos : (0 : ℝ) < D.length := by exact_mod_cast List.length_pos_iff.2 hk
  have h0 : rmse x x = .ok 0 := by
    unfold rmse meanSquaredError
    simp [hz]
  obtain ⟨v, hv, hv2, -⟩ := C182_rmse dr x x x y D rfl hs.symm (fun i hi hn => ⟨rfl, hD i hi hn⟩)
    (fun i hi => ⟨by simpa using hdr.le, hr i hi⟩) 0 h0
  unfold psnr
  rw [if_neg he]
  unfold rmse at hv
  cases hm : meanSquaredError x y with
  | error e => rw [hm] at hv; cases hv
  | ok m =>
    rw [hm] at hv
    cases hv
    have hmpos : 0 < m := by
      unfold meanSquaredError at hm
      rw [if_neg (not_not_intro hs), if_neg hz] at hm
      cases hm
      refine div_pos ?_ hpos
      have : ∃ i ∈ indices x.shape, x.get i ≠ y.get i := by
        by_contra hc
        push Not at hc
        exact he ⟨hs, hc⟩
      obtain ⟨i, hi, hne⟩ := this
      have h1 : (x.get i - y.get i) ^ 2 ≤ ((indices x.shape).map fun i => (x.get i - y.get i) ^ 2).sum :=
        List.single_le_sum (by simp only [List.mem_map]; rintro _ ⟨i, _, rfl⟩; positivity) _ (List.mem_map.2 ⟨i, hi, rfl⟩)
      have h2 : 0 < (x.get i - y.get i) ^ 2 := by
        have := sub_ne_zero.2 hne
        positivity
      linarith
    rw [Real.sq_sqrt hmpos.le] at hv2
    have hle : m ≤ D.length / x.size * dr ^ 2 := by
      have := (abs_le.1 hv2).2
      linarith
    have hq : 0 < dr ^ 2 / m := by positivity
    refine ⟨_, if_neg hq.ne', ?_⟩
    refine mul_le_mul_of_nonneg_left ?_ (by norm_num)
    refine Real.logb_le_logb_of_le (by norm_num) (by positivity) ?_
    rw [div_le_div_iff₀ hkpos hmpos]
    calc x.size * m ≤ x.size * (D.length / x.size * dr ^ 2) := mul_le_mul_of_nonneg_left hle hpos.le
      _ = dr ^ 2 * D.length := by field_simp

/-! ### Examples -/

/-- One white pixel in a black image of 8 × 8 pixels. -/
example : psnr 255 ⟨[8, 8], fun _ => 0⟩ ⟨[8, 8], fun i => if i = [3, 5] then 255 else 0⟩ = .ok .infinite ∨
    ∃ v, psnr 255 ⟨[8, 8], fun _ => 0⟩ ⟨[8, 8], fun i => if i = [3, 5] then 255 else 0⟩ = .ok (.finite v) ∧
      10 * Real.logb 10 (64 / 1) ≤ v := by
  have := C182_psnr 255 (by norm_num) ⟨[8, 8], fun _ => 0⟩ ⟨[8, 8], fun i => if i = [3, 5] then 255 else 0⟩ [[3, 5]] rfl
    (by decide) (by simp) (fun i _ hi => by simp at hi; simp [hi]) (fun i _ => by
      by_cases h : i = [3, 5] <;> simp [h])
  simpa [NDArray.size] using this

/-- The bound is reached: a white pixel in a row of four black ones, the root of a quarter of the range. -/
example : rmse ⟨[4], fun _ => 0⟩ ⟨[4], fun i => if i = [2] then 1 else 0⟩ = .ok (1 * Real.sqrt ([[2]].length / 4)) := by
  have : indices [4] = [[0], [1], [2], [3]] := by decide
  simp [rmse, meanSquaredError, this, NDArray.size]

end Viqa
