import Verif.Model.Infinite
import Verif.Props.NotANumber

/-!
Property C195: infinite pixels.
-/

namespace Viqa

/-- The pixel is infinite or not a number. -/
def Spec.NotFinite (v : NF) : Prop := ∀ w, v ≠ .fin w

open Spec

namespace NF

theorem notFinite_iff (v : NF) : NotFinite v ↔ v = .nan ∨ v = .pinf ∨ v = .ninf := by
  unfold NotFinite
  cases v <;> simp

theorem num_none (v : NF) : v.num = none ↔ NotFinite v := by
  unfold NotFinite num
  cases v <;> simp

theorem add_notFinite (a b : NF) (h : NotFinite a ∨ NotFinite b) : NotFinite (add a b) := by
  simp only [notFinite_iff] at *
  cases a <;> cases b <;> simp_all [add]

theorem neg_notFinite (a : NF) : NotFinite (neg a) ↔ NotFinite a := by
  simp only [notFinite_iff]
  cases a <;> simp [neg]

theorem sub_notFinite (a b : NF) (h : NotFinite a ∨ NotFinite b) : NotFinite (sub a b) :=
  add_notFinite _ _ (h.imp id (neg_notFinite b).2)

theorem scale_notFinite (s : Bool) (b : ℝ) : NotFinite (scale s b) := by
  rw [notFinite_iff]
  unfold scale
  split
  · simp
  · split <;> simp

theorem mul_notFinite (a b : NF) (h : NotFinite a ∨ NotFinite b) : NotFinite (mul a b) := by
  cases a <;> cases b <;> simp only [mul] <;> first
    | exact scale_notFinite _ _
    | (simp only [notFinite_iff] at h; simp at h; done)
    | (rw [notFinite_iff]; simp; done)

theorem mul_fin_iff (a b : NF) : NotFinite (mul a b) ↔ NotFinite a ∨ NotFinite b := by
  refine ⟨fun h => ?_, mul_notFinite a b⟩
  by_contra hc
  push Not at hc
  obtain ⟨h1, h2⟩ := hc
  unfold NotFinite at h1 h2
  push Not at h1 h2
  obtain ⟨v, rfl⟩ := h1
  obtain ⟨w, rfl⟩ := h2
  exact h (v * w) rfl

/-- Squares are not negative. -/
theorem square_ne (a : NF) : mul a a ≠ .ninf := by
  cases a <;> simp [mul]

theorem square_cases (a : NF) : (∃ v, 0 ≤ v ∧ mul a a = .fin v) ∨ mul a a = .pinf ∨ mul a a = .nan := by
  cases a with
  | fin v => exact .inl ⟨v * v, mul_self_nonneg v, rfl⟩
  | nan => simp [mul]
  | pinf => simp [mul]
  | ninf => simp [mul]

theorem square_notFinite (a : NF) (h : NotFinite a) : mul a a = .pinf ∨ mul a a = .nan := by
  rw [notFinite_iff] at h
  rcases h with rfl | rfl | rfl <;> simp [mul]

theorem mul_nan (a : NF) : mul a .nan = .nan ∧ mul .nan a = .nan := by cases a <;> simp [mul]
theorem add_nan (a : NF) : add a .nan = .nan ∧ add .nan a = .nan := by cases a <;> simp [add]
theorem sub_nan (a : NF) : sub a .nan = .nan ∧ sub .nan a = .nan := ⟨(add_nan a).1, (add_nan _).2⟩
theorem div_nan (a : NF) : div a .nan = .nan ∧ div .nan a = .nan := by cases a <;> simp [div]

/-- Infinite by infinite is not a number. -/
theorem div_notFinite (a b : NF) (ha : NotFinite a) (hb : NotFinite b) : div a b = .nan := by
  rw [notFinite_iff] at ha hb
  rcases ha with rfl | rfl | rfl <;> rcases hb with rfl | rfl | rfl <;> simp [div]

theorem div_positive (a : NF) (n : ℝ) (h : 0 < n) (ha : NotFinite a) : div a (.fin n) = a := by
  rw [notFinite_iff] at ha
  rcases ha with rfl | rfl | rfl <;> simp [div, not_lt.2 h.le]

theorem div_positive_fin (v : ℝ) (n : ℝ) (h : 0 < n) : div (.fin v) (.fin n) = .fin (v / n) := by
  show npDiv v n = _
  unfold npDiv
  rw [if_neg h.ne']

/-! Sums -/

theorem sum_notFinite (l : List NF) (h : ∃ v ∈ l, NotFinite v) : NotFinite (sum l) := by
  induction l with
  | nil => obtain ⟨v, hv, -⟩ := h; cases hv
  | cons a l ih =>
    obtain ⟨v, hv, hn⟩ := h
    rw [List.mem_cons] at hv
    unfold sum
    rw [List.foldr_cons]
    apply add_notFinite
    rcases hv with rfl | hv
    · exact .inl hn
    · exact .inr (ih ⟨v, hv, hn⟩)

theorem sum_nan (l : List NF) (h : .nan ∈ l) : sum l = .nan := by
  induction l with
  | nil => cases h
  | cons a l ih =>
    rw [List.mem_cons] at h
    unfold sum
    rw [List.foldr_cons]
    rcases h with rfl | h
    · exact (add_nan _).2
    · have := ih h
      unfold sum at this
      rw [this]
      exact (add_nan _).1

/-- A sum is infinite because of an infinite summand. -/
theorem sum_infinite (l : List NF) : (sum l = .pinf → .pinf ∈ l) ∧ (sum l = .ninf → .ninf ∈ l) := by
  induction l with
  | nil => simp [sum]
  | cons a l ih =>
    unfold sum at ih ⊢
    rw [List.foldr_cons]
    generalize List.foldr add (fin 0) l = s at *
    cases a <;> cases s <;> simp_all [add]

theorem sum_not_ninf (l : List NF) (h : .ninf ∉ l) : sum l ≠ .ninf := fun e => h ((sum_infinite l).2 e)

theorem sum_fin {α : Type} (l : List α) (g : α → NF) (v : α → ℝ) (h : ∀ a ∈ l, g a = .fin (v a)) :
    sum (l.map g) = .fin (l.map v).sum := by
  induction l with
  | nil => rfl
  | cons a l ih =>
    have := ih (fun b hb => h b (List.mem_cons_of_mem _ hb))
    unfold sum at this ⊢
    rw [List.map_cons, List.foldr_cons, this, h a List.mem_cons_self, List.map_cons, List.sum_cons]
    rfl

theorem length_pos_real {α : Type} (l : List α) (h : l ≠ []) : (0 : ℝ) < l.length := by
  exact_mod_cast List.length_pos_iff.2 h

theorem mean_notFinite (l : List NF) (h : ∃ v ∈ l, NotFinite v) : mean l = sum l := by
  have hl : l ≠ [] := by rintro rfl; obtain ⟨v, hv, -⟩ := h; cases hv
  unfold mean
  exact div_positive _ _ (length_pos_real l hl) (sum_notFinite l h)

/-- The standard deviation of values that are not all finite is not a number. -/
theorem std_nan (l : List NF) (h : ∃ v ∈ l, NotFinite v) : std l = .nan := by
  have hm := mean_notFinite l h
  have hn := sum_notFinite l h
  have key : ∃ v ∈ l, mul (sub v (mean l)) (sub v (mean l)) = .nan := by
    rw [hm]
    rw [notFinite_iff] at hn
    obtain ⟨w, hw, -⟩ := h
    rcases hn with e | e | e
    · exact ⟨w, hw, by rw [e, (sub_nan w).1]; rfl⟩
    · exact ⟨_, (sum_infinite l).1 e, by rw [e]; rfl⟩
    · exact ⟨_, (sum_infinite l).2 e, by rw [e]; rfl⟩
  obtain ⟨v, hv, e⟩ := key
  have hmem : .nan ∈ l.map (fun v => mul (sub v (mean l)) (sub v (mean l))) := List.mem_map.2 ⟨v, hv, e⟩
  unfold std
  have : mean (l.map (fun v => mul (sub v (mean l)) (sub v (mean l)))) = .nan := by
    rw [mean_notFinite _ ⟨_, hmem, by rw [notFinite_iff]; simp⟩, sum_nan _ hmem]
  rw [this]
  rfl

end NF

open NF

/-- There is a pixel that is infinite or not a number. -/
def Spec.HasInfinite (x : NDArray NF) : Prop := ∃ i ∈ indices x.shape, NotFinite (x.get i)

theorem size_pos_of_mem {shape : List Nat} {i : List Nat} (h : i ∈ indices shape) : indices shape ≠ [] := by
  intro e; rw [e] at h; cases h

theorem sqDiff_ne (a b : NF) : mul (sub a b) (sub a b) ≠ .ninf := square_ne _

theorem sqDiff_nan_iff (a b : NF) :
    mul (sub a b) (sub a b) = .nan ↔ a = .nan ∨ b = .nan ∨ (a = b ∧ NotFinite a) := by
  simp only [notFinite_iff]
  cases a <;> cases b <;> simp [sub, neg, add, mul]

theorem sqDiff_notFinite (a b : NF) (h : NotFinite a ∨ NotFinite b) : NotFinite (mul (sub a b) (sub a b)) :=
  mul_notFinite _ _ (.inl (sub_notFinite a b h))

/-- Values that are finite or positive infinite. -/
theorem sum_up (l : List NF) (h : ∀ v ∈ l, v ≠ .nan ∧ v ≠ .ninf) : sum l ≠ .nan ∧ sum l ≠ .ninf := by
  induction l with
  | nil => simp [sum]
  | cons a l ih =>
    have ha := h a List.mem_cons_self
    have hl := ih (fun v hv => h v (List.mem_cons_of_mem _ hv))
    unfold sum at hl ⊢
    rw [List.foldr_cons]
    generalize List.foldr add (fin 0) l = s at *
    cases a <;> cases s <;> simp_all [add]

/-- Differences of these images that are not a number: two equal infinities or a nan. -/
def Spec.Undefined (x y : NDArray NF) : Prop :=
  ∃ i ∈ indices x.shape, x.get i = .nan ∨ y.get i = .nan ∨ (x.get i = y.get i ∧ NotFinite (x.get i))

theorem mse_infinite (x y : NDArray NF) (hs : x.shape = y.shape) (h : Spec.HasInfinite x ∨ Spec.HasInfinite y) :
    (Spec.Undefined x y → meanSquaredErrorX x y = .ok .nan) ∧ (¬ Spec.Undefined x y → meanSquaredErrorX x y = .ok .pinf) := by
  have hi : ∃ i ∈ indices x.shape, NotFinite (x.get i) ∨ NotFinite (y.get i) := by
    rcases h with ⟨i, hi, hx⟩ | ⟨i, hi, hy⟩
    · exact ⟨i, hi, .inl hx⟩
    · exact ⟨i, by rw [hs]; exact hi, .inr hy⟩
  obtain ⟨i, him, hn⟩ := hi
  have hsz : x.size ≠ 0 := by
    have := size_pos_of_mem him
    intro e
    apply this
    rw [← List.length_eq_zero_iff, length_indices]
    exact e
  have hex : ∃ v ∈ (indices x.shape).map (fun i => mul (sub (x.get i) (y.get i)) (sub (x.get i) (y.get i))), NotFinite v :=
    ⟨_, List.mem_map.2 ⟨i, him, rfl⟩, sqDiff_notFinite _ _ hn⟩
  unfold meanSquaredErrorX
  rw [if_neg (not_not.2 hs), if_neg hsz, mean_notFinite _ hex]
  constructor
  · rintro ⟨j, hj, hu⟩
    rw [sum_nan]
    exact List.mem_map.2 ⟨j, hj, (sqDiff_nan_iff _ _).2 hu⟩
  · intro hu
    have := sum_up ((indices x.shape).map (fun i => mul (sub (x.get i) (y.get i)) (sub (x.get i) (y.get i)))) (by
      intro v hv
      obtain ⟨j, hj, rfl⟩ := List.mem_map.1 hv
      exact ⟨fun e => hu ⟨j, hj, (sqDiff_nan_iff _ _).1 e⟩, sqDiff_ne _ _⟩)
    have hf := (notFinite_iff _).1 (sum_notFinite _ hex)
    rcases hf with e | e | e
    · exact absurd e this.1
    · rw [e]
    · exact absurd e this.2

/-- **C195 (partial).** RMSE of images with infinite pixels is infinite, or nan if a difference is undefined. -/
theorem C195_rmse_partial (x y : NDArray NF) (hs : x.shape = y.shape) (h : Spec.HasInfinite x ∨ Spec.HasInfinite y) :
    (Spec.Undefined x y → rmseX x y = .ok .nan) ∧ (¬ Spec.Undefined x y → rmseX x y = .ok .pinf) := by
  obtain ⟨h1, h2⟩ := mse_infinite x y hs h
  unfold rmseX
  exact ⟨fun u => by rw [h1 u]; rfl, fun u => by rw [h2 u]; rfl⟩

/-- **C195 (partial).** PSNR of different images with infinite pixels is negative infinite, or nan. -/
theorem C195_psnr_partial (dr : ℝ) (x y : NDArray NF) (hs : x.shape = y.shape) (h : Spec.HasInfinite x ∨ Spec.HasInfinite y)
    (hd : ∃ i ∈ indices x.shape, x.get i ≠ y.get i) :
    (Spec.Undefined x y → psnrX dr x y = .ok .nan) ∧ (¬ Spec.Undefined x y → psnrX dr x y = .ok .ninf) := by
  obtain ⟨h1, h2⟩ := mse_infinite x y hs h
  obtain ⟨i, hi, hne⟩ := hd
  unfold psnrX
  rw [if_neg (fun e => hne (e.2 i hi).1)]
  refine ⟨fun u => ?_, fun u => ?_⟩
  · rw [h1 u]; simp [NF.div, log10X, NF.mul]
  · rw [h2 u]; simp [NF.div, log10X, NF.mul, NF.scale]

/-- **C195 is false** for identical images: their RMSE is not a number although their PSNR is infinite as it should be. -/
theorem C195_identical_refuted (dr : ℝ) (x : NDArray NF) (h : Spec.HasInfinite x) (hn : ∀ i ∈ indices x.shape, x.get i ≠ .nan) :
    rmseX x x = .ok .nan ∧ psnrX dr x x = .ok .pinf := by
  obtain ⟨i, hi, hx⟩ := h
  refine ⟨(C195_rmse_partial x x rfl (.inl ⟨i, hi, hx⟩)).1 ⟨i, hi, .inr (.inr ⟨rfl, hx⟩)⟩, ?_⟩
  unfold psnrX
  rw [if_pos ⟨rfl, fun j hj => ⟨rfl, hn j hj⟩⟩]

/-- **C195 (partial).** An infinite pixel in the region makes SNR nan. -/
theorem C195_snr_partial (signal : List NF) (h : ∃ v ∈ signal, NotFinite v) : snrOfX signal = .ok .nan := by
  have hl : signal ≠ [] := by rintro rfl; obtain ⟨v, hv, -⟩ := h; cases hv
  unfold snrOfX
  rw [if_neg hl, std_nan signal h, if_neg (by simp), (div_nan _).1]

/-- Standard deviation of finite values. -/
theorem std_fin (l : List ℝ) (hl : l ≠ []) : ∃ m s : ℝ, NF.mean (l.map .fin) = .fin m ∧ NF.std (l.map .fin) = .fin s ∧ 0 ≤ s := by
  have hp := length_pos_real l hl
  have hm : NF.mean (l.map .fin) = .fin (l.sum / l.length) := by
    unfold NF.mean
    rw [sum_fin l NF.fin id (fun _ _ => rfl), List.map_id, List.length_map, div_positive_fin _ _ hp]
  refine ⟨_, Real.sqrt ((l.map (fun v => (v - l.sum / l.length) * (v - l.sum / l.length))).sum / l.length), hm, ?_, Real.sqrt_nonneg _⟩
  unfold NF.std
  rw [hm, List.map_map]
  unfold NF.mean
  rw [sum_fin l ((fun v => mul (sub v (.fin (l.sum / l.length))) (sub v (.fin (l.sum / l.length)))) ∘ NF.fin)
    (fun v => (v - l.sum / l.length) * (v - l.sum / l.length))
    (fun v _ => by simp [sub, neg, add, mul, sub_eq_add_neg]), List.length_map, div_positive_fin _ _ hp]
  apply if_neg
  rw [not_lt]
  apply div_nonneg _ hp.le
  apply List.sum_nonneg
  intro v hv
  obtain ⟨w, -, rfl⟩ := List.mem_map.1 hv
  exact mul_self_nonneg _

/-- **C195 (partial).** For CNR: an infinite pixel in the background gives nan, one in the signal a score that is not finite if the background is
not uniform. -/
theorem C195_cnr_partial (signal background : List NF) :
    ((∃ v ∈ background, NotFinite v) → signal ≠ [] → cnrOfX signal background = .ok .nan) ∧
    ((∃ v ∈ signal, NotFinite v) → ∀ b : List ℝ, background = b.map .fin → b ≠ [] → NF.std background ≠ .fin 0 →
      ∃ s, cnrOfX signal background = .ok s ∧ NotFinite s) := by
  refine ⟨fun h hs => ?_, fun h b hb hne hstd => ?_⟩
  · have hl : background ≠ [] := by rintro rfl; obtain ⟨v, hv, -⟩ := h; cases hv
    unfold cnrOfX
    rw [if_neg hl, std_nan _ h, if_neg (by simp), if_neg hs, (div_nan _).1]
  · have hl : signal ≠ [] := by rintro rfl; obtain ⟨v, hv, -⟩ := h; cases hv
    obtain ⟨m, s, hm, hs, h0⟩ := std_fin b hne
    rw [hb] at hstd ⊢
    unfold cnrOfX
    rw [if_neg (by simpa using hne), if_neg hstd, if_neg hl, hm, hs]
    rw [hs] at hstd
    have hs' : 0 < s := lt_of_le_of_ne h0 (fun e => hstd (by rw [← e]))
    have hd : NotFinite (sub (NF.mean signal) (.fin m)) :=
      sub_notFinite _ _ (.inl (by rw [mean_notFinite _ h]; exact sum_notFinite _ h))
    exact ⟨_, rfl, by rw [div_positive _ _ hs' hd]; exact hd⟩

/-- **C195 is false** for CNR with a uniform background: the score is 0, whatever the signal. -/
theorem C195_cnr_refuted (signal background : List NF) (hb : background ≠ []) (h : NF.std background = .fin 0) :
    cnrOfX signal background = .ok (.fin 0) := by
  unfold cnrOfX
  rw [if_neg hb, if_pos h]

/-! ### SSIM -/

/-- Sums as SciPy forms them have the properties assumed: weighted sums … -/
theorem weightedSum_infinite (l : List (ℝ × NF)) (hw : ∀ p ∈ l, 0 < p.1) (h : ∃ p ∈ l, NotFinite p.2) :
    NotFinite (weightedSum l) ∧ ((∀ p ∈ l, p.2 ≠ .ninf) → weightedSum l ≠ .ninf) := by
  unfold weightedSum
  refine ⟨?_, fun hn => sum_not_ninf _ ?_⟩
  · obtain ⟨p, hp, hf⟩ := h
    exact sum_notFinite _ ⟨_, List.mem_map.2 ⟨p, hp, rfl⟩, mul_notFinite _ _ (.inr hf)⟩
  · intro hm
    obtain ⟨p, hp, e⟩ := List.mem_map.1 hm
    have h1 := hn p hp
    have h2 := hw p hp
    generalize p.2 = v at *
    cases v <;> simp [NF.mul, NF.scale, h2, h2.ne'] at e h1

theorem not_notFinite (v : NF) (h : ¬ NotFinite v) : ∃ w, v = .fin w := by
  unfold NotFinite at h
  push Not at h
  exact h

/-- … and running means, from the first infinite pixel of the line on. -/
theorem runningMean_infinite (size : Nat) (hs : 0 < size) (line : Nat → NF) (n : Nat) :
    ((∀ k < n + size, ∃ w, line k = .fin w) → ∃ w, runningMean size line n = .fin w) ∧
    ((∃ k < n + size, NotFinite (line k)) → NotFinite (runningMean size line n) ∧
      ((∀ k < n + size, line k ≠ .ninf) → runningMean size line n ≠ .ninf)) := by
  have hp : (0 : ℝ) < size := by exact_mod_cast hs
  induction n with
  | zero =>
    simp only [Nat.zero_add]
    refine ⟨fun h => ?_, fun h => ?_⟩
    · choose! w hw using h
      unfold runningMean
      rw [sum_fin (List.range size) line w (fun k hk => hw k (List.mem_range.1 hk)), div_positive_fin _ _ hp]
      exact ⟨_, rfl⟩
    · obtain ⟨k, hk, hf⟩ := h
      have hnf := sum_notFinite ((List.range size).map line) ⟨_, List.mem_map.2 ⟨k, List.mem_range.2 hk, rfl⟩, hf⟩
      unfold runningMean
      rw [div_positive _ _ hp hnf]
      refine ⟨hnf, fun hn => sum_not_ninf _ (fun hm => ?_)⟩
      obtain ⟨j, hj, e⟩ := List.mem_map.1 hm
      exact hn j (List.mem_range.1 hj) e
  | succ n ih =>
    refine ⟨fun h => ?_, fun h => ?_⟩
    · obtain ⟨w, hw⟩ := ih.1 (fun k hk => h k (by omega))
      obtain ⟨a, ha⟩ := h (n + size) (by omega)
      obtain ⟨b, hb⟩ := h n (by omega)
      refine ⟨w + (a - b) / size, ?_⟩
      unfold runningMean
      rw [hw, ha, hb]
      simp only [sub, neg, add, ← sub_eq_add_neg]
      rw [div_positive_fin _ _ hp]
    · by_cases hprev : ∃ k < n + size, NotFinite (line k)
      · obtain ⟨h1, h2⟩ := ih.2 hprev
        unfold runningMean
        refine ⟨add_notFinite _ _ (.inl h1), fun hn => ?_⟩
        have h3 := h2 (fun k hk => hn k (by omega))
        rw [notFinite_iff] at h1
        generalize NF.div (sub (line (n + size)) (line n)) (.fin size) = d
        rcases h1 with e | e | e
        · rw [e, (add_nan d).2]; simp
        · rw [e]; cases d <;> simp [add]
        · exact absurd e h3
      · push Not at hprev
        obtain ⟨k, hk, hf⟩ := h
        have hkn : k = n + size := by
          by_contra hne
          exact hprev k (by omega) hf
        rw [hkn] at hf
        obtain ⟨b, hb⟩ := not_notFinite _ (hprev n (by omega))
        obtain ⟨w, hw⟩ := ih.1 (fun j hj => not_notFinite _ (hprev j hj))
        unfold runningMean
        have hd := sub_notFinite (line (n + size)) (line n) (.inl hf)
        rw [div_positive _ _ hp hd]
        refine ⟨add_notFinite _ _ (.inr hd), fun hn => ?_⟩
        have h3 := hn (n + size) (by omega)
        rw [hw, hb]
        rw [notFinite_iff] at hf
        rcases hf with e | e | e
        · rw [e]; simp [sub, add]
        · rw [e]; simp [sub, neg, add]
        · exact absurd e h3

theorem nums_product (x y : NDArray NF) : (productX x y).nums = nanProduct x.nums y.nums := by
  have key : ∀ a b : NF, (mul a b).num = (match a.num, b.num with | some a, some b => some (a * b) | _, _ => none : Option ℝ) := by
    intro a b
    cases a <;> cases b <;> simp only [num, mul] <;> first
      | rfl
      | exact (num_none _).2 (scale_notFinite _ _)
  unfold productX nanProduct NDArray.nums NDArray.zip
  simp only [NDArray.mk.injEq, true_and]
  funext i
  exact key _ _

theorem applyX_some (bad : NDArray NF → List Nat → NF) (f : Filter) (run : Bool) (x : NDArray NF) (p : List Nat) (v : ℝ)
    (h : f.applyN run x.nums p = some v) : f.applyX bad run x p = .fin v := by
  unfold Filter.applyX; rw [h]

theorem applyX_none (bad : NDArray NF → List Nat → NF) (f : Filter) (run : Bool) (x : NDArray NF) (p : List Nat)
    (h : f.applyN run x.nums p = none) : f.applyX bad run x p = bad x p := by
  unfold Filter.applyX; rw [h]

theorem sqrt_negative (v : ℝ) (h : v < 0) : NF.sqrt (.fin v) = .nan := if_pos h
theorem sqrt_fin (v : ℝ) (h : ¬ v < 0) : NF.sqrt (.fin v) = .fin (Real.sqrt v) := if_neg h

/-- Terms of finite statistics. -/
theorem structureTermX_fin (vx vy vxy c3 : ℝ) : structureTermX (.fin vx) (.fin vy) (.fin vxy) c3 = structureTerm vx vy vxy c3 := by
  unfold structureTermX structureTerm
  by_cases h1 : vx < 0
  · rw [sqrt_negative vx h1, if_pos (.inl h1), (mul_nan _).2, (add_nan _).2, (div_nan _).1]
  · by_cases h2 : vy < 0
    · rw [sqrt_negative vy h2, if_pos (.inr h2), (mul_nan _).1, (add_nan _).2, (div_nan _).1]
    · rw [sqrt_fin vx h1, sqrt_fin vy h2, if_neg (by tauto)]
      rfl

theorem contrastTermX_fin (vx vy c2 : ℝ) : contrastTermX (.fin vx) (.fin vy) c2 = contrastTerm vx vy c2 := by
  unfold contrastTermX contrastTerm
  by_cases h1 : vx < 0
  · rw [sqrt_negative vx h1, if_pos (.inl h1), (mul_nan _).1, (mul_nan _).2, (add_nan _).2, (div_nan _).2]
  · by_cases h2 : vy < 0
    · rw [sqrt_negative vy h2, if_pos (.inr h2), (mul_nan _).1, (add_nan _).2, (div_nan _).2]
    · rw [sqrt_fin vx h1, sqrt_fin vy h2, if_neg (by tauto)]
      rfl

theorem luminanceTermX_fin (ux uy c1 : ℝ) : luminanceTermX (.fin ux) (.fin uy) c1 = luminanceTerm ux uy c1 := by
  unfold luminanceTermX luminanceTerm
  simp only [mul, add, div, sq]

/-- The variance of a window with an infinite pixel. -/
theorem covarianceX_nan (norm : ℝ) (uxx ux : NF) (h1 : NotFinite uxx) (h2 : NotFinite ux) (h3 : uxx ≠ .ninf) :
    covarianceX norm uxx ux ux = .nan := by
  unfold covarianceX
  rw [notFinite_iff] at h1
  rcases square_notFinite ux h2 with e | e <;> rw [e] <;> rcases h1 with rfl | rfl | rfl <;>
    first
    | exact absurd rfl h3
    | simp [sub, neg, add, mul]

theorem luminanceTermX_nan (ux uy : NF) (c1 : ℝ) (h : NotFinite ux ∨ NotFinite uy) : luminanceTermX ux uy c1 = .nan := by
  unfold luminanceTermX
  apply div_notFinite
  · apply add_notFinite _ _ (.inl _)
    apply mul_notFinite
    rcases h with h | h
    · exact .inl (mul_notFinite _ _ (.inr h))
    · exact .inr h
  · apply add_notFinite _ _ (.inl _)
    apply add_notFinite
    rcases h with h | h
    · exact .inl (mul_notFinite _ _ (.inl h))
    · exact .inr (mul_notFinite _ _ (.inl h))

theorem contrastTermX_nan (vx vy : NF) (c2 : ℝ) (h : vx = .nan ∨ vy = .nan) : contrastTermX vx vy c2 = .nan := by
  unfold contrastTermX
  have : NF.sqrt .nan = .nan := rfl
  rcases h with rfl | rfl
  · rw [(add_nan _).2, (add_nan _).2, (div_nan _).1]
  · rw [(add_nan _).1, (add_nan _).2, (div_nan _).1]

theorem structureTermX_nan (vx vy vxy : NF) (c3 : ℝ) (h : vx = .nan ∨ vy = .nan) : structureTermX vx vy vxy c3 = .nan := by
  unfold structureTermX
  have e : NF.sqrt .nan = .nan := rfl
  rcases h with rfl | rfl
  · rw [e, (mul_nan _).2, (add_nan _).2, (div_nan _).1]
  · rw [e, (mul_nan _).1, (add_nan _).2, (div_nan _).1]

/-- The index at one position: infinite pixels count as nan. -/
theorem ssimAtX_eq (bad : NDArray NF → List Nat → NF) (hbad : InfiniteSums bad) (big : ℝ) (f : Filter) (norm dr : ℝ) (a : SsimArgs)
    (x y : NDArray NF) (hs : x.shape = y.shape) (p : List Nat) :
    ssimAtX bad big f norm dr a x y p = ssimAtN big f norm dr a x.nums y.nums p := by
  by_cases ht : Spec.Touched f (!a.gaussian) x.nums p ∨ Spec.Touched f (!a.gaussian) y.nums p
  · rw [ssimAtN_touched big f norm dr a x.nums y.nums p ht]
    have var : ∀ z : NDArray NF, Spec.Touched f (!a.gaussian) z.nums p →
        NotFinite (f.applyX bad (!a.gaussian) z p) ∧
        covarianceX norm (f.applyX bad (!a.gaussian) (productX z z) p) (f.applyX bad (!a.gaussian) z p) (f.applyX bad (!a.gaussian) z p) = .nan := by
      intro z hz
      have h1 := applyX_none bad f _ z p (applyN_touched f _ _ p hz)
      have h2 := applyX_none bad f (!a.gaussian) (productX z z) p (by
        rw [nums_product]
        exact applyN_touched f _ _ p ((product_touched f _ _ _ rfl p).2 (.inl hz)))
      rw [h1, h2]
      exact ⟨fun v => hbad.notFinite z p v, covarianceX_nan _ _ _ (fun v => hbad.notFinite _ p v) (fun v => hbad.notFinite z p v)
        (hbad.notNegative _ p (fun i => square_ne _))⟩
    have hu : NotFinite (f.applyX bad (!a.gaussian) x p) ∨ NotFinite (f.applyX bad (!a.gaussian) y p) := ht.imp (fun h => (var x h).1) (fun h => (var y h).1)
    have hv := ht.imp (fun h => (var x h).2) (fun h => (var y h).2)
    unfold ssimAtX
    simp only [luminanceTermX_nan _ _ _ hu, contrastTermX_nan _ _ _ hv, structureTermX_nan _ _ _ _ hv, nanToNum, npPow_one, mul_one]
  · push Not at ht
    have hc : ∀ z : NDArray NF, ¬ Spec.Touched f (!a.gaussian) z.nums p →
        f.applyX bad (!a.gaussian) z p = .fin (f.apply (Spec.numbers z.nums) p) ∧
        f.applyN (!a.gaussian) z.nums p = some (f.apply (Spec.numbers z.nums) p) := fun z hz =>
      ⟨applyX_some bad f _ z p _ (applyN_clean f _ _ p hz), applyN_clean f _ _ p hz⟩
    have hp : ∀ z w : NDArray NF, z.shape = w.shape → ¬ Spec.Touched f (!a.gaussian) z.nums p → ¬ Spec.Touched f (!a.gaussian) w.nums p →
        f.applyX bad (!a.gaussian) (productX z w) p = .fin (f.apply (Spec.numbers (nanProduct z.nums w.nums)) p) ∧
        f.applyN (!a.gaussian) (nanProduct z.nums w.nums) p = some (f.apply (Spec.numbers (nanProduct z.nums w.nums)) p) := by
      intro z w hzw hz hw
      have : ¬ Spec.Touched f (!a.gaussian) (nanProduct z.nums w.nums) p := by
        rw [product_touched f _ z.nums w.nums hzw p]; tauto
      exact ⟨applyX_some bad f _ _ p _ (by rw [nums_product]; exact applyN_clean f _ _ p this), applyN_clean f _ _ p this⟩
    unfold ssimAtX ssimAtN
    simp only [(hc x ht.1).1, (hc x ht.1).2, (hc y ht.2).1, (hc y ht.2).2, (hp x x rfl ht.1 ht.1).1, (hp x x rfl ht.1 ht.1).2,
      (hp y y rfl ht.2 ht.2).1, (hp y y rfl ht.2 ht.2).2, (hp x y hs ht.1 ht.2).1, (hp x y hs ht.1 ht.2).2, nanCovariance]
    simp only [covarianceX, mul, sub, neg, add, ← sub_eq_add_neg, structureTermX_fin, contrastTermX_fin, luminanceTermX_fin]
    rfl

/-- **C195 (partial).** For SSIM infinite pixels are the same as pixels that are not a number, so that C185 says what they do. -/
theorem C195_ssim_partial (bad : NDArray NF → List Nat → NF) (hbad : InfiniteSums bad) (big dr : ℝ) (a : SsimArgs) (x y : NDArray NF)
    (hs : x.shape = y.shape) :
    structuralSimilarityX bad big a dr x y = structuralSimilarityN big a dr x.nums y.nums := by
  have h1 : structuralSimilarityX bad big a dr x y = ssimAround a x.shape (fun m norm => ssimAtX bad big (a.filter m) norm dr a x y) := rfl
  rw [h1, ssimN_around]
  apply ssimAround_congr
  intro m norm p _
  exact ssimAtX_eq bad hbad big _ norm dr a x y hs p

/-- **C195 is false** for SSIM: if every pixel of one image is infinite, the score is that of identical images. -/
theorem C195_ssim_refuted (bad : NDArray NF → List Nat → NF) (hbad : InfiniteSums bad) (big dr : ℝ) (a : SsimArgs) (x : NDArray ℝ)
    (y : NDArray NF) (hs : y.shape = x.shape) (hy : ∀ i, NotFinite (y.get i)) :
    structuralSimilarityX bad big a dr ⟨x.shape, fun i => .fin (x.get i)⟩ y = structuralSimilarity big a dr x x := by
  rw [C195_ssim_partial bad hbad big dr a _ y hs.symm]
  exact C185_ssim_refuted big dr a x y.nums hs (fun i => (num_none _).2 (hy i))

/-! ### Normalization -/

theorem maximum_up (l : List NF) (h : ∃ v ∈ l, v = .nan ∨ v = .pinf) :
    l.foldr NF.maximum .ninf = .nan ∨ l.foldr NF.maximum .ninf = .pinf := by
  induction l with
  | nil => obtain ⟨v, hv, -⟩ := h; cases hv
  | cons a l ih =>
    obtain ⟨v, hv, hn⟩ := h
    rw [List.mem_cons] at hv
    rw [List.foldr_cons]
    rcases hv with rfl | hv
    · generalize List.foldr NF.maximum NF.ninf l = s
      rcases hn with rfl | rfl <;> cases s <;> simp [NF.maximum]
    · rcases ih ⟨v, hv, hn⟩ with e | e <;> rw [e] <;> cases a <;> simp [NF.maximum]

theorem minimum_down (l : List NF) (h : ∃ v ∈ l, v = .nan ∨ v = .ninf) :
    l.foldr NF.minimum .pinf = .nan ∨ l.foldr NF.minimum .pinf = .ninf := by
  induction l with
  | nil => obtain ⟨v, hv, -⟩ := h; cases hv
  | cons a l ih =>
    obtain ⟨v, hv, hn⟩ := h
    rw [List.mem_cons] at hv
    rw [List.foldr_cons]
    rcases hv with rfl | hv
    · generalize List.foldr NF.minimum NF.pinf l = s
      rcases hn with rfl | rfl <;> cases s <;> simp [NF.minimum]
    · rcases ih ⟨v, hv, hn⟩ with e | e <;> rw [e] <;> cases a <;> simp [NF.minimum]

/-- **C195 is false** for normalization: one infinite pixel turns every other pixel into 0 or nan. -/
theorem C195_normalize_refuted (x : NDArray NF) (h : Spec.HasInfinite x) (i : List Nat) :
    (normalizeUnitX x).get i = .nan ∨ (normalizeUnitX x).get i = .fin 0 := by
  obtain ⟨j, hj, hn⟩ := h
  have hm : x.get j ∈ (indices x.shape).map x.get := List.mem_map.2 ⟨j, hj, rfl⟩
  unfold normalizeUnitX
  simp only
  have hD : NotFinite (sub (((indices x.shape).map x.get).foldr NF.maximum .ninf) (((indices x.shape).map x.get).foldr NF.minimum .pinf)) := by
    rw [notFinite_iff] at hn
    apply sub_notFinite
    rcases hn with e | e | e
    · rcases maximum_up _ ⟨_, hm, .inl e⟩ with e | e <;> rw [e] <;> left <;> rw [notFinite_iff] <;> simp
    · rcases maximum_up _ ⟨_, hm, .inr e⟩ with e | e <;> rw [e] <;> left <;> rw [notFinite_iff] <;> simp
    · rcases minimum_down _ ⟨_, hm, .inr e⟩ with e | e <;> rw [e] <;> right <;> rw [notFinite_iff] <;> simp
  generalize sub (((indices x.shape).map x.get).foldr NF.maximum .ninf) (((indices x.shape).map x.get).foldr NF.minimum .pinf) = D at *
  generalize mul (sub (x.get i) (((indices x.shape).map x.get).foldr NF.minimum .pinf)) (.fin (1 - 0)) = N
  by_cases hN : NotFinite N
  · left
    rw [div_notFinite N D hN hD, (add_nan _).2]
  · obtain ⟨w, rfl⟩ := not_notFinite N hN
    rw [notFinite_iff] at hD
    rcases hD with rfl | rfl | rfl
    · left; rw [(div_nan _).1, (add_nan _).2]
    · right; simp [div, add]
    · right; simp [div, add]

/-- Minimum and maximum of finite pixels. -/
theorem extrema_fin (l : List ℝ) (m M : ℝ) (hm : m ∈ l) (hM : M ∈ l) (h : ∀ v ∈ l, m ≤ v ∧ v ≤ M) :
    (l.map NF.fin).foldr NF.minimum .pinf = .fin m ∧ (l.map NF.fin).foldr NF.maximum .ninf = .fin M := by
  have key : ∀ l : List ℝ, l ≠ [] → ∃ a b, (l.map NF.fin).foldr NF.minimum .pinf = .fin a ∧ (l.map NF.fin).foldr NF.maximum .ninf = .fin b ∧
      a ∈ l ∧ b ∈ l ∧ ∀ v ∈ l, a ≤ v ∧ v ≤ b := by
    intro l
    induction l with
    | nil => intro h; exact absurd rfl h
    | cons v l ih =>
      intro _
      by_cases hl : l = []
      · subst hl
        exact ⟨v, v, rfl, rfl, by simp, by simp, by simp⟩
      · obtain ⟨a, b, h1, h2, h3, h4, h5⟩ := ih hl
        refine ⟨min v a, max v b, ?_, ?_, ?_, ?_, ?_⟩
        · rw [List.map_cons, List.foldr_cons, h1]; rfl
        · rw [List.map_cons, List.foldr_cons, h2]; rfl
        · rcases min_choice v a with e | e <;> rw [e] <;> simp [h3]
        · rcases max_choice v b with e | e <;> rw [e] <;> simp [h4]
        · intro w hw
          rw [List.mem_cons] at hw
          rcases hw with rfl | hw
          · exact ⟨min_le_left _ _, le_max_left _ _⟩
          · exact ⟨(min_le_right _ _).trans (h5 w hw).1, (h5 w hw).2.trans (le_max_right _ _)⟩
  obtain ⟨a, b, h1, h2, h3, h4, h5⟩ := key l (List.ne_nil_of_mem hm)
  rw [h1, h2, le_antisymm (h5 m hm).1 (h a h3).1, le_antisymm (h b h4).2 (h5 M hM).2]
  exact ⟨rfl, rfl⟩

/-- **C195 (partial).** Finite images that are not uniform are normalized by the documented formula. -/
theorem C195_normalize_partial (x : NDArray ℝ) (m M : ℝ) (hm : ∃ i ∈ indices x.shape, x.get i = m) (hM : ∃ i ∈ indices x.shape, x.get i = M)
    (h : ∀ i ∈ indices x.shape, m ≤ x.get i ∧ x.get i ≤ M) (hlt : m < M) (i : List Nat) :
    (normalizeUnitX ⟨x.shape, fun i => .fin (x.get i)⟩).get i = .fin ((x.get i - m) / (M - m)) := by
  have e : (indices x.shape).map (fun i => NF.fin (x.get i)) = ((indices x.shape).map x.get).map NF.fin := by rw [List.map_map]; rfl
  obtain ⟨a, ha, rfl⟩ := hm
  obtain ⟨b, hb, rfl⟩ := hM
  obtain ⟨e1, e2⟩ := extrema_fin ((indices x.shape).map x.get) (x.get a) (x.get b) (List.mem_map.2 ⟨a, ha, rfl⟩) (List.mem_map.2 ⟨b, hb, rfl⟩) (by
    intro v hv
    obtain ⟨j, hj, rfl⟩ := List.mem_map.1 hv
    exact h j hj)
  unfold normalizeUnitX
  simp only
  rw [e, e1, e2]
  simp only [sub, neg, mul, add, ← sub_eq_add_neg, sub_zero, mul_one]
  rw [div_positive_fin _ _ (by linarith)]
  simp only [add_zero]

/-- **C195 is false** for SSIM of normalized images: two images with an infinite pixel each get the score of identical images, whatever
their other pixels are. -/
theorem C195_normalized_refuted (bad : NDArray NF → List Nat → NF) (hbad : InfiniteSums bad) (big dr : ℝ) (a : SsimArgs) (x y : NDArray NF)
    (hs : x.shape = y.shape) (hx : Spec.HasInfinite x) (hy : Spec.HasInfinite y) (z : NDArray ℝ) (hz : z.shape = x.shape) :
    structuralSimilarityX bad big a dr (normalizeUnitX x) (normalizeUnitX y) = structuralSimilarity big a dr z z := by
  rw [C195_ssim_partial bad hbad big dr a (normalizeUnitX x) (normalizeUnitX y) hs, ssimN_around, ssim_around]
  have e : z.shape = (normalizeUnitX x).nums.shape := hz
  rw [e]
  apply ssimAround_congr
  intro m norm p hp
  rw [ssimAt_self]
  by_cases ht : Spec.Touched (a.filter m) (!a.gaussian) (normalizeUnitX x).nums p ∨ Spec.Touched (a.filter m) (!a.gaussian) (normalizeUnitX y).nums p
  · exact ssimAtN_touched _ _ _ _ _ _ _ _ ht
  · push Not at ht
    rw [ssimAtN_clean _ _ _ _ _ _ _ hs _ ((mem_cropPositions _ _ _).1 hp).1 ht.1 ht.2]
    have zero : ∀ w : NDArray NF, Spec.HasInfinite w → Spec.numbers (normalizeUnitX w).nums = ⟨w.shape, fun _ => 0⟩ := by
      intro w hw
      unfold Spec.numbers NDArray.nums
      simp only [NDArray.mk.injEq]
      refine ⟨rfl, ?_⟩
      funext i
      rcases C195_normalize_refuted w hw i with e | e <;> rw [e] <;> rfl
    rw [zero x hx, zero y hy, ← hs]
    exact ssimAt_self _ _ _ _ _ _ _

/-! Examples -/

/-- A row of three pixels, the last of which is infinite. -/
def infRow (u v : ℝ) : NDArray NF := ⟨[3], fun i => match i with | [0] => .fin u | [1] => .fin v | _ => .pinf⟩

theorem infRow_infinite (u v : ℝ) : Spec.HasInfinite (infRow u v) := ⟨[2], (by decide : [2] ∈ indices [3]), fun w => by simp [infRow]⟩

example : rmseX (infRow 1 2) (infRow 1 5) = .ok .nan :=
  (C195_rmse_partial (infRow 1 2) (infRow 1 5) rfl (.inl (infRow_infinite 1 2))).1 ⟨[2], by decide, .inr (.inr ⟨rfl, fun w => by simp [infRow]⟩)⟩

example : rmseX (infRow 1 2) ⟨[3], fun _ => .fin 0⟩ = .ok .pinf ∧ psnrX 255 (infRow 1 2) ⟨[3], fun _ => .fin 0⟩ = .ok .ninf := by
  have hu : ¬ Spec.Undefined (infRow 1 2) ⟨[3], fun _ => .fin 0⟩ := by
    rintro ⟨i, hi, h⟩
    have : i = [0] ∨ i = [1] ∨ i = [2] := by
      have h3 : indices (infRow 1 2).shape = [[0], [1], [2]] := by decide
      rw [h3] at hi
      simpa using hi
    rcases this with rfl | rfl | rfl <;> simp [infRow, notFinite_iff] at h
  exact ⟨(C195_rmse_partial (infRow 1 2) ⟨[3], fun _ => .fin 0⟩ rfl (.inl (infRow_infinite 1 2))).2 hu,
    (C195_psnr_partial 255 (infRow 1 2) ⟨[3], fun _ => .fin 0⟩ rfl (.inl (infRow_infinite 1 2)) ⟨[2], by decide, by simp [infRow]⟩).2 hu⟩

example : snrOfX [.fin 1, .pinf, .fin 2] = .ok .nan := C195_snr_partial _ ⟨.pinf, by simp, fun w => by simp⟩

example : cnrOfX [.fin 1] [.fin 0, .pinf] = .ok .nan := (C195_cnr_partial _ _).1 ⟨.pinf, by simp, fun w => by simp⟩ (by simp)

example (u v : ℝ) : (normalizeUnitX (infRow u v)).get [0] = .nan ∨ (normalizeUnitX (infRow u v)).get [0] = .fin 0 :=
  C195_normalize_refuted _ (infRow_infinite u v) _

/-- Two rows that differ in every finite pixel. -/
example (bad : NDArray NF → List Nat → NF) (hbad : InfiniteSums bad) (big : ℝ) (a : SsimArgs) :
    structuralSimilarityX bad big a 1 (normalizeUnitX (infRow 1 2)) (normalizeUnitX (infRow 7 0)) =
      structuralSimilarity big a 1 ⟨[3], fun _ => 0⟩ ⟨[3], fun _ => 0⟩ :=
  C195_normalized_refuted bad hbad big 1 a (infRow 1 2) (infRow 7 0) rfl (infRow_infinite 1 2) (infRow_infinite 7 0) _ rfl

/-- Sums as assumed exist. -/
example : InfiniteSums (fun _ _ => .nan) := ⟨fun _ _ _ => by simp, fun _ _ _ => by simp⟩

/-- The line 1, infinite, 2, 3: with a window of two pixels the infinity enters with the first mean, and the last mean is still not finite. -/
example : NotFinite (runningMean 2 (fun k => if k = 1 then .pinf else .fin k) 2) :=
  ((runningMean_infinite 2 (by norm_num) _ 2).2 ⟨1, by norm_num, fun w => by simp⟩).1

end Viqa
