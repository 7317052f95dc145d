import Verif.Props.DistanceRounded

/-! C198: RMSE and PSNR of integer images do not depend on the order of the additions and on the data type. -/

namespace Viqa

variable {P : Type}

/-- Integers are numbers of the format. -/
theorem round_int (F : FloatFormat) (hp : 1 ≤ F.bits) (hl : F.least + F.bits - 1 ≤ 0) (n : ℤ) (h : |n| ≤ 2 ^ F.bits) :
    F.round (n : ℝ) = n := by
  rcases eq_or_ne n 0 with rfl | hn
  · rw [Int.cast_zero, F.round_zero]
  · rw [F.round_normal, fl_int hp n h]
    refine le_trans (zpow_le_one_of_nonpos₀ (by norm_num) hl) ?_
    rw [← Int.cast_abs]
    exact_mod_cast Int.one_le_abs hn

/-- Sums of integers that are not negative are exact up to `2 ^ 53`. -/
theorem eval_int (o : SumOrder P) (f : P → ℤ) (h0 : ∀ q ∈ o.positions, 0 ≤ f q) (h : (o.positions.map f).sum ≤ 2 ^ 53) :
    o.eval double (fun q => (f q : ℝ)) = ((o.positions.map f).sum : ℤ) := by
  induction o with
  | leaf q => simp [SumOrder.eval, SumOrder.positions]
  | node l r ihl ihr =>
    simp only [SumOrder.positions, List.map_append, List.sum_append] at h ⊢
    have hl0 : ∀ q ∈ l.positions, 0 ≤ f q := fun q hq => h0 q (by simp [SumOrder.positions, hq])
    have hr0 : ∀ q ∈ r.positions, 0 ≤ f q := fun q hq => h0 q (by simp [SumOrder.positions, hq])
    have hl : 0 ≤ (l.positions.map f).sum := List.sum_nonneg (fun v hv => by
      obtain ⟨q, hq, rfl⟩ := List.mem_map.mp hv; exact hl0 q hq)
    have hr : 0 ≤ (r.positions.map f).sum := List.sum_nonneg (fun v hv => by
      obtain ⟨q, hq, rfl⟩ := List.mem_map.mp hv; exact hr0 q hq)
    show double.round (l.eval double _ + r.eval double _) = _
    rw [ihl hl0 (by omega), ihr hr0 (by omega), ← Int.cast_add]
    exact round_int double (by decide) (by decide) _ (by rw [abs_of_nonneg (by omega)]; exact h)

theorem list_sum_le (l : List P) (f : P → ℤ) (b : ℤ) (h : ∀ q ∈ l, f q ≤ b) : (l.map f).sum ≤ l.length * b := by
  induction l with
  | nil => simp
  | cons q l ih =>
    have h1 := h q (by simp)
    have h2 := ih (fun p hp => h p (by simp [hp]))
    simp only [List.map_cons, List.sum_cons, List.length_cons]
    push_cast
    linarith

/-- The mean squared error of integer images: the only rounding is that of the quotient. -/
theorem mse_integer (F : FloatFormat) (hF : F = single ∨ F = double) (o : SumOrder P) (x y : P → ℤ) (d : ℤ)
    (hd : ∀ q ∈ o.positions, |x q - y q| ≤ d) (hd2 : d ^ 2 ≤ 2 ^ F.bits) (hN : o.positions.length * d ^ 2 ≤ 2 ^ 53) :
    mseRounded F o (fun q => (x q : ℝ)) (fun q => (y q : ℝ)) =
      double.round (((o.positions.map (fun q => (x q - y q) ^ 2)).sum : ℤ) / o.positions.length) := by
  have hsq : ∀ q ∈ o.positions, (x q - y q) ^ 2 ≤ d ^ 2 := fun q hq => by
    rw [← sq_abs (x q - y q)]; exact pow_le_pow_left₀ (abs_nonneg _) (hd q hq) 2
  have hbits : 1 ≤ F.bits ∧ F.least + F.bits - 1 ≤ 0 := by rcases hF with rfl | rfl <;> decide
  have hleaf : ∀ q ∈ o.positions, F.round (F.round ((x q : ℝ) - y q) * F.round ((x q : ℝ) - y q)) = ((x q - y q) ^ 2 : ℤ) := by
    intro q hq
    have h1 := hsq q hq
    have h2 : |x q - y q| ≤ 2 ^ F.bits := by
      refine le_trans ?_ (le_trans h1 hd2)
      rw [← sq_abs]
      rcases (abs_nonneg (x q - y q)).eq_or_lt' with h | h
      · rw [h]; norm_num
      · nlinarith
    rw [← Int.cast_sub, round_int F hbits.1 hbits.2 _ h2, ← Int.cast_mul, round_int F hbits.1 hbits.2 _ (by
      rw [abs_mul_self, ← sq]; exact h1.trans hd2), sq]
  have heval : ∀ (t : SumOrder P) (f g : P → ℝ), (∀ q ∈ t.positions, f q = g q) → t.eval double f = t.eval double g := by
    intro t f g
    induction t with
    | leaf q => intro h; exact h q (by simp [SumOrder.positions])
    | node l r ihl ihr =>
      intro h
      show double.round (l.eval double f + r.eval double f) = double.round (l.eval double g + r.eval double g)
      rw [ihl (fun q hq => h q (by simp [SumOrder.positions, hq])), ihr (fun q hq => h q (by simp [SumOrder.positions, hq]))]
  unfold mseRounded
  rw [heval o _ _ hleaf, eval_int o (fun q => (x q - y q) ^ 2) (fun q _ => sq_nonneg _)
    ((list_sum_le _ _ _ hsq).trans hN)]

/-- **C198, partial**: RMSE of integer images is the same for every order in which the pixels are added, and whether the
pixels are stored as integers (computed in float64) or as floating point numbers of the format `F`, if the greatest
difference `d` and the number of pixels are small enough: in float64 all images of 8 bits with up to 2^37 pixels and of
16 bits with up to 2^21 pixels, in float32 all images of 8 bits. Missing: larger volumes of 16 bits
(`C198_order_refuted`), 16 bits in float32 (`C198_type_refuted`). -/
theorem C198_rmse_partial (F F' : FloatFormat) (hF : F = single ∨ F = double) (hF' : F' = single ∨ F' = double)
    (o o' : SumOrder P) (hperm : o.positions.Perm o'.positions) (x y : P → ℤ) (d : ℤ)
    (hd : ∀ q ∈ o.positions, |x q - y q| ≤ d) (hd2 : d ^ 2 ≤ 2 ^ F.bits) (hd2' : d ^ 2 ≤ 2 ^ F'.bits)
    (hN : o.positions.length * d ^ 2 ≤ 2 ^ 53) :
    rmseRounded F o (fun q => (x q : ℝ)) (fun q => (y q : ℝ)) = rmseRounded F' o' (fun q => (x q : ℝ)) (fun q => (y q : ℝ)) := by
  unfold rmseRounded
  rw [mse_integer F hF o x y d hd hd2 hN,
    mse_integer F' hF' o' x y d (fun q hq => hd q (hperm.mem_iff.mpr hq)) hd2' (by rw [← hperm.length_eq]; exact hN),
    (hperm.map _).sum_eq, hperm.length_eq]

/-- **C198, partial**: PSNR under the same conditions. -/
theorem C198_psnr_partial (log10 : ℝ → ℝ) (dr : ℝ) (F F' : FloatFormat) (hF : F = single ∨ F = double)
    (hF' : F' = single ∨ F' = double) (o o' : SumOrder P) (hperm : o.positions.Perm o'.positions) (x y : P → ℤ) (d : ℤ)
    (hd : ∀ q ∈ o.positions, |x q - y q| ≤ d) (hd2 : d ^ 2 ≤ 2 ^ F.bits) (hd2' : d ^ 2 ≤ 2 ^ F'.bits)
    (hN : o.positions.length * d ^ 2 ≤ 2 ^ 53) :
    psnrRounded log10 F o dr (fun q => (x q : ℝ)) (fun q => (y q : ℝ)) =
      psnrRounded log10 F' o' dr (fun q => (x q : ℝ)) (fun q => (y q : ℝ)) := by
  have hm : mseRounded F o (fun q => (x q : ℝ)) (fun q => (y q : ℝ)) = mseRounded F' o' (fun q => (x q : ℝ)) (fun q => (y q : ℝ)) := by
    rw [mse_integer F hF o x y d hd hd2 hN,
      mse_integer F' hF' o' x y d (fun q hq => hd q (hperm.mem_iff.mpr hq)) hd2' (by rw [← hperm.length_eq]; exact hN),
      (hperm.map _).sum_eq, hperm.length_eq]
  have hall : (∀ q ∈ o.positions, (x q : ℝ) = y q) ↔ ∀ q ∈ o'.positions, (x q : ℝ) = y q :=
    ⟨fun h q hq => h q (hperm.mem_iff.mpr hq), fun h q hq => h q (hperm.mem_iff.mp hq)⟩
  unfold psnrRounded
  simp only [hm, hall]

/-- **C198, partial**: RMSE of integer images of `b` bits is the root of the mean squared difference up to two roundings. -/
theorem C198_exact_partial (b : ℕ) (o : SumOrder P) (x y : P → ℤ) (hx : ∀ q ∈ o.positions, 0 ≤ x q ∧ x q < 2 ^ b)
    (hy : ∀ q ∈ o.positions, 0 ≤ y q ∧ y q < 2 ^ b) (hb : 2 * b ≤ 53) (hN : o.positions.length ≤ 2 ^ (53 - 2 * b)) :
    rmseRounded double o (fun q => (x q : ℝ)) (fun q => (y q : ℝ)) =
      double.round (Real.sqrt (double.round
        (((o.positions.map (fun q => (x q - y q) ^ 2)).sum : ℤ) / o.positions.length))) := by
  unfold rmseRounded
  rw [mse_integer double (.inr rfl) o x y (2 ^ b)]
  · intro q hq
    have := hx q hq
    have := hy q hq
    rw [abs_le]
    constructor <;> linarith
  · rw [← pow_mul]
    exact pow_le_pow_right₀ (by norm_num) (by show b * 2 ≤ 53; omega)
  · rw [← pow_mul]
    calc (o.positions.length : ℤ) * 2 ^ (b * 2) ≤ 2 ^ (53 - 2 * b) * 2 ^ (b * 2) := by
          apply mul_le_mul_of_nonneg_right _ (by positivity)
          exact_mod_cast hN
      _ = 2 ^ 53 := by rw [← pow_add]; congr 1; omega

/-! ### Orders of a large volume -/

/-- Pixels `s` to `s + 2 ^ n - 1` added in pairs. -/
def pairwise : ℕ → ℕ → SumOrder ℕ
  | 0, s => .leaf s
  | n + 1, s => .node (pairwise n s) (pairwise n (s + 2 ^ n))

/-- Pixels `s` to `s + k - 1` added one by one to another sum. -/
def addedSingly (t : SumOrder ℕ) (s : ℕ) : ℕ → SumOrder ℕ
  | 0 => t
  | k + 1 => .node (addedSingly t s k) (.leaf (s + k))

theorem pairwise_positions (n : ℕ) : ∀ s, (pairwise n s).positions = List.range' s (2 ^ n) := by
  induction n with
  | zero => intro s; rfl
  | succ n ih =>
    intro s
    show (pairwise n s).positions ++ (pairwise n (s + 2 ^ n)).positions = _
    rw [ih, ih, pow_succ, mul_two, ← List.range'_append]
    simp

theorem addedSingly_positions (t : SumOrder ℕ) (s : ℕ) (k : ℕ) : (addedSingly t s k).positions = t.positions ++ List.range' s k := by
  induction k with
  | zero => simp [addedSingly]
  | succ k ih =>
    show (addedSingly t s k).positions ++ [s + k] = _
    rw [ih, List.append_assoc, List.range'_concat]
    simp

/-- Pairwise sums of equal integers. -/
theorem pairwise_eval (f : ℕ → ℝ) (v : ℕ) (n : ℕ) : ∀ s, (∀ q, s ≤ q → q < s + 2 ^ n → f q = v) → 2 ^ n * v ≤ 2 ^ 53 →
    (pairwise n s).eval double f = ((2 ^ n * v : ℕ) : ℝ) := by
  induction n with
  | zero => intro s h _; show f s = _; rw [h s le_rfl (by simp)]; simp
  | succ n ih =>
    intro s h hv
    have hv' : 2 ^ n * v + 2 ^ n * v ≤ 2 ^ 53 := by rw [pow_succ] at hv; linarith
    show double.round ((pairwise n s).eval double f + (pairwise n (s + 2 ^ n)).eval double f) = _
    rw [ih s (fun q h1 h2 => h q h1 (by rw [pow_succ]; omega)) (by omega),
      ih (s + 2 ^ n) (fun q h1 h2 => h q (by omega) (by rw [pow_succ]; omega)) (by omega)]
    have := round_int double (by decide) (by decide) ((2 ^ n * v + 2 ^ n * v : ℕ) : ℤ) (by
      rw [abs_of_nonneg (by positivity)]; exact_mod_cast hv')
    push_cast at this ⊢
    rw [this]
    ring

/-- The squares of the reference: `2 ^ 23` bright pixels and `1024` nearly black ones, a volume of 16 bits. -/
def brightVolume (q : ℕ) : ℤ := if q < 2 ^ 23 then 32768 else 1

theorem lost_one : double.round ((2 : ℝ) ^ 53 + 1) = 2 ^ 53 := by
  rw [double.round_normal]
  · have h : fl 53 ((2 : ℚ) ^ 53 + 1) = 2 ^ 53 := by decide +kernel
    have h2 := fl_ratCast 53 ((2 : ℚ) ^ 53 + 1)
    rw [h] at h2
    push_cast at h2
    exact h2.symm
  · rw [abs_of_nonneg (by positivity)]
    refine le_trans (zpow_le_one_of_nonpos₀ (by norm_num) (by decide)) (by norm_num)

/-- The two orders: the nearly black pixels added one by one, or among themselves first. -/
def singlyOrder : SumOrder ℕ := addedSingly (pairwise 23 0) (2 ^ 23) 1024
def pairwiseOrder : SumOrder ℕ := .node (pairwise 23 0) (pairwise 10 (2 ^ 23))

theorem orders_same : singlyOrder.positions = List.range' 0 8389632 ∧ pairwiseOrder.positions = List.range' 0 8389632 := by
  have h : List.range' 0 (2 ^ 23) ++ List.range' (2 ^ 23) 1024 = List.range' 0 8389632 := by
    rw [show (8389632 : ℕ) = 2 ^ 23 + 1024 by norm_num, ← List.range'_append]
    simp
  constructor
  · rw [singlyOrder, addedSingly_positions, pairwise_positions, h]
  · show (pairwise 23 0).positions ++ (pairwise 10 (2 ^ 23)).positions = _
    rw [pairwise_positions, pairwise_positions]
    exact h

/-- Squared differences from a black image. -/
noncomputable def brightSquares (q : ℕ) : ℝ :=
  double.round (double.round ((brightVolume q : ℝ) - ((fun _ => 0 : ℕ → ℤ) q : ℝ)) * double.round ((brightVolume q : ℝ) - ((fun _ => 0 : ℕ → ℤ) q : ℝ)))

theorem brightSquares_eq (q : ℕ) : brightSquares q = ((if q < 2 ^ 23 then 1073741824 else 1 : ℕ) : ℝ) := by
  unfold brightSquares
  have h := round_int double (by decide) (by decide) (brightVolume q) (by unfold brightVolume; split <;> simp [double])
  have h2 := round_int double (by decide) (by decide) (brightVolume q * brightVolume q) (by unfold brightVolume; split <;> simp [double])
  rw [Int.cast_zero, sub_zero, h, ← Int.cast_mul, h2]
  unfold brightVolume
  split <;> norm_num

theorem bright_sum : (pairwise 23 0).eval double brightSquares = 2 ^ 53 := by
  rw [pairwise_eval brightSquares 1073741824 23 0 (fun q _ hq => by rw [brightSquares_eq, if_pos (by simpa using hq)]) (by norm_num)]
  norm_num

theorem addedSingly_eval (k : ℕ) : (addedSingly (pairwise 23 0) (2 ^ 23) k).eval double brightSquares = 2 ^ 53 := by
  induction k with
  | zero => exact bright_sum
  | succ k ih =>
    show double.round ((addedSingly (pairwise 23 0) (2 ^ 23) k).eval double brightSquares + brightSquares (2 ^ 23 + k)) = _
    rw [ih, brightSquares_eq, if_neg (by omega), Nat.cast_one, lost_one]

theorem pairwiseOrder_eval : pairwiseOrder.eval double brightSquares = 2 ^ 53 + 1024 := by
  show double.round ((pairwise 23 0).eval double brightSquares + (pairwise 10 (2 ^ 23)).eval double brightSquares) = _
  rw [bright_sum, pairwise_eval brightSquares 1 10 (2 ^ 23) (fun q h1 _ => by rw [brightSquares_eq, if_neg (by omega)]) (by norm_num),
    double.round_normal]
  · have h : fl 53 ((2 : ℚ) ^ 53 + 1024) = 2 ^ 53 + 1024 := by decide +kernel
    have h2 := fl_ratCast 53 ((2 : ℚ) ^ 53 + 1024)
    rw [h] at h2
    push_cast at h2 ⊢
    exact h2.symm
  · refine le_trans (zpow_le_one_of_nonpos₀ (by norm_num) (by decide)) ?_
    rw [abs_of_nonneg (by positivity)]
    norm_num

/-- Rounding of a rational number that is not small. -/
theorem round_rat (x v : ℚ) (hx : 1 ≤ x) (h : fl 53 x = v) : double.round (x : ℝ) = v := by
  rw [double.round_normal, ← fl_ratCast]
  · exact congrArg _ h
  · refine le_trans (zpow_le_one_of_nonpos₀ (by norm_num) (by decide)) ?_
    have : (1 : ℝ) ≤ x := by exact_mod_cast hx
    exact this.trans (le_abs_self _)

/-- **C198, refuted** for volumes of 16 bits with more than 2^21 pixels (here 8389632, as in a cube of 204 pixels): RMSE depends
on the order of the additions. -/
theorem C198_order_refuted :
    singlyOrder.positions.Perm pairwiseOrder.positions ∧ singlyOrder.positions.Nodup ∧
    (∀ q, 0 ≤ brightVolume q ∧ brightVolume q < 2 ^ 16) ∧
    rmseRounded double singlyOrder (fun q => (brightVolume q : ℝ)) (fun q => ((fun _ => 0 : ℕ → ℤ) q : ℝ)) <
      rmseRounded double pairwiseOrder (fun q => (brightVolume q : ℝ)) (fun q => ((fun _ => 0 : ℕ → ℤ) q : ℝ)) := by
  obtain ⟨h1, h2⟩ := orders_same
  refine ⟨by rw [h1, h2], by rw [h1]; exact List.nodup_range', fun q => by unfold brightVolume; split <;> norm_num, ?_⟩
  have ha : mseRounded double pairwiseOrder (fun q => (brightVolume q : ℝ)) (fun q => ((fun _ => 0 : ℕ → ℤ) q : ℝ)) = ((4503049938657793 / 4194304 : ℚ) : ℝ) := by
    show double.round (pairwiseOrder.eval double brightSquares / pairwiseOrder.positions.length) = _
    rw [pairwiseOrder_eval, h2, List.length_range']
    have := round_rat ((2 ^ 53 + 1024) / 8389632) (4503049938657793 / 4194304) (by norm_num) (by decide +kernel)
    push_cast at this ⊢
    exact this
  have hb : mseRounded double singlyOrder (fun q => (brightVolume q : ℝ)) (fun q => ((fun _ => 0 : ℕ → ℤ) q : ℝ)) = ((4503049938657281 / 4194304 : ℚ) : ℝ) := by
    show double.round (singlyOrder.eval double brightSquares / singlyOrder.positions.length) = _
    rw [show singlyOrder.eval double brightSquares = 2 ^ 53 from addedSingly_eval 1024, h1, List.length_range']
    have := round_rat (2 ^ 53 / 8389632) (4503049938657281 / 4194304) (by norm_num) (by decide +kernel)
    push_cast at this ⊢
    exact this
  have r1 : double.round ((140728899207090 / 2 ^ 32 : ℚ) : ℝ) = ((140728899207090 / 2 ^ 32 : ℚ) : ℝ) :=
    round_rat (140728899207090 / 2 ^ 32) (140728899207090 / 2 ^ 32) (by norm_num) (by decide +kernel)
  have r2 : double.round ((140728899207094 / 2 ^ 32 : ℚ) : ℝ) = ((140728899207094 / 2 ^ 32 : ℚ) : ℝ) :=
    round_rat (140728899207094 / 2 ^ 32) (140728899207094 / 2 ^ 32) (by norm_num) (by decide +kernel)
  unfold rmseRounded
  rw [ha, hb]
  calc double.round (Real.sqrt ((4503049938657281 / 4194304 : ℚ) : ℝ)) ≤ double.round ((140728899207090 / 2 ^ 32 : ℚ) : ℝ) := by
        apply double.round_mono (by decide)
        rw [Real.sqrt_le_left (by norm_num)]
        norm_num
    _ < double.round ((140728899207094 / 2 ^ 32 : ℚ) : ℝ) := by rw [r1, r2]; norm_num
    _ ≤ double.round (Real.sqrt ((4503049938657793 / 4194304 : ℚ) : ℝ)) := by
        apply double.round_mono (by decide)
        apply Real.le_sqrt_of_sq_le
        norm_num

/-- **C198, refuted** for images of 16 bits in float32: a single pixel that differs by 4097 gives another RMSE than as
integers. -/
theorem C198_type_refuted :
    rmseRounded double (.leaf ()) (fun _ => ((4097 : ℤ) : ℝ)) (fun _ => ((0 : ℤ) : ℝ)) = 4097 ∧
    rmseRounded single (.leaf ()) (fun _ => ((4097 : ℤ) : ℝ)) (fun _ => ((0 : ℤ) : ℝ)) < 4097 := by
  constructor
  · unfold rmseRounded
    rw [mse_integer double (.inr rfl) (.leaf ()) (fun _ => 4097) (fun _ => 0) 4097 (by simp) (by decide) (by decide)]
    have h1 := round_rat 16785409 16785409 (by norm_num) (by decide +kernel)
    have h2 := round_rat 4097 4097 (by norm_num) (by decide +kernel)
    push_cast at h1 h2
    simp only [SumOrder.positions, List.map_cons, List.map_nil, List.sum_cons, List.sum_nil, List.length_singleton]
    norm_num
    rw [h1, show (16785409 : ℝ) = 4097 ^ 2 by norm_num, Real.sqrt_sq (by norm_num), h2]
  · have h1 : single.round ((4097 : ℤ) : ℝ) = ((4097 : ℤ) : ℝ) := round_int single (by decide) (by decide) 4097 (by decide)
    have h2 : single.round (16785409 : ℝ) = 16785408 := by
      rw [single.round_normal]
      · have h : fl 24 (16785409 : ℚ) = 16785408 := by decide +kernel
        have h2 := fl_ratCast 24 (16785409 : ℚ)
        rw [h] at h2
        push_cast at h2
        exact h2.symm
      · refine le_trans (zpow_le_one_of_nonpos₀ (by norm_num) (by decide)) (by norm_num)
    have h3 := round_rat 16785408 16785408 (by norm_num) (by decide +kernel)
    have h4 := round_rat (4097 - 1 / 2 ^ 14) (4097 - 1 / 2 ^ 14) (by norm_num) (by decide +kernel)
    push_cast at h3 h4
    have hm : mseRounded single (.leaf ()) (fun _ => ((4097 : ℤ) : ℝ)) (fun _ => ((0 : ℤ) : ℝ)) = 16785408 := by
      show double.round (single.round (single.round (((4097 : ℤ) : ℝ) - ((0 : ℤ) : ℝ)) * single.round (((4097 : ℤ) : ℝ) - ((0 : ℤ) : ℝ))) / ((1 : ℕ) : ℝ)) = _
      rw [Int.cast_zero, sub_zero, h1, ← Int.cast_mul, show ((4097 * 4097 : ℤ) : ℝ) = 16785409 by norm_num, h2, Nat.cast_one, div_one, h3]
    unfold rmseRounded
    rw [hm]
    calc double.round (Real.sqrt 16785408) ≤ double.round (4097 - 1 / 2 ^ 14) := by
          apply double.round_mono (by decide)
          rw [Real.sqrt_le_left (by norm_num)]
          norm_num
      _ < 4097 := by rw [h4]; norm_num

/-- Four pixels of 16 bits in two orders. -/
example (x y : Fin 4 → ℤ) (hx : ∀ q, 0 ≤ x q ∧ x q < 65536) (hy : ∀ q, 0 ≤ y q ∧ y q < 65536) :
    rmseRounded double (.node (.node (.leaf 0) (.leaf 1)) (.node (.leaf 2) (.leaf 3))) (fun q => (x q : ℝ)) (fun q => (y q : ℝ)) =
    rmseRounded double (.node (.leaf 3) (.node (.leaf 1) (.node (.leaf 0) (.leaf 2)))) (fun q => (x q : ℝ)) (fun q => (y q : ℝ)) := by
  refine C198_rmse_partial double double (.inr rfl) (.inr rfl) _ _ (by decide) x y 65536 (fun q _ => ?_) (by decide) (by decide) (by decide)
  have := hx q
  have := hy q
  rw [abs_le]
  constructor <;> linarith

/-- Images of 8 bits, as integers and as float32. -/
example (x y : Fin 2 → ℤ) (hx : ∀ q, 0 ≤ x q ∧ x q < 256) (hy : ∀ q, 0 ≤ y q ∧ y q < 256) :
    rmseRounded double (.node (.leaf 0) (.leaf 1)) (fun q => (x q : ℝ)) (fun q => (y q : ℝ)) =
    rmseRounded single (.node (.leaf 1) (.leaf 0)) (fun q => (x q : ℝ)) (fun q => (y q : ℝ)) := by
  refine C198_rmse_partial double single (.inr rfl) (.inl rfl) _ _ (by decide) x y 256 (fun q _ => ?_) (by decide) (by decide) (by decide)
  have := hx q
  have := hy q
  rw [abs_le]
  constructor <;> linarith

end Viqa
