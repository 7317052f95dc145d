import Verif.Lemmas.Underflow
import Verif.Props.NoiseAccuracy

/-!
RMSE and PSNR in floating point arithmetic: C144 to C146.
-/

namespace Viqa

section
variable {P : Type}

theorem single_bits : 1 ≤ single.bits := by decide
theorem double_bits : 1 ≤ double.bits := by decide

theorem SumOrder.eval_nonneg (F : FloatFormat) (hp : 1 ≤ F.bits) (f : P → ℝ) (o : SumOrder P)
    (h : ∀ q ∈ o.positions, 0 ≤ f q) : 0 ≤ o.eval F f := by
  induction o with
  | leaf q => exact h q (by simp [positions])
  | node l r hl hr =>
    simp only [positions, List.mem_append] at h
    exact F.round_nonneg hp (add_nonneg (hl fun q hq => h q (.inl hq)) (hr fun q hq => h q (.inr hq)))

theorem SumOrder.eval_mono (F : FloatFormat) (hp : 1 ≤ F.bits) (f g : P → ℝ) (o : SumOrder P)
    (h : ∀ q ∈ o.positions, f q ≤ g q) : o.eval F f ≤ o.eval F g := by
  induction o with
  | leaf q => exact h q (by simp [positions])
  | node l r hl hr =>
    simp only [positions, List.mem_append] at h
    exact F.round_mono hp (add_le_add (hl fun q hq => h q (.inl hq)) (hr fun q hq => h q (.inr hq)))

theorem SumOrder.eval_zero (F : FloatFormat) (f : P → ℝ) (o : SumOrder P)
    (h : ∀ q ∈ o.positions, f q = 0) : o.eval F f = 0 := by
  induction o with
  | leaf q => exact h q (by simp [positions])
  | node l r hl hr =>
    simp only [positions, List.mem_append] at h
    simp only [eval]
    rw [hl fun q hq => h q (.inl hq), hr fun q hq => h q (.inr hq), add_zero, F.round_zero]

/-- A sum is at least each of its terms, up to rounding to a power of two. -/
theorem SumOrder.le_eval (F : FloatFormat) (hp : 1 ≤ F.bits) (f : P → ℝ) (o : SumOrder P) (k : ℤ) (hk : F.least ≤ k)
    (h : ∀ q ∈ o.positions, 0 ≤ f q) (q : P) (hq : q ∈ o.positions) (hf : 2 ^ k ≤ f q) : 2 ^ k ≤ o.eval F f := by
  induction o with
  | leaf q' => simp only [positions, List.mem_singleton] at hq; subst hq; exact hf
  | node l r hl hr =>
    simp only [positions, List.mem_append] at h hq
    have nl := eval_nonneg F hp f l fun q hq => h q (.inl hq)
    have nr := eval_nonneg F hp f r fun q hq => h q (.inr hq)
    apply F.le_round hp k hk
    rcases hq with hq | hq
    · linarith [hl (fun q hq => h q (.inl hq)) hq]
    · linarith [hr (fun q hq => h q (.inr hq)) hq]

theorem SumOrder.positions_pos (o : SumOrder P) : 0 < o.positions.length := by
  induction o with
  | leaf q => simp [positions]
  | node l r hl hr => simp only [positions, List.length_append]; omega

/-- The square of a difference as computed. -/
noncomputable def squareRounded (F : FloatFormat) (d : ℝ) : ℝ := F.round (F.round d * F.round d)

theorem squareRounded_nonneg (F : FloatFormat) (hp : 1 ≤ F.bits) (d : ℝ) : 0 ≤ squareRounded F d :=
  F.round_nonneg hp (mul_self_nonneg _)

theorem squareRounded_neg (F : FloatFormat) (d : ℝ) : squareRounded F (-d) = squareRounded F d := by
  unfold squareRounded
  rw [F.round_neg, neg_mul_neg]

theorem squareRounded_zero (F : FloatFormat) : squareRounded F 0 = 0 := by
  unfold squareRounded
  rw [F.round_zero, mul_zero, F.round_zero]

theorem squareRounded_mono (F : FloatFormat) (hp : 1 ≤ F.bits) {d e : ℝ} (h : |d| ≤ |e|) :
    squareRounded F d ≤ squareRounded F e := by
  have key : ∀ x : ℝ, squareRounded F x = squareRounded F |x| := by
    intro x
    rcases abs_choice x with h | h <;> rw [h]
    exact (squareRounded_neg F x).symm
  rw [key d, key e]
  have h1 := F.round_mono hp h
  have h2 := F.round_nonneg hp (abs_nonneg d)
  exact F.round_mono hp (mul_le_mul h1 h1 h2 (h2.trans h1))

theorem mseRounded_eq (F : FloatFormat) (o : SumOrder P) (x y : P → ℝ) :
    mseRounded F o x y = double.round (o.eval double (fun q => squareRounded F (x q - y q)) / o.positions.length) := rfl

theorem mseRounded_nonneg (F : FloatFormat) (hp : 1 ≤ F.bits) (o : SumOrder P) (x y : P → ℝ) : 0 ≤ mseRounded F o x y := by
  rw [mseRounded_eq]
  exact double.round_nonneg double_bits (div_nonneg
    (o.eval_nonneg double double_bits _ fun q _ => squareRounded_nonneg F hp _) (Nat.cast_nonneg _))

/-! ### C144 -/

/-- **C144.** RMSE of identical images is 0. -/
theorem C144_identical (F : FloatFormat) (o : SumOrder P) (x y : P → ℝ) (h : ∀ q ∈ o.positions, x q = y q) :
    rmseRounded F o x y = 0 := by
  have : mseRounded F o x y = 0 := by
    rw [mseRounded_eq, o.eval_zero, zero_div, double.round_zero]
    intro q hq
    rw [h q hq, sub_self, squareRounded_zero]
  unfold rmseRounded
  rw [this, Real.sqrt_zero, double.round_zero]

example : rmseRounded single (.node (.leaf true) (.leaf false)) (fun q => if q then 0.1 else 7) (fun q => if q then 0.1 else 7) = 0 :=
  C144_identical _ _ _ _ fun _ _ => rfl

/-- **C144.** Exchanging the images changes neither RMSE nor PSNR, in no bit. -/
theorem C144_symmetric (log10 : ℝ → ℝ) (F : FloatFormat) (o : SumOrder P) (dr : ℝ) (x y : P → ℝ) :
    rmseRounded F o x y = rmseRounded F o y x ∧ psnrRounded log10 F o dr x y = psnrRounded log10 F o dr y x := by
  have h : mseRounded F o x y = mseRounded F o y x := by
    rw [mseRounded_eq, mseRounded_eq]
    congr 2
    congr 1
    funext q
    rw [← squareRounded_neg, neg_sub]
  have hq : (∀ q ∈ o.positions, x q = y q) ↔ (∀ q ∈ o.positions, y q = x q) :=
    forall_congr' fun q => forall_congr' fun _ => eq_comm
  constructor
  · unfold rmseRounded; rw [h]
  · unfold psnrRounded; rw [h]; simp only [hq]

example : rmseRounded single (.node (.leaf true) (.leaf false)) (fun q => if q then 0.1 else 7) (fun q => if q then 0.3 else 1) =
    rmseRounded single (.node (.leaf true) (.leaf false)) (fun q => if q then 0.3 else 1) (fun q => if q then 0.1 else 7) :=
  (C144_symmetric id single _ 255 _ _).1

/-- The claim: RMSE is 0, and PSNR infinite, only for identical images. -/
def OnlyIdentical (F : FloatFormat) (ok : ℝ → Prop) : Prop :=
  ∀ (P : Type) (log10 : ℝ → ℝ) (o : SumOrder P) (dr : ℝ) (x y : P → ℝ), o.positions.length ≤ 2 ^ 60 →
    (∀ q ∈ o.positions, Representable F.bits (x q) ∧ Representable F.bits (y q)) →
    (∀ q ∈ o.positions, ok (x q - y q)) →
    (rmseRounded F o x y = 0 → ∀ q ∈ o.positions, x q = y q) ∧
    (psnrRounded log10 F o dr x y = .infinite → ∀ q ∈ o.positions, x q = y q)

/-- A pixel that differs by at least `2 ^ -74` is seen. -/
theorem mseRounded_pos (F : FloatFormat) (hF : F = single ∨ F = double) (o : SumOrder P) (x y : P → ℝ)
    (hn : o.positions.length ≤ 2 ^ 60) (q : P) (hq : q ∈ o.positions) (h : 2 ^ (-74 : ℤ) ≤ |x q - y q|) :
    2 ^ (-208 : ℤ) ≤ mseRounded F o x y := by
  have hp : 1 ≤ F.bits := by rcases hF with rfl | rfl <;> decide
  have hl : F.least ≤ -148 := by rcases hF with rfl | rfl <;> decide
  have hsq : (2 : ℝ) ^ (-148 : ℤ) ≤ squareRounded F (x q - y q) := by
    apply F.le_round hp _ hl
    have h1 : (2 : ℝ) ^ (-74 : ℤ) ≤ |F.round (x q - y q)| := by
      rcases abs_choice (x q - y q) with ha | ha
      · rw [ha] at h
        exact (F.le_round hp _ (by omega) h).trans (le_abs_self _)
      · rw [ha] at h
        have := F.le_round hp (-74) (by omega) h
        rw [F.round_neg] at this
        exact this.trans (neg_le_abs _)
    rw [← abs_mul_abs_self]
    calc (2 : ℝ) ^ (-148 : ℤ) = 2 ^ (-74 : ℤ) * 2 ^ (-74 : ℤ) := by rw [← zpow_add₀ (by norm_num)]; norm_num
      _ ≤ _ := mul_le_mul h1 h1 (by positivity) (abs_nonneg _)
  have hsum := o.le_eval double double_bits (fun q => squareRounded F (x q - y q)) (-148) (by decide)
    (fun q _ => squareRounded_nonneg F hp _) q hq hsq
  rw [mseRounded_eq]
  apply double.le_round double_bits _ (by decide)
  have hpos : (0 : ℝ) < o.positions.length := by exact_mod_cast o.positions_pos
  rw [le_div_iff₀ hpos]
  have hn' : (o.positions.length : ℝ) ≤ 2 ^ (60 : ℤ) := by
    rw [show ((60 : ℤ)) = ((60 : ℕ) : ℤ) from rfl, zpow_natCast]
    exact_mod_cast hn
  calc (2 : ℝ) ^ (-208 : ℤ) * o.positions.length ≤ 2 ^ (-208 : ℤ) * 2 ^ (60 : ℤ) :=
        mul_le_mul_of_nonneg_left hn' (by positivity)
    _ = 2 ^ (-148 : ℤ) := by rw [← zpow_add₀ (by norm_num)]; norm_num
    _ ≤ _ := hsum

/-- **C144, partial.** RMSE is 0 and PSNR infinite only for identical images, if pixels that differ do so by at least
`2 ^ -74` (about 5e-23). Missing: smaller differences, see `C144_refuted`. -/
theorem C144_only_identical_partial (F : FloatFormat) (hF : F = single ∨ F = double) :
    OnlyIdentical F (fun d => d = 0 ∨ 2 ^ (-74 : ℤ) ≤ |d|) := by
  intro P log10 o dr x y hn _ hok
  have key : (¬ ∀ q ∈ o.positions, x q = y q) → 2 ^ (-208 : ℤ) ≤ mseRounded F o x y := by
    intro h
    push Not at h
    obtain ⟨q, hq, hne⟩ := h
    rcases hok q hq with h | h
    · exact absurd (sub_eq_zero.1 h) hne
    · exact mseRounded_pos F hF o x y hn q hq h
  constructor
  · intro h0
    by_contra h
    have h1 := key h
    have h2 : (2 : ℝ) ^ (-104 : ℤ) ≤ Real.sqrt (mseRounded F o x y) := by
      apply Real.le_sqrt_of_sq_le
      refine le_trans (le_of_eq ?_) h1
      rw [← zpow_natCast, ← zpow_mul]
      norm_num
    have h3 := double.le_round double_bits (-104) (by decide) h2
    unfold rmseRounded at h0
    rw [h0] at h3
    have : (0 : ℝ) < 2 ^ (-104 : ℤ) := by positivity
    linarith
  · intro h0
    by_contra h
    have h1 := key h
    unfold psnrRounded at h0
    rw [if_neg h, if_neg] at h0
    · cases h0
    · intro h2
      rw [h2] at h1
      have : (0 : ℝ) < 2 ^ (-208 : ℤ) := by positivity
      linarith

example : rmseRounded single (.node (.leaf true) (.leaf false)) (fun q => if q then 2 ^ (-60 : ℤ) else 7) (fun q => if q then 0 else 7) ≠ 0 := by
  intro h
  have := ((C144_only_identical_partial single (.inl rfl)) Bool id (.node (.leaf true) (.leaf false)) 255
    (fun q => if q then 2 ^ (-60 : ℤ) else 7) (fun q => if q then 0 else 7) (by simp [SumOrder.positions])
    (by
      intro q _
      cases q
      · exact ⟨⟨7, 0, by norm_num [single], by simp⟩, ⟨7, 0, by norm_num [single], by simp⟩⟩
      · exact ⟨⟨1, -60, by norm_num [single], by simp⟩, ⟨0, 0, by norm_num [single], by simp⟩⟩)
    (by
      intro q _
      cases q
      · left; simp
      · right
        simp only [if_true, sub_zero]
        rw [abs_of_pos (by positivity)]
        exact zpow_le_zpow_right₀ (by norm_num) (by norm_num))).1 h true (by simp [SumOrder.positions])
  simp only [if_true] at this
  exact absurd this (by positivity)

/-- **C144, refuted** for float32 images: the squares of small differences are rounded to 0. Two images of one pixel,
`2 ^ -80` (about 8e-25) and 0. -/
theorem C144_refuted : ¬ OnlyIdentical single (fun _ => True) := by
  intro h
  have hlost : squareRounded single (2 ^ (-80 : ℤ) - 0) = 0 := by
    unfold squareRounded
    rw [sub_zero, single.round_two_zpow single_bits _ (by decide)]
    apply single.round_lost _ single_bits
    rw [← zpow_add₀ (by norm_num), abs_of_pos (by positivity)]
    exact zpow_lt_zpow_right₀ (by norm_num) (by decide)
  have hm : mseRounded single (SumOrder.leaf ()) (fun _ => 2 ^ (-80 : ℤ)) (fun _ => 0) = 0 := by
    rw [mseRounded_eq]
    simp only [SumOrder.eval]
    rw [hlost, zero_div, double.round_zero]
  have hr : rmseRounded single (SumOrder.leaf ()) (fun _ => 2 ^ (-80 : ℤ)) (fun _ => 0) = 0 := by
    unfold rmseRounded
    rw [hm, Real.sqrt_zero, double.round_zero]
  have := (h Unit (fun _ => 0) (.leaf ()) 1 (fun _ => 2 ^ (-80 : ℤ)) (fun _ => 0) (by simp [SumOrder.positions])
    (fun q _ => ⟨⟨1, -80, by norm_num [single], by simp⟩, ⟨0, 0, by norm_num [single], by simp⟩⟩) (fun _ _ => trivial)).1 hr ()
    (by simp [SumOrder.positions])
  exact absurd this (by positivity)

/-! ### C145 -/

/-- **C145.** An image that is at least as close to its reference at every pixel has at most the RMSE. -/
theorem C145_closer (F : FloatFormat) (hp : 1 ≤ F.bits) (o : SumOrder P) (x y x' y' : P → ℝ)
    (h : ∀ q ∈ o.positions, |x q - y q| ≤ |x' q - y' q|) : rmseRounded F o x y ≤ rmseRounded F o x' y' := by
  refine double.round_mono double_bits (Real.sqrt_le_sqrt ?_)
  rw [mseRounded_eq, mseRounded_eq]
  refine double.round_mono double_bits (div_le_div_of_nonneg_right ?_ (Nat.cast_nonneg _))
  exact o.eval_mono double double_bits _ _ fun q hq => squareRounded_mono F hp (h q hq)

example : rmseRounded double (.node (.leaf true) (.leaf false)) (fun q => if q then 3 else 7) (fun q => if q then 4 else 7) ≤
    rmseRounded double (.node (.leaf true) (.leaf false)) (fun q => if q then 3 else 7) (fun q => if q then 1 else 8) :=
  C145_closer double double_bits _ _ _ _ _ (by intro q _; cases q <;> norm_num)

/-- Order of PSNR values. -/
def Psnr.le : Psnr → Psnr → Prop
  | .minusInfinite, _ => True
  | _, .infinite => True
  | .finite a, .finite b => a ≤ b
  | _, _ => False

/-- **C145.** PSNR never ranks two pairs of images against RMSE: the pair with the smaller RMSE has at least the PSNR of
the other, for all images, formats and orders of summation and every monotone logarithm. -/
theorem C145_ranking (log10 : ℝ → ℝ) (hlog : ∀ a b, 0 < a → a ≤ b → log10 a ≤ log10 b) {Q : Type} (F G : FloatFormat)
    (hF : 1 ≤ F.bits) (o : SumOrder P) (o' : SumOrder Q) (dr : ℝ) (hdr : 2 ^ (-400 : ℤ) ≤ dr)
    (x y : P → ℝ) (x' y' : Q → ℝ) (hbig : mseRounded G o' x' y' ≤ 2 ^ (200 : ℤ))
    (h : rmseRounded F o x y < rmseRounded G o' x' y') :
    (psnrRounded log10 G o' dr x' y').le (psnrRounded log10 F o dr x y) := by
  have hm0 := mseRounded_nonneg F hF o x y
  have hm : mseRounded F o x y < mseRounded G o' x' y' := by
    by_contra hc
    exact absurd (double.round_mono double_bits (Real.sqrt_le_sqrt (not_lt.1 hc))) (not_le.2 h)
  have hpos : 0 < mseRounded G o' x' y' := hm0.trans_lt hm
  have hne : ¬ ∀ q ∈ o'.positions, x' q = y' q := by
    intro hid
    have h0 := C144_identical G o' x' y' hid
    have h1 : 0 ≤ rmseRounded F o x y := double.round_nonneg double_bits (Real.sqrt_nonneg _)
    rw [h0] at h
    linarith
  unfold psnrRounded
  rw [if_neg hne, if_neg hpos.ne']
  split
  · trivial
  · split
    · trivial
    · rename_i h1 h2
      have hmp : 0 < mseRounded F o x y := lt_of_le_of_ne hm0 (Ne.symm h2)
      refine double.round_mono double_bits (mul_le_mul_of_nonneg_left (hlog _ _ ?_ ?_) (by norm_num))
      · have hd : (2 : ℝ) ^ (-800 : ℤ) ≤ double.round (dr * dr) := by
          apply double.le_round double_bits _ (by decide)
          calc (2 : ℝ) ^ (-800 : ℤ) = 2 ^ (-400 : ℤ) * 2 ^ (-400 : ℤ) := by rw [← zpow_add₀ (by norm_num)]; norm_num
            _ ≤ dr * dr := mul_le_mul hdr hdr (by positivity) (le_trans (by positivity) hdr)
        have := double.le_round double_bits (-1000) (by decide) (x := double.round (dr * dr) / mseRounded G o' x' y') (by
          rw [le_div_iff₀ hpos]
          calc (2 : ℝ) ^ (-1000 : ℤ) * mseRounded G o' x' y' ≤ 2 ^ (-1000 : ℤ) * 2 ^ (200 : ℤ) :=
                mul_le_mul_of_nonneg_left hbig (by positivity)
            _ = 2 ^ (-800 : ℤ) := by rw [← zpow_add₀ (by norm_num)]; norm_num
            _ ≤ _ := hd)
        exact lt_of_lt_of_le (by positivity) this
      · refine double.round_mono double_bits (div_le_div_of_nonneg_left ?_ hmp hm.le)
        exact double.round_nonneg double_bits (mul_self_nonneg _)

example : (psnrRounded (fun v => Real.log v / Real.log 10) single (.leaf ()) 255 (fun _ => 5) (fun _ => 1)).le
      (psnrRounded (fun v => Real.log v / Real.log 10) single (.leaf ()) 255 (fun _ => 2) (fun _ => 1)) := by
  have m : ∀ (k : ℤ) (x : ℝ), 0 ≤ k → x - 1 = 2 ^ k →
      mseRounded single (.leaf ()) (fun _ => x) (fun _ => 1) = 2 ^ (k + k) := by
    intro k x hk hx
    simp only [mseRounded, SumOrder.eval, SumOrder.positions, List.length_singleton, Nat.cast_one, div_one, hx]
    rw [single.round_two_zpow single_bits k (by simp only [single]; omega), ← zpow_add₀ (by norm_num),
      single.round_two_zpow single_bits _ (by simp only [single]; omega),
      double.round_two_zpow double_bits _ (by simp only [double]; omega)]
  have r : ∀ (k : ℤ) (x : ℝ), 0 ≤ k → x - 1 = 2 ^ k →
      rmseRounded single (.leaf ()) (fun _ => x) (fun _ => 1) = 2 ^ k := by
    intro k x hk hx
    rw [rmseRounded, m k x hk hx, zpow_add₀ (by norm_num), Real.sqrt_mul_self (by positivity),
      double.round_two_zpow double_bits _ (by simp only [double]; omega)]
  refine C145_ranking _ (fun a b ha hab => div_le_div_of_nonneg_right (Real.log_le_log ha hab) (Real.log_nonneg (by norm_num)))
    single single single_bits _ _ 255
    (le_trans (zpow_le_zpow_right₀ (by norm_num) (show (-400 : ℤ) ≤ 0 by norm_num)) (by norm_num)) _ _ _ _ ?_ ?_
  · rw [m 2 5 (by norm_num) (by norm_num)]
    exact zpow_le_zpow_right₀ (by norm_num) (by norm_num)
  · rw [r 0 2 (by norm_num) (by norm_num), r 2 5 (by norm_num) (by norm_num)]
    norm_num

/-! ### C146 -/

namespace SumOrder

/-- The additions with their values. -/
def tree (f : P → ℝ) : SumOrder P → Summation
  | leaf q => .leaf (f q)
  | node l r => .node (l.tree f) (r.tree f)

/-- The largest number of additions a pixel takes part in. -/
def depth : SumOrder P → ℕ
  | leaf _ => 0
  | node l r => max l.depth r.depth + 1

theorem tree_leaves (f : P → ℝ) (o : SumOrder P) : (o.tree f).leaves = o.positions.map f := by
  induction o with
  | leaf q => rfl
  | node l r hl hr => simp [tree, Summation.leaves, positions, hl, hr]

theorem tree_depth (f : P → ℝ) (o : SumOrder P) : (o.tree f).depth = o.depth := by
  induction o with
  | leaf q => rfl
  | node l r hl hr => simp [tree, Summation.depth, depth, hl, hr]

/-- Without underflow. -/
theorem eval_tree (F : FloatFormat) (hp : 1 ≤ F.bits) (f : P → ℝ) (o : SumOrder P) (k : ℤ) (hk : F.least + F.bits - 1 ≤ k)
    (h : ∀ q ∈ o.positions, f q = 0 ∨ 2 ^ k ≤ f q) :
    o.eval F f = (o.tree f).eval F.bits ∧ (o.eval F f = 0 ∨ 2 ^ k ≤ o.eval F f) := by
  have hkp : (0 : ℝ) < 2 ^ k := by positivity
  induction o with
  | leaf q => exact ⟨rfl, h q (by simp [positions])⟩
  | node l r hl hr =>
    simp only [positions, List.mem_append] at h
    obtain ⟨l1, l2⟩ := hl fun q hq => h q (.inl hq)
    obtain ⟨r1, r2⟩ := hr fun q hq => h q (.inr hq)
    simp only [eval, tree, Summation.eval]
    rw [← l1, ← r1]
    have hs : l.eval F f + r.eval F f = 0 ∨ 2 ^ k ≤ l.eval F f + r.eval F f := by
      rcases l2 with l2 | l2 <;> rcases r2 with r2 | r2
      · left; rw [l2, r2, add_zero]
      · right; rw [l2, zero_add]; exact r2
      · right; rw [r2, add_zero]; exact l2
      · right; linarith
    rcases hs with hs | hs
    · rw [hs, F.round_zero, fl_zero]; exact ⟨rfl, .inl rfl⟩
    · refine ⟨?_, .inr (F.le_round hp k (by omega) hs)⟩
      apply F.round_normal
      rw [abs_of_pos (hkp.trans_le hs)]
      exact (zpow_le_zpow_right₀ (by norm_num) hk).trans hs

end SumOrder

/-- Root mean square of the differences in exact arithmetic. -/
noncomputable def Spec.rootMeanSquare (l : List ℝ) : ℝ := Real.sqrt ((l.map (fun d => d ^ 2)).sum / l.length)

/-- One square without underflow. -/
theorem squareRounded_relative (F : FloatFormat) (hF : F = single ∨ F = double) (d : ℝ) (h : d = 0 ∨ 2 ^ (-63 : ℤ) ≤ |d|) :
    d ^ 2 * (1 - 1 / 2 ^ F.bits) ^ 3 ≤ squareRounded F d ∧ squareRounded F d ≤ d ^ 2 * (1 + 1 / 2 ^ F.bits) ^ 3 ∧
    (squareRounded F d = 0 ∨ 2 ^ (-126 : ℤ) ≤ squareRounded F d) := by
  rcases h with rfl | h
  · rw [squareRounded_zero]; simp
  have hp : 1 ≤ F.bits := by rcases hF with rfl | rfl <;> decide
  have hl : F.least + F.bits - 1 ≤ -126 := by rcases hF with rfl | rfl <;> decide
  obtain ⟨u0, u1, u2⟩ := Summation.unit_bounds F.bits
  have e1 : F.round d = fl F.bits d := F.round_normal ((zpow_le_zpow_right₀ (by norm_num) (by omega)).trans h)
  have h1 : (2 : ℝ) ^ (-63 : ℤ) ≤ |F.round d| := by
    rcases abs_choice d with ha | ha
    · rw [ha] at h
      exact (F.le_round hp _ (by omega) h).trans (le_abs_self _)
    · rw [ha] at h
      have := F.le_round hp (-63) (by omega) h
      rw [F.round_neg] at this
      exact this.trans (neg_le_abs _)
  have h2 : (2 : ℝ) ^ (-126 : ℤ) ≤ F.round d * F.round d := by
    rw [← abs_mul_abs_self]
    calc (2 : ℝ) ^ (-126 : ℤ) = 2 ^ (-63 : ℤ) * 2 ^ (-63 : ℤ) := by rw [← zpow_add₀ (by norm_num)]; norm_num
      _ ≤ _ := mul_le_mul h1 h1 (by positivity) (abs_nonneg _)
  have h3 : squareRounded F d = fl F.bits (F.round d * F.round d) := by
    apply F.round_normal
    rw [abs_of_nonneg (mul_self_nonneg _)]
    exact (zpow_le_zpow_right₀ (by norm_num) hl).trans h2
  have h4 : (2 : ℝ) ^ (-126 : ℤ) ≤ squareRounded F d := F.le_round hp _ (by omega) h2
  refine ⟨?_, ?_, .inr h4⟩
  all_goals rw [h3, e1]
  · have a2 := mul_le_fl F.bits (mul_self_nonneg (fl F.bits d))
    refine le_trans ?_ a2
    rw [pow_succ _ 2, ← mul_assoc]
    refine mul_le_mul_of_nonneg_right ?_ u0
    have b2 : |d| * (1 - 1 / 2 ^ F.bits) ≤ |fl F.bits d| := by
      have := fl_error F.bits d
      have h3 := abs_sub_abs_le_abs_sub d (fl F.bits d)
      rw [abs_sub_comm d (fl F.bits d)] at h3
      have e : |d| * (1 - 1 / 2 ^ F.bits) = |d| - |d| / 2 ^ F.bits := by ring
      linarith
    rw [← abs_mul_abs_self (fl F.bits d), ← sq_abs d, ← mul_pow, sq]
    exact mul_le_mul b2 b2 (mul_nonneg (abs_nonneg _) u0) (abs_nonneg _)
  · have a1 := fl_le_mul F.bits (mul_self_nonneg (fl F.bits d))
    refine le_trans a1 ?_
    rw [pow_succ _ 2, ← mul_assoc]
    refine mul_le_mul_of_nonneg_right ?_ (by linarith)
    have b1 := abs_fl_le F.bits d
    rw [← abs_mul_abs_self, ← sq_abs d, ← mul_pow, sq]
    exact mul_le_mul b1 b1 (abs_nonneg _) (mul_nonneg (abs_nonneg _) (by linarith))

/-- **C146.** RMSE as computed, for every order of summation: the relative error is bounded by the rounding of one
square in the format of the images and of the additions of one pixel in float64. -/
theorem C146_rmse (F : FloatFormat) (hF : F = single ∨ F = double) (o : SumOrder P) (x y : P → ℝ)
    (hn : o.positions.length ≤ 2 ^ 60) (hd : ∀ q ∈ o.positions, x q = y q ∨ 2 ^ (-63 : ℤ) ≤ |x q - y q|) :
    Spec.rootMeanSquare (o.positions.map (fun q => x q - y q)) *
        ((1 - 1 / 2 ^ F.bits) ^ 3 * (1 - 1 / 2 ^ 53) ^ (o.depth + 2)) ≤ rmseRounded F o x y ∧
    rmseRounded F o x y ≤ Spec.rootMeanSquare (o.positions.map (fun q => x q - y q)) *
        ((1 + 1 / 2 ^ F.bits) ^ 3 * (1 + 1 / 2 ^ 53) ^ (o.depth + 2)) := by
  have hp : 1 ≤ F.bits := by rcases hF with rfl | rfl <;> decide
  obtain ⟨u0, u1, u2⟩ := Summation.unit_bounds F.bits
  obtain ⟨w0, w1, w2⟩ := Summation.unit_bounds 53
  set u : ℝ := 1 / 2 ^ F.bits
  set w : ℝ := 1 / 2 ^ 53
  have hpos : (0 : ℝ) < o.positions.length := by exact_mod_cast o.positions_pos
  set g : P → ℝ := fun q => squareRounded F (x q - y q) with hg
  have hsq : ∀ q ∈ o.positions, (x q - y q) ^ 2 * (1 - u) ^ 3 ≤ g q ∧ g q ≤ (x q - y q) ^ 2 * (1 + u) ^ 3 ∧
      (g q = 0 ∨ 2 ^ (-126 : ℤ) ≤ g q) := fun q hq =>
    squareRounded_relative F hF (x q - y q) ((hd q hq).imp (fun h => by rw [h, sub_self]) id)
  have hev := o.eval_tree double double_bits g (-126) (by decide) fun q hq => (hsq q hq).2.2
  have hrel := (o.tree g).eval_relative 53 (by norm_num) (by
    intro v hv
    rw [o.tree_leaves, List.mem_map] at hv
    obtain ⟨q, -, rfl⟩ := hv
    exact squareRounded_nonneg F hp _)
  rw [o.tree_depth, o.tree_leaves, show (53 : ℕ) = double.bits from rfl, ← hev.1, show double.bits = 53 from rfl] at hrel
  set E := o.eval double g
  set T := (o.positions.map (fun q => (x q - y q) ^ 2)).sum with hT
  have hT0 : 0 ≤ T := List.sum_nonneg (by
    intro v hv
    rw [List.mem_map] at hv
    obtain ⟨q, -, rfl⟩ := hv
    exact sq_nonneg _)
  have t1 : T * (1 - u) ^ 3 ≤ (o.positions.map g).sum := by
    rw [hT, ← List.sum_map_mul_right]
    exact List.sum_le_sum fun q hq => (hsq q hq).1
  have t2 : (o.positions.map g).sum ≤ T * (1 + u) ^ 3 := by
    rw [hT, ← List.sum_map_mul_right]
    exact List.sum_le_sum fun q hq => (hsq q hq).2.1
  have E1 : T * (1 - u) ^ 3 * (1 - w) ^ o.depth ≤ E :=
    (mul_le_mul_of_nonneg_right t1 (pow_nonneg w0 _)).trans hrel.1
  have E2 : E ≤ T * (1 + u) ^ 3 * (1 + w) ^ o.depth :=
    hrel.2.trans (mul_le_mul_of_nonneg_right t2 (pow_nonneg (by linarith) _))
  -- the mean
  have hE : E / o.positions.length = 0 ∨ 2 ^ (-186 : ℤ) ≤ E / o.positions.length := by
    rcases hev.2 with h | h
    · left; rw [h, zero_div]
    · right
      rw [le_div_iff₀ hpos]
      have hn' : (o.positions.length : ℝ) ≤ 2 ^ (60 : ℤ) := by
        rw [show ((60 : ℤ)) = ((60 : ℕ) : ℤ) from rfl, zpow_natCast]
        exact_mod_cast hn
      calc (2 : ℝ) ^ (-186 : ℤ) * o.positions.length ≤ 2 ^ (-186 : ℤ) * 2 ^ (60 : ℤ) :=
            mul_le_mul_of_nonneg_left hn' (by positivity)
        _ = 2 ^ (-126 : ℤ) := by rw [← zpow_add₀ (by norm_num)]; norm_num
        _ ≤ _ := h
  have hE0 : 0 ≤ E / o.positions.length := by
    rcases hE with h | h
    · rw [h]
    · exact le_trans (by positivity) h
  have hm : mseRounded F o x y = fl 53 (E / o.positions.length) ∧
      (mseRounded F o x y = 0 ∨ 2 ^ (-186 : ℤ) ≤ mseRounded F o x y) := by
    rw [mseRounded_eq]
    change double.round (E / _) = _ ∧ (double.round (E / _) = 0 ∨ _ ≤ double.round (E / _))
    rcases hE with h | h
    · rw [h, double.round_zero, fl_zero]; exact ⟨rfl, .inl rfl⟩
    · refine ⟨?_, .inr (double.le_round double_bits _ (by decide) h)⟩
      apply double.round_normal
      rw [abs_of_nonneg hE0]
      exact (zpow_le_zpow_right₀ (by norm_num) (by decide)).trans h
  set M := mseRounded F o x y
  set V := T / o.positions.length with hV
  have hV0 : 0 ≤ V := div_nonneg hT0 hpos.le
  have m1 : V * ((1 - u) ^ 3 * (1 - w) ^ (o.depth + 1)) ≤ M := by
    rw [hm.1]
    refine le_trans ?_ (mul_le_fl 53 hE0)
    rw [pow_succ (1 - w), ← mul_assoc, ← mul_assoc]
    refine mul_le_mul_of_nonneg_right ?_ w0
    rw [hV, div_mul_eq_mul_div, div_mul_eq_mul_div]
    exact div_le_div_of_nonneg_right E1 hpos.le
  have m2 : M ≤ V * ((1 + u) ^ 3 * (1 + w) ^ (o.depth + 1)) := by
    rw [hm.1]
    refine le_trans (fl_le_mul 53 hE0) ?_
    rw [pow_succ (1 + w), ← mul_assoc, ← mul_assoc]
    refine mul_le_mul_of_nonneg_right ?_ (by linarith)
    rw [hV, div_mul_eq_mul_div, div_mul_eq_mul_div]
    exact div_le_div_of_nonneg_right E2 hpos.le
  -- the root
  have hs : Spec.rootMeanSquare (o.positions.map (fun q => x q - y q)) = Real.sqrt V := by
    unfold Spec.rootMeanSquare
    rw [List.map_map, List.length_map]
    rfl
  have hr : rmseRounded F o x y = fl 53 (Real.sqrt M) := by
    change double.round (Real.sqrt M) = _
    rcases hm.2 with h | h
    · rw [h, Real.sqrt_zero, double.round_zero, fl_zero]
    · apply double.round_normal
      rw [abs_of_nonneg (Real.sqrt_nonneg _)]
      refine (zpow_le_zpow_right₀ (by norm_num) (show double.least + double.bits - 1 ≤ -93 by decide)).trans ?_
      apply Real.le_sqrt_of_sq_le
      refine le_trans (le_of_eq ?_) h
      rw [← zpow_natCast, ← zpow_mul]
      norm_num
  rw [hs, hr]
  set a := (1 - u) ^ 3 * (1 - w) ^ (o.depth + 1)
  set b := (1 + u) ^ 3 * (1 + w) ^ (o.depth + 1)
  have a0 : 0 ≤ a := mul_nonneg (pow_nonneg u0 _) (pow_nonneg w0 _)
  have a1 : a ≤ 1 := mul_le_one₀ (pow_le_one₀ u0 u1) (pow_nonneg w0 _) (pow_le_one₀ w0 w1)
  have b1 : 1 ≤ b := one_le_mul_of_one_le_of_one_le (one_le_pow₀ u2) (one_le_pow₀ w2)
  constructor
  · refine le_trans ?_ (mul_le_fl 53 (Real.sqrt_nonneg M))
    rw [show (1 - u) ^ 3 * (1 - w) ^ (o.depth + 2) = a * (1 - w) by
      rw [show o.depth + 2 = o.depth + 1 + 1 by ring, pow_succ (1 - w) (o.depth + 1), ← mul_assoc], ← mul_assoc]
    refine mul_le_mul_of_nonneg_right ?_ w0
    apply Real.le_sqrt_of_sq_le
    rw [mul_pow, Real.sq_sqrt hV0]
    refine le_trans (mul_le_mul_of_nonneg_left ?_ hV0) m1
    nlinarith
  · refine le_trans (fl_le_mul 53 (Real.sqrt_nonneg M)) ?_
    rw [show (1 + u) ^ 3 * (1 + w) ^ (o.depth + 2) = b * (1 + w) by
      rw [show o.depth + 2 = o.depth + 1 + 1 by ring, pow_succ (1 + w) (o.depth + 1), ← mul_assoc], ← mul_assoc]
    refine mul_le_mul_of_nonneg_right ?_ (by linarith)
    rw [Real.sqrt_le_left (mul_nonneg (Real.sqrt_nonneg _) (by linarith)), mul_pow, Real.sq_sqrt hV0]
    refine le_trans m2 (mul_le_mul_of_nonneg_left ?_ hV0)
    nlinarith

example : 2 * ((1 - 1 / 2 ^ 24) ^ 3 * (1 - 1 / 2 ^ 53) ^ 3) ≤
    rmseRounded single (.node (.leaf true) (.leaf false)) (fun q => if q then 3 else 7) (fun q => if q then 1 else 9) := by
  have h := (C146_rmse single (.inl rfl) (.node (.leaf true) (.leaf false)) (fun q => if q then 3 else 7)
    (fun q => if q then 1 else 9) (by simp [SumOrder.positions]) (by
      intro q _
      right
      refine le_trans (zpow_le_zpow_right₀ (by norm_num) (show (-63 : ℤ) ≤ 0 by norm_num)) ?_
      cases q <;> norm_num)).1
  have e : Spec.rootMeanSquare ((SumOrder.node (.leaf true) (.leaf false)).positions.map
      (fun q : Bool => (if q then (3 : ℝ) else 7) - (if q then 1 else 9))) = 2 := by
    simp only [SumOrder.positions, List.singleton_append, List.map_cons, List.map_nil, Spec.rootMeanSquare, if_true,
      List.sum_cons, List.sum_nil, List.length_cons, List.length_nil]
    rw [show ((((3 : ℝ) - 1) ^ 2 + (((if false = true then (3 : ℝ) else 7) - (if false = true then 1 else 9)) ^ 2 + 0)) / ((0 + 1 + 1 : ℕ) : ℝ))
      = 2 ^ 2 by norm_num]
    exact Real.sqrt_sq (by norm_num)
  rw [e] at h
  exact h

/-- **C146**, with numbers: the RMSE of float32 images is computed to six digits, of float64 images to nine, if no pixel
takes part in more than a million additions. -/
theorem C146_digits (o : SumOrder P) (x y : P → ℝ) (hn : o.positions.length ≤ 2 ^ 60) (hdepth : o.depth ≤ 2 ^ 20)
    (hd : ∀ q ∈ o.positions, x q = y q ∨ 2 ^ (-63 : ℤ) ≤ |x q - y q|) :
    |rmseRounded single o x y - Spec.rootMeanSquare (o.positions.map (fun q => x q - y q))| ≤
      Spec.rootMeanSquare (o.positions.map (fun q => x q - y q)) / 2 ^ 22 ∧
    |rmseRounded double o x y - Spec.rootMeanSquare (o.positions.map (fun q => x q - y q))| ≤
      Spec.rootMeanSquare (o.positions.map (fun q => x q - y q)) / 2 ^ 30 := by
  obtain ⟨s1, s2⟩ := C146_rmse single (.inl rfl) o x y hn hd
  obtain ⟨d1, d2⟩ := C146_rmse double (.inr rfl) o x y hn hd
  obtain ⟨a1, a2⟩ := pow_near_one (o.depth + 2) (by omega)
  obtain ⟨b1, b2⟩ := pow_near_one (o.depth + 5) (by omega)
  have hR : 0 ≤ Spec.rootMeanSquare (o.positions.map (fun q => x q - y q)) := Real.sqrt_nonneg _
  set R := Spec.rootMeanSquare (o.positions.map (fun q => x q - y q))
  set A := (1 - 1 / 2 ^ 53 : ℝ) ^ (o.depth + 2)
  set B := (1 + 1 / 2 ^ 53 : ℝ) ^ (o.depth + 2)
  change R * ((1 - 1 / 2 ^ 24) ^ 3 * A) ≤ _ at s1
  change _ ≤ R * ((1 + 1 / 2 ^ 24) ^ 3 * B) at s2
  change R * ((1 - 1 / 2 ^ 53) ^ 3 * A) ≤ _ at d1
  change _ ≤ R * ((1 + 1 / 2 ^ 53) ^ 3 * B) at d2
  rw [show (1 - 1 / 2 ^ 53 : ℝ) ^ 3 * A = (1 - 1 / 2 ^ 53) ^ (o.depth + 5) by
    rw [← pow_add]; congr 1; omega] at d1
  rw [show (1 + 1 / 2 ^ 53 : ℝ) ^ 3 * B = (1 + 1 / 2 ^ 53) ^ (o.depth + 5) by
    rw [← pow_add]; congr 1; omega] at d2
  have f1 : (1 : ℝ) - 1 / 2 ^ 22 ≤ (1 - 1 / 2 ^ 24) ^ 3 * A := by
    refine le_trans ?_ (mul_le_mul_of_nonneg_left a1 (by norm_num))
    norm_num
  have f2 : (1 + 1 / 2 ^ 24 : ℝ) ^ 3 * B ≤ 1 + 1 / 2 ^ 22 := by
    refine le_trans (mul_le_mul_of_nonneg_left a2 (by norm_num)) ?_
    norm_num
  have g1 : (1 : ℝ) - 1 / 2 ^ 30 ≤ (1 - 1 / 2 ^ 53) ^ (o.depth + 5) := le_trans (by norm_num) b1
  have g2 : (1 + 1 / 2 ^ 53 : ℝ) ^ (o.depth + 5) ≤ 1 + 1 / 2 ^ 30 := le_trans b2 (by norm_num)
  have k1 := (mul_le_mul_of_nonneg_left f1 hR).trans s1
  have k2 := s2.trans (mul_le_mul_of_nonneg_left f2 hR)
  have k3 := (mul_le_mul_of_nonneg_left g1 hR).trans d1
  have k4 := d2.trans (mul_le_mul_of_nonneg_left g2 hR)
  constructor
  · rw [abs_le]
    constructor <;> [skip; skip] <;> ring_nf at k1 k2 ⊢ <;> linarith
  · rw [abs_le]
    constructor <;> [skip; skip] <;> ring_nf at k3 k4 ⊢ <;> linarith

example : |rmseRounded single (.leaf ()) (fun _ => 3) (fun _ => 1) - 2| ≤ 2 / 2 ^ 22 := by
  have h := (C146_digits (.leaf ()) (fun _ => 3) (fun _ => 1) (by simp [SumOrder.positions]) (by simp [SumOrder.depth])
    (by
      intro _ _
      right
      exact le_trans (zpow_le_zpow_right₀ (by norm_num) (show (-63 : ℤ) ≤ 0 by norm_num)) (by norm_num))).1
  have e : Spec.rootMeanSquare ((SumOrder.leaf ()).positions.map (fun _ => (3 : ℝ) - 1)) = 2 := by
    simp only [SumOrder.positions, List.map_cons, List.map_nil, Spec.rootMeanSquare, List.sum_cons, List.sum_nil,
      List.length_cons, List.length_nil]
    rw [show ((((3 : ℝ) - 1) ^ 2 + 0) / ((0 + 1 : ℕ) : ℝ)) = 2 ^ 2 by norm_num]
    exact Real.sqrt_sq (by norm_num)
  rw [e] at h
  exact h

end

end Viqa
