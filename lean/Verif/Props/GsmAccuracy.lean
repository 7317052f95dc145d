import Verif.Props.GsmRounded
import Verif.Props.SsimAccuracy
import Verif.Props.DistanceRounded

/-!
Property C201: accuracy of GSM in floating point arithmetic. For given gradient images the quality of every pixel is
computed with an absolute error of at most 120 units (`2 ^ -b`), whatever the gradients: also where the divisor is small
and the relative change of the gradient is huge. The score adds the error of the summation.
-/

namespace Viqa

/-- Similarity of the gradients of one pixel, exactly. -/
noncomputable def Spec.gsmStructure (k r : ℝ) : ℝ := (2 * (1 - r) + k) / (1 + (1 - r) ^ 2 + k)

/-- Quality of one pixel, exactly: gradients `gr`, `gm`, divisor `d`, pixels `x`, `y`. -/
noncomputable def Spec.gsmPixel (p k dr gr gm d x y : ℝ) : ℝ :=
  (1 - p * Spec.gsmStructure k (|gr - gm| / d)) * Spec.gsmStructure k (|gr - gm| / d) +
    p * Spec.gsmStructure k (|gr - gm| / d) * (1 - ((x - y) / dr) ^ 2)

section
variable {P : Type} {b : ℕ}

theorem fl_unit_error (b : ℕ) (x : ℝ) : |fl b x - x| ≤ 1 / 2 ^ b * |x| := by
  have := fl_error b x
  rwa [div_eq_mul_one_div, mul_comm] at this

theorem unit_small (hb : 20 ≤ b) : (0 : ℝ) < 1 / 2 ^ b ∧ (1 : ℝ) / 2 ^ b ≤ 1 / 2 ^ 20 := by
  refine ⟨by positivity, ?_⟩
  exact div_le_div_of_nonneg_left (by norm_num) (by positivity) (pow_le_pow_right₀ (by norm_num) hb)

theorem gsmChange_near (hb : 20 ≤ b) (gr gm d : ℝ) :
    |gsmChange b gr gm d - |gr - gm| / d| ≤ 201 / 100 * (1 / 2 ^ b) * |(|gr - gm| / d)| := by
  obtain ⟨u0, u1⟩ := unit_small hb
  set u : ℝ := 1 / 2 ^ b
  have h1 := fl_unit_error b (gr - gm)
  have h2 : |(|fl b (gr - gm)| / d) - |gr - gm| / d| ≤ u * |(|gr - gm| / d)| := by
    rw [← sub_div, abs_div, abs_div, abs_abs, mul_div_assoc']
    exact div_le_div_of_nonneg_right ((abs_abs_sub_abs_le _ _).trans h1) (abs_nonneg d)
  have h3 := fl_unit_error b (|fl b (gr - gm)| / d)
  unfold gsmChange
  set r := |gr - gm| / d
  set s := |fl b (gr - gm)| / d
  have h4 : |s| ≤ (1 + u) * |r| := by
    have := abs_add_le (s - r) r
    rw [sub_add_cancel] at this
    linarith
  have h5 : |fl b s - r| ≤ |fl b s - s| + |s - r| := by
    have := abs_add_le (fl b s - s) (s - r)
    rwa [sub_add_sub_cancel] at this
  have h6 : u * |s| ≤ u * ((1 + u) * |r|) := mul_le_mul_of_nonneg_left h4 u0.le
  have h7 : u * u * |r| ≤ u * (1 / 2 ^ 20) * |r| :=
    mul_le_mul_of_nonneg_right (mul_le_mul_of_nonneg_left u1 u0.le) (abs_nonneg r)
  have h8 : 0 ≤ u * |r| := mul_nonneg u0.le (abs_nonneg r)
  change |s - r| ≤ u * |r| at h2
  change |fl b s - s| ≤ u * |s| at h3
  nlinarith

theorem complement_near (hb : 20 ≤ b) (r' r : ℝ) (h : |r' - r| ≤ 201 / 100 * (1 / 2 ^ b) * |r|) :
    |fl b (1 - r') - (1 - r)| ≤ 1 / 2 ^ b * (21 / 10 + 31 / 10 * |1 - r|) := by
  obtain ⟨u0, u1⟩ := unit_small hb
  set u : ℝ := 1 / 2 ^ b
  have h1 := fl_unit_error b (1 - r')
  have hr : |r| ≤ 1 + |1 - r| := by
    have := abs_sub (1 : ℝ) (1 - r)
    rwa [sub_sub_cancel, abs_one] at this
  have h2 : |1 - r'| ≤ |1 - r| + |r' - r| := by
    have := abs_sub (1 - r) (r' - r)
    rwa [show 1 - r - (r' - r) = 1 - r' by ring] at this
  have h3 : |fl b (1 - r') - (1 - r)| ≤ |fl b (1 - r') - (1 - r')| + |r' - r| := by
    have := abs_sub (fl b (1 - r') - (1 - r')) (r' - r)
    rwa [show fl b (1 - r') - (1 - r') - (r' - r) = fl b (1 - r') - (1 - r) by ring] at this
  change |fl b (1 - r') - (1 - r')| ≤ u * |1 - r'| at h1
  have h4 : u * |1 - r'| ≤ u * (|1 - r| + |r' - r|) := mul_le_mul_of_nonneg_left h2 u0.le
  have h5 : |r' - r| ≤ 201 / 100 * u * (1 + |1 - r|) :=
    h.trans (mul_le_mul_of_nonneg_left hr (by positivity))
  have h6 : u * |r' - r| ≤ 1 / 2 ^ 20 * |r' - r| := mul_le_mul_of_nonneg_right u1 (abs_nonneg _)
  have h7 : 0 ≤ u * (1 + |1 - r|) := mul_nonneg u0.le (by positivity)
  have h8 : 0 ≤ u * |1 - r| := mul_nonneg u0.le (abs_nonneg _)
  nlinarith

theorem square_near (hb : 20 ≤ b) (s t : ℝ) (hs : |s - t| ≤ 1 / 2 ^ b * (21 / 10 + 31 / 10 * |t|)) :
    |s * s - t ^ 2| ≤ 831 / 100 * (1 / 2 ^ b * (1 + t ^ 2)) := by
  obtain ⟨u0, u1⟩ := unit_small hb
  set u : ℝ := 1 / 2 ^ b
  have ht : |t| ≤ (1 + t ^ 2) / 2 := by
    rw [← sq_abs t]; nlinarith [sq_nonneg (|t| - 1)]
  have g2 : |t| * |t| = t ^ 2 := by rw [abs_mul_abs_self]; ring
  have g : |s * s - t ^ 2| ≤ |s - t| * |s - t| + 2 * (|t| * |s - t|) := by
    rw [show s * s - t ^ 2 = (s - t) * (s - t) + 2 * (t * (s - t)) by ring]
    refine (abs_add_le _ _).trans ?_
    rw [abs_mul, abs_mul, abs_mul, abs_two]
  have g1 : |t| * |s - t| ≤ |t| * (u * (21 / 10 + 31 / 10 * |t|)) := mul_le_mul_of_nonneg_left hs (abs_nonneg t)
  have g3 : |t| * (u * (21 / 10 + 31 / 10 * |t|)) = u * (21 / 10 * |t| + 31 / 10 * (|t| * |t|)) := by ring
  have g4 : u * (21 / 10 * |t| + 31 / 10 * (|t| * |t|)) ≤ u * (415 / 100 * (1 + t ^ 2)) := by
    rw [g2]; exact mul_le_mul_of_nonneg_left (by linarith [sq_nonneg t]) u0.le
  have g6 : |s - t| * |s - t| ≤ u * (21 / 10 + 31 / 10 * |t|) * (u * (21 / 10 + 31 / 10 * |t|)) :=
    mul_le_mul hs hs (abs_nonneg _) (le_trans (abs_nonneg _) hs)
  have g7 : (21 / 10 + 31 / 10 * |t|) * (21 / 10 + 31 / 10 * |t|) ≤ 30 * (1 + t ^ 2) := by
    have : (21 / 10 + 31 / 10 * |t|) * (21 / 10 + 31 / 10 * |t|) = 441 / 100 + 1302 / 100 * |t| + 961 / 100 * (|t| * |t|) := by ring
    rw [this, g2]; linarith [sq_nonneg t]
  have g8 : u * (21 / 10 + 31 / 10 * |t|) * (u * (21 / 10 + 31 / 10 * |t|)) ≤ u * (u * (30 * (1 + t ^ 2))) := by
    calc _ = u * (u * ((21 / 10 + 31 / 10 * |t|) * (21 / 10 + 31 / 10 * |t|))) := by ring
      _ ≤ _ := mul_le_mul_of_nonneg_left (mul_le_mul_of_nonneg_left g7 u0.le) u0.le
  have g9 : u * (u * (30 * (1 + t ^ 2))) ≤ 1 / 2 ^ 20 * (u * (30 * (1 + t ^ 2))) :=
    mul_le_mul_of_nonneg_right u1 (by positivity)
  have g10 : 0 ≤ u * (1 + t ^ 2) := by positivity
  have g11 : u * (30 * (1 + t ^ 2)) = 30 * (u * (1 + t ^ 2)) := by ring
  have g12 : u * (415 / 100 * (1 + t ^ 2)) = 415 / 100 * (u * (1 + t ^ 2)) := by ring
  rw [g11] at g8 g9
  linarith

/-- Numerator and denominator of the structure, with `t = 1 - r` and its computed value `s`. -/
theorem structure_parts (hb : 20 ≤ b) (s t k' k : ℝ) (hk : 0 ≤ k) (hs : |s - t| ≤ 1 / 2 ^ b * (21 / 10 + 31 / 10 * |t|))
    (hk' : |k' - k| ≤ 201 / 100 * (1 / 2 ^ b) * k) :
    |fl b (2 * s + k') - (2 * t + k)| ≤ 12 * (1 / 2 ^ b) * (1 + t ^ 2 + k) ∧
    |fl b (fl b (1 + fl b (s * s)) + k') - (1 + t ^ 2 + k)| ≤ 12 * (1 / 2 ^ b) * (1 + t ^ 2 + k) := by
  obtain ⟨u0, u1⟩ := unit_small hb
  set u : ℝ := 1 / 2 ^ b
  have ht : |t| ≤ (1 + t ^ 2) / 2 := by
    rw [← sq_abs t]; nlinarith [sq_nonneg (|t| - 1)]
  have hst : |s - t| ≤ u * (21 / 10 + 31 / 10 * ((1 + t ^ 2) / 2)) := hs.trans (mul_le_mul_of_nonneg_left (by linarith) u0.le)
  set q : ℝ := 1 + t ^ 2 with hq
  have q1 : 1 ≤ q := by rw [hq]; nlinarith [sq_nonneg t]
  have uq : 0 ≤ u * q := by positivity
  have uk : 0 ≤ u * k := by positivity
  have uu : u * (u * q) ≤ 1 / 2 ^ 20 * (u * q) := mul_le_mul_of_nonneg_right u1 uq
  have uuk : u * (u * k) ≤ 1 / 2 ^ 20 * (u * k) := mul_le_mul_of_nonneg_right u1 uk
  have uq1 : u ≤ u * q := le_mul_of_one_le_right u0.le q1
  have hst2 : |s - t| ≤ 365 / 100 * (u * q) := by nlinarith
  constructor
  · have h1 := fl_unit_error b (2 * s + k')
    change |fl b (2 * s + k') - (2 * s + k')| ≤ u * |2 * s + k'| at h1
    have e1 : |2 * s + k' - (2 * t + k)| ≤ 2 * |s - t| + |k' - k| := by
      have := abs_add_le (2 * (s - t)) (k' - k)
      rw [abs_mul, abs_two] at this
      rwa [show 2 * (s - t) + (k' - k) = 2 * s + k' - (2 * t + k) by ring] at this
    have e2 : |2 * s + k'| ≤ q + k + (2 * |s - t| + |k' - k|) := by
      have h2 := abs_add_le (2 * s + k' - (2 * t + k)) (2 * t + k)
      rw [sub_add_cancel] at h2
      have h3 := abs_add_le (2 * t) k
      rw [abs_mul, abs_two, abs_of_nonneg hk] at h3
      linarith
    have e3 : |fl b (2 * s + k') - (2 * t + k)| ≤ |fl b (2 * s + k') - (2 * s + k')| + |2 * s + k' - (2 * t + k)| := by
      have := abs_add_le (fl b (2 * s + k') - (2 * s + k')) (2 * s + k' - (2 * t + k))
      rwa [sub_add_sub_cancel] at this
    have e4 : u * |2 * s + k'| ≤ u * (q + k + (2 * (365 / 100 * (u * q)) + 201 / 100 * u * k)) :=
      mul_le_mul_of_nonneg_left (by linarith) u0.le
    nlinarith
  · have h1 := fl_unit_error b (s * s)
    have h2 := fl_unit_error b (1 + fl b (s * s))
    have h3 := fl_unit_error b (fl b (1 + fl b (s * s)) + k')
    change |fl b (s * s) - s * s| ≤ u * |s * s| at h1
    change |fl b (1 + fl b (s * s)) - (1 + fl b (s * s))| ≤ u * |1 + fl b (s * s)| at h2
    change |fl b (fl b (1 + fl b (s * s)) + k') - (fl b (1 + fl b (s * s)) + k')| ≤ u * |fl b (1 + fl b (s * s)) + k'| at h3
    set a := fl b (s * s)
    set c := fl b (1 + a)
    set e := fl b (c + k')
    have s1 : |s * s - t ^ 2| ≤ 831 / 100 * (u * q) := square_near hb s t hs
    have a1 : |a - t ^ 2| ≤ |a - s * s| + |s * s - t ^ 2| := by
      have := abs_add_le (a - s * s) (s * s - t ^ 2)
      rwa [sub_add_sub_cancel] at this
    have s2 : |s * s| ≤ t ^ 2 + |s * s - t ^ 2| := by
      have := abs_add_le (s * s - t ^ 2) (t ^ 2)
      rw [sub_add_cancel, abs_of_nonneg (sq_nonneg t)] at this
      linarith
    have s3 : u * |s * s| ≤ u * (q + 831 / 100 * (u * q)) := mul_le_mul_of_nonneg_left (by linarith) u0.le
    have s4 : u * (q + 831 / 100 * (u * q)) = u * q + 831 / 100 * (u * (u * q)) := by ring
    have a2 : |a - t ^ 2| ≤ 932 / 100 * (u * q) := by linarith
    have c1 : |c - q| ≤ |c - (1 + a)| + |a - t ^ 2| := by
      have := abs_add_le (c - (1 + a)) (a - t ^ 2)
      rwa [show c - (1 + a) + (a - t ^ 2) = c - q by rw [hq]; ring] at this
    have c2 : |1 + a| ≤ q + |a - t ^ 2| := by
      have := abs_add_le q (a - t ^ 2)
      rw [abs_of_nonneg (by linarith : (0 : ℝ) ≤ q)] at this
      rwa [show q + (a - t ^ 2) = 1 + a by rw [hq]; ring] at this
    have c3 : u * |1 + a| ≤ u * (q + 932 / 100 * (u * q)) := mul_le_mul_of_nonneg_left (by linarith) u0.le
    have c4 : u * (q + 932 / 100 * (u * q)) = u * q + 932 / 100 * (u * (u * q)) := by ring
    have c5 : |c - q| ≤ 1033 / 100 * (u * q) := by linarith
    have e1 : |e - (q + k)| ≤ |e - (c + k')| + (|c - q| + |k' - k|) := by
      have g1 := abs_add_le (e - (c + k')) (c + k' - (q + k))
      rw [sub_add_sub_cancel] at g1
      have g2 := abs_add_le (c - q) (k' - k)
      rw [show c - q + (k' - k) = c + k' - (q + k) by ring] at g2
      linarith
    have e2 : |c + k'| ≤ q + k + (|c - q| + |k' - k|) := by
      have g2 := abs_add_le (c - q) (k' - k)
      rw [show c - q + (k' - k) = c + k' - (q + k) by ring] at g2
      have g3 := abs_add_le (c + k' - (q + k)) (q + k)
      rw [sub_add_cancel, abs_of_nonneg (by linarith : (0 : ℝ) ≤ q + k)] at g3
      linarith
    have e3 : u * |c + k'| ≤ u * (q + k + (1033 / 100 * (u * q) + 201 / 100 * u * k)) :=
      mul_le_mul_of_nonneg_left (by linarith) u0.le
    have e4 : u * (q + k + (1033 / 100 * (u * q) + 201 / 100 * u * k)) =
        u * q + u * k + 1033 / 100 * (u * (u * q)) + 201 / 100 * (u * (u * k)) := by ring
    have e5 : 12 * u * (q + k) = 12 * (u * q) + 12 * (u * k) := by ring
    have e6 : 201 / 100 * u * k = 201 / 100 * (u * k) := by ring
    rw [e5]
    linarith

/-- The structure of a pixel. -/
theorem structure_near (hb : 20 ≤ b) (gr gm d k' k : ℝ) (hk : 0 ≤ k) (hk' : |k' - k| ≤ 201 / 100 * (1 / 2 ^ b) * k) :
    0 < gsmDen b k' (gsmChange b gr gm d) ∧ |Spec.gsmStructure k (|gr - gm| / d)| ≤ 1 ∧
    |fl b (gsmNum b k' (gsmChange b gr gm d) / gsmDen b k' (gsmChange b gr gm d)) - Spec.gsmStructure k (|gr - gm| / d)| ≤
      26 * (1 / 2 ^ b) := by
  have hs := complement_near hb _ _ (gsmChange_near hb gr gm d)
  set r := |gr - gm| / d
  set s := fl b (1 - gsmChange b gr gm d) with hsdef
  obtain ⟨h1, h2⟩ := structure_parts hb s (1 - r) k' k hk hs hk'
  obtain ⟨u0, u1⟩ := unit_small hb
  have hn : gsmNum b k' (gsmChange b gr gm d) = fl b (2 * s + k') := by
    unfold gsmNum
    simp only [← hsdef]
    rw [fl_two_mul, hsdef, fl_fl (by omega)]
  have hD : gsmDen b k' (gsmChange b gr gm d) = fl b (fl b (1 + fl b (s * s)) + k') := rfl
  rw [hn, hD]
  set u : ℝ := 1 / 2 ^ b
  set A := fl b (2 * s + k')
  set B := fl b (fl b (1 + fl b (s * s)) + k')
  have hS : 0 < 1 + (1 - r) ^ 2 + k := by positivity
  have hT : |2 * (1 - r) + k| ≤ 1 + (1 - r) ^ 2 + k := by
    rw [abs_le]; constructor <;> nlinarith [sq_nonneg (1 - r - 1), sq_nonneg (1 - r + 1)]
  obtain ⟨hB, hq⟩ := quotient_near A B _ _ (12 * u) hS h1 h2 hT (by positivity) (by linarith)
  have hq' : |A / B - Spec.gsmStructure k r| ≤ 241 / 10 * u := by
    refine hq.trans ?_
    rw [div_le_iff₀ (by linarith)]
    nlinarith
  have h1' : |Spec.gsmStructure k r| ≤ 1 := by
    unfold Spec.gsmStructure
    rw [abs_div, abs_of_pos hS]
    exact (div_le_one hS).2 hT
  refine ⟨hB, h1', ?_⟩
  have h3 := fl_unit_error b (A / B)
  change |fl b (A / B) - A / B| ≤ u * |A / B| at h3
  have h4 := abs_add_le (A / B - Spec.gsmStructure k r) (Spec.gsmStructure k r)
  rw [sub_add_cancel] at h4
  have h5 := abs_add_le (fl b (A / B) - A / B) (A / B - Spec.gsmStructure k r)
  rw [sub_add_sub_cancel] at h5
  have h6 : u * |A / B| ≤ u * (11 / 10) := mul_le_mul_of_nonneg_left (by linarith) u0.le
  linarith

/-- The luminance of a pixel. -/
theorem gsmLum_near (hb : 20 ≤ b) {dr x y : ℝ} (hdr : 0 < dr) (h : |x - y| ≤ dr) :
    0 ≤ 1 - ((x - y) / dr) ^ 2 ∧ 1 - ((x - y) / dr) ^ 2 ≤ 1 ∧
    |gsmLum b dr x y - (1 - ((x - y) / dr) ^ 2)| ≤ 7 * (1 / 2 ^ b) := by
  obtain ⟨u0, u1⟩ := unit_small hb
  unfold gsmLum
  have h1 := fl_unit_error b (x - y)
  have h2 := fl_unit_error b (fl b (x - y) / dr)
  set u : ℝ := 1 / 2 ^ b
  have hw : |(x - y) / dr| ≤ 1 := by rw [abs_div, abs_of_pos hdr]; exact (div_le_one hdr).2 h
  have h3 : |fl b (x - y) / dr - (x - y) / dr| ≤ u := by
    rw [← sub_div, abs_div, abs_of_pos hdr, div_le_iff₀ hdr]
    exact h1.trans (mul_le_mul_of_nonneg_left h u0.le)
  set v := fl b (fl b (x - y) / dr)
  set w := (x - y) / dr
  set z := fl b (x - y) / dr
  have hz : |z| ≤ 1 + u := by
    have := abs_add_le (z - w) w
    rw [sub_add_cancel] at this
    linarith
  have hv : |v - w| ≤ 21 / 10 * u := by
    have := abs_add_le (v - z) (z - w)
    rw [sub_add_sub_cancel] at this
    have g : u * |z| ≤ u * (11 / 10) := mul_le_mul_of_nonneg_left (by linarith) u0.le
    linarith
  have hvv : |v * v - w ^ 2| ≤ 43 / 10 * u := by
    have g : |v * v - w ^ 2| = |v - w| * |v + w| := by rw [← abs_mul]; congr 1; ring
    have g1 : |v + w| ≤ |v - w| + 2 * |w| := by
      have := abs_add_le (v - w) (2 * w)
      rw [abs_mul, abs_two] at this
      rwa [show v - w + 2 * w = v + w by ring] at this
    rw [g]
    have g2 : |v - w| * |v + w| ≤ 21 / 10 * u * (204 / 100) := mul_le_mul hv (by linarith) (abs_nonneg _) (by positivity)
    linarith
  have w0 : 0 ≤ w ^ 2 := sq_nonneg w
  have w1 : w ^ 2 ≤ 1 := by rw [← sq_abs]; exact pow_le_one₀ (abs_nonneg _) hw
  refine ⟨by linarith, by linarith, ?_⟩
  have h4 := fl_unit_error b (v * v)
  have h5 := fl_unit_error b (1 - fl b (v * v))
  change |fl b (v * v) - v * v| ≤ u * |v * v| at h4
  change |fl b (1 - fl b (v * v)) - (1 - fl b (v * v))| ≤ u * |1 - fl b (v * v)| at h5
  have h6 : |v * v| ≤ 11 / 10 := by
    have := abs_add_le (v * v - w ^ 2) (w ^ 2)
    rw [sub_add_cancel, abs_of_nonneg w0] at this
    linarith
  set a := fl b (v * v)
  have h7 : u * |v * v| ≤ u * (11 / 10) := mul_le_mul_of_nonneg_left h6 u0.le
  have h8 : |a - w ^ 2| ≤ 54 / 10 * u := by
    have := abs_add_le (a - v * v) (v * v - w ^ 2)
    rw [sub_add_sub_cancel] at this
    linarith
  have h9 : |1 - a| ≤ 11 / 10 := by
    have := abs_sub (1 - w ^ 2) (a - w ^ 2)
    rw [abs_of_nonneg (by linarith : (0 : ℝ) ≤ 1 - w ^ 2)] at this
    rw [show 1 - w ^ 2 - (a - w ^ 2) = 1 - a by ring] at this
    linarith
  have h10 : u * |1 - a| ≤ u * (11 / 10) := mul_le_mul_of_nonneg_left h9 u0.le
  have h11 := abs_sub (fl b (1 - a) - (1 - a)) (a - w ^ 2)
  rw [show fl b (1 - a) - (1 - a) - (a - w ^ 2) = fl b (1 - a) - (1 - w ^ 2) by ring] at h11
  linarith

/-- A product of nearby numbers, rounded. -/
theorem fl_mul_near (hb : 20 ≤ b) (a' a c' c A C α γ : ℝ) (ha : |a' - a| ≤ α * (1 / 2 ^ b)) (hc : |c' - c| ≤ γ * (1 / 2 ^ b))
    (hA : |a| ≤ A) (hC : |c| ≤ C) (h0 : 0 ≤ α) (h1 : 0 ≤ γ) (hα : α ≤ 1000) (hγ : γ ≤ 1000) (hA4 : A ≤ 4) (hC4 : C ≤ 4) :
    |fl b (a' * c') - a * c| ≤ (α * C + γ * A + A * C + 2 / 10 * α + 1 / 10) * (1 / 2 ^ b) := by
  obtain ⟨u0, u1⟩ := unit_small hb
  have h3 := fl_unit_error b (a' * c')
  set u : ℝ := 1 / 2 ^ b
  have A0 : 0 ≤ A := (abs_nonneg _).trans hA
  have C0 : 0 ≤ C := (abs_nonneg _).trans hC
  have e1 : |a' * c' - a * c| ≤ α * u * C + A * (γ * u) + α * u * (γ * u) := by
    rw [show a' * c' - a * c = (a' - a) * c + a * (c' - c) + (a' - a) * (c' - c) by ring]
    refine (abs_add_le _ _).trans (add_le_add ((abs_add_le _ _).trans (add_le_add ?_ ?_)) ?_)
    · rw [abs_mul]; exact mul_le_mul ha hC (abs_nonneg _) (by positivity)
    · rw [abs_mul]; exact mul_le_mul hA hc (abs_nonneg _) A0
    · rw [abs_mul]; exact mul_le_mul ha hc (abs_nonneg _) (by positivity)
  have e2 : |a' * c'| ≤ A * C + (α * u * C + A * (γ * u) + α * u * (γ * u)) := by
    have g := abs_add_le (a' * c' - a * c) (a * c)
    rw [sub_add_cancel, abs_mul a c] at g
    have := mul_le_mul hA hC (abs_nonneg _) A0
    linarith
  have e3 := abs_add_le (fl b (a' * c') - a' * c') (a' * c' - a * c)
  rw [sub_add_sub_cancel] at e3
  have e4 : u * |a' * c'| ≤ u * (A * C + (α * u * C + A * (γ * u) + α * u * (γ * u))) := mul_le_mul_of_nonneg_left e2 u0.le
  -- the terms of second order
  have t1 : α * u * (γ * u) ≤ 1 / 10 * α * u := by
    have : γ * u ≤ 1 / 10 := by nlinarith
    calc α * u * (γ * u) ≤ α * u * (1 / 10) := mul_le_mul_of_nonneg_left this (by positivity)
      _ = _ := by ring
  have t2 : u * (α * u * C + A * (γ * u) + α * u * (γ * u)) ≤ (1 / 10 + 1 / 10 * α) * u := by
    have g1 : α * u * C ≤ 1 / 100 := by
      have : α * u ≤ 1000 * (1 / 2 ^ 20) := mul_le_mul hα u1 u0.le (by norm_num)
      have := mul_le_mul this hC4 C0 (by norm_num)
      norm_num at this ⊢
      linarith
    have g2 : A * (γ * u) ≤ 1 / 100 := by
      have : γ * u ≤ 1000 * (1 / 2 ^ 20) := mul_le_mul hγ u1 u0.le (by norm_num)
      have := mul_le_mul hA4 this (by positivity) (by norm_num)
      norm_num at this ⊢
      linarith
    have g3 : α * u * (γ * u) ≤ 1 / 10 * α * (1 / 2 ^ 20) := t1.trans (mul_le_mul_of_nonneg_left u1 (by positivity))
    have : α * u * C + A * (γ * u) + α * u * (γ * u) ≤ 1 / 10 + 1 / 10 * α := by linarith
    rw [mul_comm]
    exact mul_le_mul_of_nonneg_right this u0.le
  nlinarith

/-- The combination of structure and luminance. -/
theorem gsmCombine_near (hb : 20 ≤ b) (p con' con lum' lum : ℝ) (hp : 0 ≤ p) (hp1 : p ≤ 1) (hc : |con| ≤ 1)
    (hc' : |con' - con| ≤ 26 * (1 / 2 ^ b)) (l0 : 0 ≤ lum) (l1 : lum ≤ 1) (hl' : |lum' - lum| ≤ 7 * (1 / 2 ^ b)) :
    |(1 - p * con) * con + p * con * lum| ≤ 3 ∧
    |gsmCombine b p con' lum' - ((1 - p * con) * con + p * con * lum)| ≤ 140 * (1 / 2 ^ b) := by
  obtain ⟨u0, u1⟩ := unit_small hb
  have hpa : |p| ≤ 1 := by rw [abs_of_nonneg hp]; exact hp1
  have hla : |lum| ≤ 1 := by rw [abs_of_nonneg l0]; exact l1
  have hw1 : |p * con| ≤ 1 := by rw [abs_mul]; exact mul_le_one₀ hpa (abs_nonneg _) hc
  have hw := fl_mul_near hb p p con' con 1 1 0 26 (by simp) hc' hpa hc (by norm_num) (by norm_num) (by norm_num) (by norm_num)
    (by norm_num) (by norm_num)
  unfold gsmCombine
  set u : ℝ := 1 / 2 ^ b with hu
  set w' := fl b (p * con')
  set w := p * con
  have hw' : |w' - w| ≤ 271 / 10 * u := hw.trans (by nlinarith)
  have h1w : |1 - w| ≤ 2 := by
    have := abs_sub (1 : ℝ) w
    rw [abs_one] at this
    linarith
  have hv' : |fl b (1 - w') - (1 - w)| ≤ 292 / 10 * u := by
    have g := fl_unit_error b (1 - w')
    rw [← hu] at g
    have g1 := abs_sub (1 - w) (w' - w)
    rw [show 1 - w - (w' - w) = 1 - w' by ring] at g1
    have g2 := abs_sub (fl b (1 - w') - (1 - w')) (w' - w)
    rw [show fl b (1 - w') - (1 - w') - (w' - w) = fl b (1 - w') - (1 - w) by ring] at g2
    have g3 : u * |1 - w'| ≤ u * (21 / 10) := mul_le_mul_of_nonneg_left (by linarith) u0.le
    linarith
  have hA := fl_mul_near hb (fl b (1 - w')) (1 - w) con' con 2 1 (292 / 10) 26 hv' hc' h1w hc (by norm_num) (by norm_num)
    (by norm_num) (by norm_num) (by norm_num) (by norm_num)
  have hB := fl_mul_near hb w' w lum' lum 1 1 (271 / 10) 7 hw' hl' hw1 hla (by norm_num) (by norm_num)
    (by norm_num) (by norm_num) (by norm_num) (by norm_num)
  rw [← hu] at hA hB
  set A := fl b (fl b (1 - w') * con')
  set B := fl b (w' * lum')
  have hA' : |A - (1 - w) * con| ≤ 893 / 10 * u := hA.trans (by nlinarith)
  have hB' : |B - w * lum| ≤ 407 / 10 * u := hB.trans (by nlinarith)
  have h3 : |(1 - w) * con + w * lum| ≤ 3 := by
    refine (abs_add_le _ _).trans ?_
    rw [abs_mul, abs_mul]
    have g1 := mul_le_mul h1w hc (abs_nonneg _) (by norm_num)
    have g2 := mul_le_mul hw1 hla (abs_nonneg _) (by norm_num)
    linarith
  refine ⟨h3, ?_⟩
  have g := fl_unit_error b (A + B)
  rw [← hu] at g
  have e1 : |A + B - ((1 - w) * con + w * lum)| ≤ 130 * u := by
    have := abs_add_le (A - (1 - w) * con) (B - w * lum)
    rw [show A - (1 - w) * con + (B - w * lum) = A + B - ((1 - w) * con + w * lum) by ring] at this
    linarith
  have e2 := abs_add_le (A + B - ((1 - w) * con + w * lum)) ((1 - w) * con + w * lum)
  rw [sub_add_cancel] at e2
  have e3 := abs_add_le (fl b (A + B) - (A + B)) (A + B - ((1 - w) * con + w * lum))
  rw [sub_add_sub_cancel] at e3
  have e4 : u * |A + B| ≤ u * 4 := mul_le_mul_of_nonneg_left (by linarith) u0.le
  linarith

theorem viaDouble_near (hb : 20 ≤ b) (x : ℝ) : |viaDouble b x - x| ≤ 201 / 100 * (1 / 2 ^ b) * |x| := by
  obtain ⟨u0, u1⟩ := unit_small hb
  unfold viaDouble
  have h1 := fl_unit_error (max b 53) x
  have h2 := fl_unit_error b (fl (max b 53) x)
  have hq : (1 : ℝ) / 2 ^ max b 53 ≤ 1 / 2 ^ b :=
    div_le_div_of_nonneg_left (by norm_num) (by positivity) (pow_le_pow_right₀ (by norm_num) (le_max_left _ _))
  set u : ℝ := 1 / 2 ^ b
  set z := fl (max b 53) x
  have h3 : |z - x| ≤ u * |x| := h1.trans (mul_le_mul_of_nonneg_right hq (abs_nonneg x))
  have h4 := abs_add_le (z - x) x
  rw [sub_add_cancel] at h4
  have h5 := abs_add_le (fl b z - z) (z - x)
  rw [sub_add_sub_cancel] at h5
  have h6 : u * |z| ≤ u * (u * |x| + |x|) := mul_le_mul_of_nonneg_left (by linarith) u0.le
  have h7 : u * (u * |x|) ≤ 1 / 2 ^ 20 * (u * |x|) := mul_le_mul_of_nonneg_right u1 (by positivity)
  have h8 : 0 ≤ u * |x| := by positivity
  nlinarith

/-! ### One pixel -/

/-- **C201.** The quality of a pixel is a number whenever the divisor is not zero, and computed with an error of at most
140 units, for all gradients, all pixels that differ by at most the data range, and every constant `k` computed from the
exact one by a float64 division and a conversion. -/
theorem C201_pixel (hb : 20 ≤ b) (p k dr gr gm d x y : ℝ) (hk : 0 ≤ k) (hp : 0 ≤ p) (hp1 : p ≤ 1) (hd : d ≠ 0)
    (hdr : 0 < dr) (h : |x - y| ≤ dr) :
    |Spec.gsmPixel p k dr gr gm d x y| ≤ 3 ∧
    ∃ v, gsmQuality b p (viaDouble b k) dr gr gm d x y = .fin v ∧
      |v - Spec.gsmPixel p k dr gr gm d x y| ≤ 140 / 2 ^ b := by
  have hk' := viaDouble_near hb k
  rw [abs_of_nonneg hk] at hk'
  obtain ⟨h1, h2, h3⟩ := structure_near hb gr gm d (viaDouble b k) k hk hk'
  obtain ⟨l0, l1, l2⟩ := gsmLum_near hb hdr h
  obtain ⟨q1, q2⟩ := gsmCombine_near hb p _ _ _ _ hp hp1 h2 h3 l0 l1 l2
  refine ⟨q1, _, ?_, q2.trans (le_of_eq (by ring))⟩
  unfold gsmQuality
  rw [if_neg hd, if_neg h1.ne']

example : ∃ v, gsmQuality 24 (1 / 10) (viaDouble 24 (200 / 510)) 255 (-510) 3 (1 / 1000) 0 255 = .fin v ∧
    |v - Spec.gsmPixel (1 / 10) (200 / 510) 255 (-510) 3 (1 / 1000) 0 255| ≤ 140 / 2 ^ 24 :=
  (C201_pixel (by norm_num) _ _ 255 (-510) 3 (1 / 1000) 0 255 (by norm_num) (by norm_num) (by norm_num) (by norm_num)
    (by norm_num) (by norm_num)).2

/-! ### The score -/

theorem additions_leaves (f : P → ℝ) (o : SumOrder P) : (o.additions f).leaves = o.positions.map f := by
  induction o with
  | leaf q => rfl
  | node l r hl hr => simp [SumOrder.additions, Summation.leaves, SumOrder.positions, hl, hr]

theorem additions_depth (f : P → ℝ) (o : SumOrder P) : (o.additions f).depth = o.depth := by
  induction o with
  | leaf q => rfl
  | node l r hl hr => simp [SumOrder.additions, Summation.depth, SumOrder.depth, hl, hr]

theorem sum_abs_le (l : List ℝ) : |l.sum| ≤ (l.map (fun v => |v|)).sum := by
  induction l with
  | nil => simp
  | cons v l ih =>
    simp only [List.sum_cons, List.map_cons]
    exact (abs_add_le _ _).trans (add_le_add le_rfl ih)

/-- Sums of values with both signs. -/
theorem eval_signed (t : Summation) :
    |t.eval b - t.leaves.sum| ≤ ((1 + 1 / 2 ^ b) ^ t.depth - 1) * (t.leaves.map (fun v => |v|)).sum := by
  have u0 : (0 : ℝ) < 1 / 2 ^ b := by positivity
  set u : ℝ := 1 / 2 ^ b with hu
  induction t with
  | leaf v => simp [Summation.eval, Summation.leaves, Summation.depth]
  | node l r hl hr =>
    simp only [Summation.eval, Summation.leaves, Summation.depth, List.sum_append, List.map_append]
    set L := l.leaves.sum
    set R := r.leaves.sum
    set A := (l.leaves.map (fun v => |v|)).sum
    set B := (r.leaves.map (fun v => |v|)).sum
    have A0 : 0 ≤ A := List.sum_nonneg (by simp)
    have B0 : 0 ≤ B := List.sum_nonneg (by simp)
    set m := max l.depth r.depth
    have g1 : (1 + u) ^ l.depth ≤ (1 + u) ^ m := pow_le_pow_right₀ (by linarith) (le_max_left _ _)
    have g2 : (1 + u) ^ r.depth ≤ (1 + u) ^ m := pow_le_pow_right₀ (by linarith) (le_max_right _ _)
    have hl2 : |l.eval b - L| ≤ ((1 + u) ^ m - 1) * A := hl.trans (mul_le_mul_of_nonneg_right (by linarith) A0)
    have hr2 : |r.eval b - R| ≤ ((1 + u) ^ m - 1) * B := hr.trans (mul_le_mul_of_nonneg_right (by linarith) B0)
    have h1 := fl_unit_error b (l.eval b + r.eval b)
    rw [← hu] at h1
    have h2 := abs_add_le (l.eval b - L) (r.eval b - R)
    rw [show l.eval b - L + (r.eval b - R) = l.eval b + r.eval b - (L + R) by ring] at h2
    have hLA : |L| ≤ A := by
      exact sum_abs_le l.leaves
    have hRB : |R| ≤ B := by
      exact sum_abs_le r.leaves
    have h3 : |l.eval b + r.eval b| ≤ (1 + u) ^ m * (A + B) := by
      have g := abs_add_le (l.eval b + r.eval b - (L + R)) (L + R)
      rw [sub_add_cancel] at g
      have g' := abs_add_le L R
      nlinarith
    have h4 := abs_add_le (fl b (l.eval b + r.eval b) - (l.eval b + r.eval b)) (l.eval b + r.eval b - (L + R))
    rw [sub_add_sub_cancel] at h4
    have h5 : u * |l.eval b + r.eval b| ≤ u * ((1 + u) ^ m * (A + B)) := mul_le_mul_of_nonneg_left h3 u0.le
    rw [pow_succ]
    nlinarith

theorem power_near (u : ℝ) (hu : 0 ≤ u) (n : ℕ) (h : 2 * (n * u) ≤ 1) : (1 + u) ^ n ≤ 1 + 2 * (n * u) := by
  induction n with
  | zero => simp
  | succ n ih =>
    push_cast at h ⊢
    have hn : 0 ≤ (n : ℝ) * u := by positivity
    have := ih (by nlinarith)
    rw [pow_succ]
    nlinarith [mul_le_mul_of_nonneg_right this (by linarith : (0 : ℝ) ≤ 1 + u)]

open Classical in
/-- The score, exactly: the mean of the qualities of all pixels with a divisor that is not zero. -/
noncomputable def Spec.gsmScore (l : List P) (p k dr : ℝ) (gr gm d x y : P → ℝ) : ℝ :=
  ((l.filter (fun i => d i ≠ 0)).map (fun i => Spec.gsmPixel p k dr (gr i) (gm i) (d i) (x i) (y i))).sum /
    (l.filter (fun i => d i ≠ 0)).length

theorem filter_sum (l : List P) (a : P → Prop) [DecidablePred a] (f : P → ℝ) (h : ∀ i ∈ l, ¬ a i → f i = 0) :
    (l.map f).sum = ((l.filter (fun i => a i)).map f).sum := by
  induction l with
  | nil => rfl
  | cons i l ih =>
    have ih' := ih fun j hj => h j (List.mem_cons_of_mem _ hj)
    by_cases ha : a i
    · rw [List.filter_cons_of_pos (by simpa using ha)]
      simp [ih']
    · rw [List.filter_cons_of_neg (by simpa using ha)]
      simp [ih', h i List.mem_cons_self ha]

/-- **C201.** The score for given gradient images: if a gradient is positive and the divisor is not zero everywhere, GSM is a
number and differs from the exact score by at most `160 + 7 * depth` units, where `depth` is the number of additions a pixel
takes part in. For every order of summation; `m` is the largest gradient. -/
theorem C201_score (hb : 20 ≤ b) (G : (P → ℝ) → P → ℝ) (key : (P → ℝ) → ℝ) (o : SumOrder P) (hdepth : 2 * o.depth ≤ 2 ^ b)
    (dr c p : ℝ) (hdr : 0 < dr) (hc : 0 ≤ c) (hp : 0 ≤ p) (hp1 : p ≤ 1) (x y d : P → ℝ)
    (hrange : ∀ i ∈ o.positions, |x i - y i| ≤ dr) (m : ℝ) (hm : 0 < m)
    (hmax : ∀ i ∈ o.positions, G x i ≤ m ∧ G y i ≤ m) (hmem : ∃ i ∈ o.positions, G x i = m ∨ G y i = m)
    (hd : d = if key (G x) < key (G y) then G y else G x) (hne : ∃ i ∈ o.positions, d i ≠ 0) :
    ∃ v, gsmRounded b G key o dr c p x y = .fin v ∧
      |v - Spec.gsmScore o.positions p (c / m) dr (G x) (G y) d x y| ≤ (160 + 7 * o.depth) / 2 ^ b := by
  classical
  obtain ⟨u0, u1⟩ := unit_small hb
  have hle : ∀ (g : P → ℝ) (o : SumOrder P), ∀ j ∈ o.positions, g j ≤ o.top g := by
    intro g o
    induction o with
    | leaf q => intro j hj; simp only [SumOrder.positions, List.mem_singleton] at hj; rw [hj]; rfl
    | node l r hl hr =>
      intro j hj
      simp only [SumOrder.positions, List.mem_append] at hj
      simp only [SumOrder.top]
      rcases hj with hj | hj
      · exact (hl j hj).trans (le_max_left _ _)
      · exact (hr j hj).trans (le_max_right _ _)
  have htop : max (o.top (G x)) (o.top (G y)) = m := by
    apply le_antisymm
    · obtain ⟨i, hi, e⟩ := o.top_mem (G x)
      obtain ⟨j, hj, e'⟩ := o.top_mem (G y)
      rw [← e, ← e']
      exact max_le (hmax i hi).1 (hmax j hj).2
    · obtain ⟨i, hi, e | e⟩ := hmem
      · rw [← e]; exact (hle _ o i hi).trans (le_max_left _ _)
      · rw [← e]; exact (hle _ o i hi).trans (le_max_right _ _)
  have hk : 0 ≤ c / m := div_nonneg hc hm.le
  unfold gsmRounded
  rw [htop, if_neg hm.ne', ← hd]
  set q : P → NF := fun i => gsmQuality b p (viaDouble b (c / m)) dr (G x i) (G y i) (d i) (x i) (y i) with hq
  set e : P → ℝ := fun i => Spec.gsmPixel p (c / m) dr (G x i) (G y i) (d i) (x i) (y i) with he
  have hnan : ∀ i, d i = 0 → q i = .nan := by
    intro i hi
    simp only [hq, gsmQuality]
    rw [if_pos hi]
  have hfin : ∀ i ∈ o.positions, d i ≠ 0 → |e i| ≤ 3 ∧ ∃ v, q i = .fin v ∧ |v - e i| ≤ 140 / 2 ^ b := fun i hi hdi =>
    C201_pixel hb p (c / m) dr (G x i) (G y i) (d i) (x i) (y i) hk hp hp1 hdi hdr (hrange i hi)
  set F := o.positions.filter (fun i => d i ≠ 0) with hF
  have hfil : o.positions.filter (fun i => q i ≠ .nan) = F := by
    refine List.filter_congr fun i hi => ?_
    by_cases hdi : d i = 0
    · simp [hdi, hnan i hdi]
    · obtain ⟨-, v, hv, -⟩ := hfin i hi hdi
      simp [hdi, hv]
  have hFmem : ∀ i ∈ F, i ∈ o.positions ∧ d i ≠ 0 := fun i hi => by simpa [hF] using hi
  have hFpos : 0 < F.length := by
    obtain ⟨i, hi, hdi⟩ := hne
    exact List.length_pos_of_mem (show i ∈ F by simp [hF, hi, hdi])
  have hn : (0 : ℝ) < F.length := by exact_mod_cast hFpos
  unfold nanMeanRounded
  rw [if_neg, hfil, if_neg hFpos.ne']
  swap
  · rintro ⟨i, hi, h⟩
    by_cases hdi : d i = 0
    · rw [hnan i hdi] at h; simp at h
    · obtain ⟨-, v, hv, -⟩ := hfin i hi hdi
      rw [hv] at h; simp at h
  refine ⟨_, rfl, ?_⟩
  change |_ - (F.map e).sum / F.length| ≤ _
  set f : P → ℝ := fun i => (q i).orZero with hf
  have hf0 : ∀ i ∈ o.positions, ¬ d i ≠ 0 → f i = 0 := by
    intro i _ hdi
    simp only [hf, hnan i (not_not.1 hdi), NF.orZero]
  have hfe : ∀ i ∈ F, |f i - e i| ≤ 140 / 2 ^ b ∧ |f i| ≤ 31 / 10 := by
    intro i hi
    obtain ⟨h3, v, hv, hve⟩ := hfin i (hFmem i hi).1 (hFmem i hi).2
    have hfv : f i = v := by simp only [hf, hv, NF.orZero]
    rw [hfv]
    refine ⟨hve, ?_⟩
    have g := abs_add_le (v - e i) (e i)
    rw [sub_add_cancel] at g
    have : (140 : ℝ) / 2 ^ b ≤ 140 * (1 / 2 ^ 20) := by
      rw [div_eq_mul_one_div]; exact mul_le_mul_of_nonneg_left u1 (by norm_num)
    norm_num at this
    linarith
  have hev := eval_signed (b := b) (o.additions f)
  rw [additions_leaves, additions_depth] at hev
  have hsum : (o.positions.map f).sum = (F.map f).sum := filter_sum _ (fun i => d i ≠ 0) f hf0
  have habs : ((o.positions.map f).map (fun v => |v|)).sum ≤ F.length * (31 / 10) := by
    rw [List.map_map, filter_sum o.positions (fun i => d i ≠ 0) _ (fun i hi hdi => by
      simp only [Function.comp_apply, hf0 i hi hdi, abs_zero])]
    change (F.map _).sum ≤ _
    have := List.sum_le_card_nsmul (F.map ((fun v => |v|) ∘ f)) (31 / 10) (by
      intro v hv
      obtain ⟨i, hi, rfl⟩ := List.mem_map.1 hv
      exact (hfe i hi).2)
    simpa using this
  rw [hsum] at hev
  set u : ℝ := 1 / 2 ^ b with hu
  have hD : 2 * ((o.depth : ℝ) * u) ≤ 1 := by
    have : (2 * o.depth : ℝ) ≤ 2 ^ b := by exact_mod_cast hdepth
    rw [← mul_assoc, hu, mul_one_div, div_le_one (by positivity)]
    exact this
  have hpow := power_near u u0.le o.depth hD
  have hDu : 0 ≤ (o.depth : ℝ) * u := by positivity
  have hpow0 : 1 ≤ (1 + u) ^ o.depth := one_le_pow₀ (by linarith)
  have h1 : |(o.additions f).eval b - (F.map f).sum| ≤ F.length * (62 / 10 * (o.depth * u)) := by
    refine hev.trans ((mul_le_mul (by linarith : (1 + u) ^ o.depth - 1 ≤ 2 * (o.depth * u)) habs
      (List.sum_nonneg (by simp)) (by positivity)).trans (le_of_eq (by ring)))
  have h2 : |(F.map f).sum - (F.map e).sum| ≤ F.length * (140 * u) := by
    rw [← list_sum_sub]
    have g := list_sum_abs_le (F.map fun i => f i - e i) (140 / 2 ^ b) (by
      intro v hv
      obtain ⟨i, hi, rfl⟩ := List.mem_map.1 hv
      exact (hfe i hi).1)
    rw [List.length_map] at g
    exact g.trans (le_of_eq (by rw [hu]; ring))
  set E := (o.additions f).eval b
  set S := (F.map f).sum
  set X := (F.map e).sum
  have h3 : |E / F.length - X / F.length| ≤ 62 / 10 * (o.depth * u) + 140 * u := by
    rw [← sub_div, abs_div, abs_of_pos hn, div_le_iff₀ hn]
    have g := abs_add_le (E - S) (S - X)
    rw [sub_add_sub_cancel] at g
    linarith
  have h4 : |X / F.length| ≤ 3 := by
    rw [abs_div, abs_of_pos hn, div_le_iff₀ hn]
    have g := list_sum_abs_le (F.map e) 3 (by
      intro v hv
      obtain ⟨i, hi, rfl⟩ := List.mem_map.1 hv
      exact (hfin i (hFmem i hi).1 (hFmem i hi).2).1)
    rw [List.length_map] at g
    linarith
  have h5 := viaDouble_near hb (E / F.length)
  rw [← hu] at h5
  have h6 := abs_add_le (E / F.length - X / F.length) (X / F.length)
  rw [sub_add_cancel] at h6
  have h7 := abs_add_le (viaDouble b (E / F.length) - E / F.length) (E / F.length - X / F.length)
  rw [sub_add_sub_cancel] at h7
  have h8 : 201 / 100 * u * |E / F.length| ≤ 201 / 100 * u * (62 / 10) :=
    mul_le_mul_of_nonneg_left (by norm_num at u1 ⊢; linarith) (by positivity)
  have h9 : (160 + 7 * (o.depth : ℝ)) / 2 ^ b = 160 * u + 7 * (o.depth * u) := by rw [hu]; ring
  rw [h9]
  linarith

/-- Here the image itself takes the place of the gradient. -/
example (key : (Bool → ℝ) → ℝ) (x y : Bool → ℝ) (hx : x = fun i => if i then 3 else -1) (hy : y = fun i => if i then 200 else -7) :
    ∃ v, gsmRounded 24 (fun x => x) key (.node (.leaf true) (.leaf false)) 255 200 (1 / 10) x y = .fin v ∧
      |v - Spec.gsmScore [true, false] (1 / 10) (200 / 200) 255 x y (if key x < key y then y else x) x y| ≤
        (160 + 7 * (1 : ℕ)) / 2 ^ 24 :=
  C201_score (b := 24) (by norm_num) (fun x => x) key (.node (.leaf true) (.leaf false)) (by simp [SumOrder.depth]) 255 200 (1 / 10)
    (by norm_num) (by norm_num) (by norm_num) (by norm_num) x y _
    (by intro i _; rw [hx, hy]; cases i <;> norm_num [abs_le]) 200 (by norm_num)
    (by intro i _; rw [hx, hy]; cases i <;> norm_num) ⟨true, by simp [SumOrder.positions], by rw [hy]; simp⟩ rfl
    ⟨true, by simp [SumOrder.positions], by rw [hx, hy]; split_ifs <;> norm_num⟩

/-! ### The choice of the divisor -/

/-- **C201.** For integer gradients the divisor is the one with the larger mean of absolute values, exactly: the computed means
(`_mean_of_abs` in float64) compare like the sums, as long as these do not exceed `2 ^ 52`. -/
theorem C201_choice (o : SumOrder P) (g h : P → ℤ) (hg : (o.positions.map (fun i => |g i|)).sum ≤ 2 ^ 52)
    (hh : (o.positions.map (fun i => |h i|)).sum ≤ 2 ^ 52) :
    meanRounded 53 (o.additions (fun i => |(g i : ℝ)|)) < meanRounded 53 (o.additions (fun i => |(h i : ℝ)|)) ↔
      (o.positions.map (fun i => |g i|)).sum < (o.positions.map (fun i => |h i|)).sum := by
  have key : ∀ f : P → ℤ, (o.positions.map (fun i => |f i|)).sum ≤ 2 ^ 52 →
      meanRounded 53 (o.additions (fun i => |(f i : ℝ)|)) =
        fl 53 (((o.positions.map (fun i => |f i|)).sum : ℝ) / o.positions.length) := by
    intro f hf
    have hl := additions_leaves (fun i => |(f i : ℝ)|) o
    have hsum : (o.positions.map (fun i => |(f i : ℝ)|)).sum = ((o.positions.map (fun i => |f i|)).sum : ℤ) := by
      induction o.positions with
      | nil => simp
      | cons i l ih => simp [ih]
    have hex := Summation.eval_exact 53 (by norm_num) 0 (o.additions (fun i => |(f i : ℝ)|)) (fun v => ⌊v⌋) (by
      rw [hl]
      intro v hv
      obtain ⟨i, -, rfl⟩ := List.mem_map.1 hv
      rw [← Int.cast_abs, Int.floor_intCast, zpow_zero, mul_one]) (by
      rw [hl, List.map_map]
      refine le_trans (le_of_eq ?_) (hf.trans (by norm_num))
      congr 1
      refine List.map_congr_left fun i _ => ?_
      simp only [Function.comp_apply]
      rw [← Int.cast_abs, Int.floor_intCast, abs_abs])
    unfold meanRounded Summation.size
    rw [viaDouble_double, hex, hl, hsum, List.length_map]
  rw [key g hg, key h hh]
  have hn : (0 : ℝ) < o.positions.length := by
    obtain ⟨i, hi, -⟩ := o.top_mem (fun _ => 0)
    exact_mod_cast List.length_pos_of_mem hi
  have g0 : 0 ≤ (o.positions.map (fun i => |g i|)).sum := List.sum_nonneg (by simp)
  set A := (o.positions.map (fun i => |g i|)).sum
  set B := (o.positions.map (fun i => |h i|)).sum
  constructor
  · intro hlt
    by_contra hge
    push Not at hge
    refine absurd hlt (not_lt.2 (fl_mono (by norm_num) ?_))
    exact div_le_div_of_nonneg_right (by exact_mod_cast hge) hn.le
  · intro hlt
    have a0 : (0 : ℝ) ≤ A := by exact_mod_cast g0
    have a1 : (A : ℝ) ≤ 2 ^ 52 := by exact_mod_cast hg
    have b1 : (B : ℝ) ≤ 2 ^ 52 := by exact_mod_cast hh
    have ab : (A : ℝ) + 1 ≤ B := by exact_mod_cast hlt
    have h1 := fl_le_mul 53 (div_nonneg a0 hn.le)
    have h2 := mul_le_fl 53 (div_nonneg (by linarith : (0 : ℝ) ≤ B) hn.le)
    refine lt_of_le_of_lt h1 (lt_of_lt_of_le ?_ h2)
    rw [div_mul_eq_mul_div, div_mul_eq_mul_div]
    refine div_lt_div_of_pos_right ?_ hn
    norm_num at a1 b1 ⊢
    linarith

example : meanRounded 53 ((SumOrder.node (.leaf true) (.leaf false)).additions (fun i => |((if i then -3 else 1 : ℤ) : ℝ)|)) <
    meanRounded 53 ((SumOrder.node (.leaf true) (.leaf false)).additions (fun i => |((if i then 0 else 5 : ℤ) : ℝ)|)) :=
  (C201_choice (.node (.leaf true) (.leaf false)) (fun i => if i then -3 else 1) (fun i => if i then 0 else 5) (by decide)
    (by decide)).2 (by decide)

end

end Viqa
