import Verif.Model.Basic
import Mathlib.Analysis.SpecialFunctions.Sqrt
import Mathlib.Algebra.Order.BigOperators.Group.List
import Mathlib.Algebra.BigOperators.Ring.List
import Mathlib.Tactic.Linarith
import Mathlib.Tactic.Ring
import Mathlib.Tactic.FieldSimp
import Mathlib.Tactic.Positivity

/-! Sums over lists: Cauchy-Schwarz, Minkowski, weighted variance. -/

namespace Viqa

variable {ι : Type}

theorem sum_nonneg (l : List ι) (f : ι → ℝ) (h : ∀ i ∈ l, 0 ≤ f i) : 0 ≤ (l.map f).sum := by
  apply List.sum_nonneg
  intro x hx
  obtain ⟨i, hi, rfl⟩ := List.mem_map.1 hx
  exact h i hi

theorem sum_eq_zero_iff (l : List ι) (f : ι → ℝ) (h : ∀ i ∈ l, 0 ≤ f i) :
    (l.map f).sum = 0 ↔ ∀ i ∈ l, f i = 0 := by
  induction l with
  | nil => simp
  | cons a l ih =>
    have h0 := h a (by simp)
    have h1 := sum_nonneg l f (fun i hi => h i (by simp [hi]))
    have ih' := ih (fun i hi => h i (by simp [hi]))
    simp only [List.map_cons, List.sum_cons, List.mem_cons, forall_eq_or_imp]
    rw [← ih']
    constructor
    · intro hs; constructor <;> linarith
    · rintro ⟨ha, hl⟩; rw [ha, hl]; simp

theorem sum_map_add (l : List ι) (f g : ι → ℝ) :
    (l.map (fun i => f i + g i)).sum = (l.map f).sum + (l.map g).sum := by
  induction l with
  | nil => simp
  | cons a l ih => simp only [List.map_cons, List.sum_cons, ih]; ring

theorem sum_map_sub (l : List ι) (f g : ι → ℝ) :
    (l.map (fun i => f i - g i)).sum = (l.map f).sum - (l.map g).sum := by
  induction l with
  | nil => simp
  | cons a l ih => simp only [List.map_cons, List.sum_cons, ih]; ring

theorem sum_map_mul (l : List ι) (c : ℝ) (f : ι → ℝ) :
    (l.map (fun i => c * f i)).sum = c * (l.map f).sum := by
  induction l with
  | nil => simp
  | cons a l ih => simp only [List.map_cons, List.sum_cons, ih]; ring

theorem sum_map_mul' (l : List ι) (c : ℝ) (f : ι → ℝ) :
    (l.map (fun i => f i * c)).sum = (l.map f).sum * c := by
  induction l with
  | nil => simp
  | cons a l ih => simp only [List.map_cons, List.sum_cons, ih]; ring

theorem sum_congr (l : List ι) (f g : ι → ℝ) (h : ∀ i ∈ l, f i = g i) :
    (l.map f).sum = (l.map g).sum := by rw [List.map_congr_left h]

theorem sum_le (l : List ι) (f g : ι → ℝ) (h : ∀ i ∈ l, f i ≤ g i) :
    (l.map f).sum ≤ (l.map g).sum := by
  have := sum_nonneg l (fun i => g i - f i) (fun i hi => sub_nonneg.2 (h i hi))
  rw [sum_map_sub] at this; linarith

theorem sum_const (l : List ι) (c : ℝ) : (l.map (fun _ => c)).sum = l.length * c := by
  simp [List.map_const']

/-- Cauchy-Schwarz with weights. -/
theorem cauchy (l : List ι) (w a b : ι → ℝ) (hw : ∀ i ∈ l, 0 ≤ w i) :
    (l.map (fun i => w i * (a i * b i))).sum ^ 2 ≤
      (l.map (fun i => w i * a i ^ 2)).sum * (l.map (fun i => w i * b i ^ 2)).sum := by
  induction l with
  | nil => simp
  | cons i l ih =>
    have hi := hw i (by simp)
    have hl : ∀ j ∈ l, 0 ≤ w j := fun j hj => hw j (by simp [hj])
    have ih' := ih hl
    have hX : 0 ≤ (l.map (fun i => w i * a i ^ 2)).sum :=
      sum_nonneg l _ (fun j hj => mul_nonneg (hl j hj) (sq_nonneg _))
    have hY : 0 ≤ (l.map (fun i => w i * b i ^ 2)).sum :=
      sum_nonneg l _ (fun j hj => mul_nonneg (hl j hj) (sq_nonneg _))
    simp only [List.map_cons, List.sum_cons]
    generalize (l.map (fun i => w i * (a i * b i))).sum = S at *
    generalize (l.map (fun i => w i * a i ^ 2)).sum = X at *
    generalize (l.map (fun i => w i * b i ^ 2)).sum = Y at *
    have key : 2 * S * (a i * b i) ≤ X * b i ^ 2 + Y * a i ^ 2 := by
      apply le_of_sq_le_sq₀
      · nlinarith [sq_nonneg (X * b i ^ 2 - Y * a i ^ 2), mul_le_mul_of_nonneg_right ih' (sq_nonneg (a i * b i))]
      · positivity
    nlinarith [mul_le_mul_of_nonneg_left key hi, sq_nonneg (w i)]
  where
    le_of_sq_le_sq₀ {x y : ℝ} (h : x ^ 2 ≤ y ^ 2) (hy : 0 ≤ y) : x ≤ y := abs_le_of_sq_le_sq' h hy |>.2

theorem cauchy_sqrt (l : List ι) (w a b : ι → ℝ) (hw : ∀ i ∈ l, 0 ≤ w i) :
    |(l.map (fun i => w i * (a i * b i))).sum| ≤
      Real.sqrt (l.map (fun i => w i * a i ^ 2)).sum * Real.sqrt (l.map (fun i => w i * b i ^ 2)).sum := by
  have hX : 0 ≤ (l.map (fun i => w i * a i ^ 2)).sum :=
    sum_nonneg l _ (fun j hj => mul_nonneg (hw j hj) (sq_nonneg _))
  rw [← Real.sqrt_mul hX]
  exact Real.abs_le_sqrt (cauchy l w a b hw)

/-- Minkowski's inequality. -/
theorem minkowski (l : List ι) (a b : ι → ℝ) :
    Real.sqrt (l.map (fun i => (a i + b i) ^ 2)).sum ≤
      Real.sqrt (l.map (fun i => a i ^ 2)).sum + Real.sqrt (l.map (fun i => b i ^ 2)).sum := by
  have hX : 0 ≤ (l.map (fun i => a i ^ 2)).sum := sum_nonneg l _ (fun j _ => sq_nonneg _)
  have hY : 0 ≤ (l.map (fun i => b i ^ 2)).sum := sum_nonneg l _ (fun j _ => sq_nonneg _)
  have hc := cauchy_sqrt l (fun _ => 1) a b (fun _ _ => zero_le_one)
  simp only [one_mul] at hc
  have he : (l.map (fun i => (a i + b i) ^ 2)).sum =
      (l.map (fun i => a i ^ 2)).sum + (l.map (fun i => b i ^ 2)).sum
        + 2 * (l.map (fun i => a i * b i)).sum := by
    rw [← sum_map_mul, ← sum_map_add, ← sum_map_add]
    apply sum_congr; intro i _; ring
  rw [Real.sqrt_le_left (by positivity), he, add_sq, Real.sq_sqrt hX, Real.sq_sqrt hY]
  have := (abs_le.1 hc).2
  linarith

/-! ### Weighted mean and (co)variance -/

/-- Weighted covariance as the code computes it: mean of the product minus product of the means. -/
theorem cov_eq (l : List ι) (w a b : ι → ℝ) (hs : (l.map w).sum = 1) (A B : ℝ)
    (hA : A = (l.map (fun i => w i * a i)).sum) (hB : B = (l.map (fun i => w i * b i)).sum) :
    (l.map (fun i => w i * (a i * b i))).sum - A * B =
      (l.map (fun i => w i * ((a i - A) * (b i - B)))).sum := by
  have : (l.map (fun i => w i * ((a i - A) * (b i - B)))).sum =
      (l.map (fun i => w i * (a i * b i))).sum - B * (l.map (fun i => w i * a i)).sum
        - A * (l.map (fun i => w i * b i)).sum + (A * B) * (l.map w).sum := by
    rw [← sum_map_mul, ← sum_map_mul, ← sum_map_mul, ← sum_map_sub, ← sum_map_sub, ← sum_map_add]
    apply sum_congr; intro i _; ring
  rw [this, ← hA, ← hB, hs]; ring

/-! ### Indices -/

theorem indices_nodup (sh : List Nat) : (indices sh).Nodup := by
  induction sh with
  | nil => simp [indices]
  | cons n sh ih =>
    unfold indices
    rw [List.nodup_flatMap]
    refine ⟨fun i _ => ih.map (fun a b h => by simpa using h), ?_⟩
    apply List.Nodup.pairwise_of_forall_ne List.nodup_range
    intro i _ j _ hij l h1 h2
    obtain ⟨x, -, rfl⟩ := List.mem_map.1 h1
    obtain ⟨y, -, hy⟩ := List.mem_map.1 h2
    exact hij (List.cons.inj hy).1.symm

theorem length_indices (sh : List Nat) : (indices sh).length = sh.prod := by
  induction sh with
  | nil => rfl
  | cons n sh ih =>
    simp [indices, List.length_flatMap, ih, List.map_const', List.sum_replicate]

end Viqa
