import Verif.Props.Inverted
import Verif.Props.ColourRmse

/-!
**C213** The scores of the steps of a chain of processing steps bound the score of the whole chain.
-/

namespace Viqa

/-- A chain of images from `x` to `z`, with the RMSE of each step. -/
inductive Spec.Chain : NDArray ℝ → List ℝ → NDArray ℝ → Prop
  | nil (x : NDArray ℝ) (h : x.size ≠ 0) : Spec.Chain x [] x
  | cons {x y z : NDArray ℝ} {r : ℝ} {rs : List ℝ} (h : rmse x y = .ok r) (t : Spec.Chain y rs z) : Spec.Chain x (r :: rs) z

/-- A PSNR of at least `P` decibels. -/
def Spec.AtLeastDb (P : ℝ) (p : Psnr) : Prop := p = .infinite ∨ ∃ v, p = .finite v ∧ P ≤ v

/-- A chain of `n` steps, each with a PSNR of at least `P`. -/
inductive Spec.PsnrChain (dr P : ℝ) : NDArray ℝ → Nat → NDArray ℝ → Prop
  | nil (x : NDArray ℝ) (h : x.size ≠ 0) : Spec.PsnrChain dr P x 0 x
  | cons {x y z : NDArray ℝ} {p : Psnr} {n : Nat} (hx : x.size ≠ 0) (h : psnr dr x y = .ok p) (hp : Spec.AtLeastDb P p)
    (t : Spec.PsnrChain dr P y n z) : Spec.PsnrChain dr P x (n + 1) z

open Spec

theorem comparable_of_rmse {x y : NDArray ℝ} {r : ℝ} (h : rmse x y = .ok r) : Comparable x y := by
  unfold rmse meanSquaredError at h
  split_ifs at h with h1 h2
  exact ⟨not_not.1 h1, h2⟩

theorem rmse_self (x : NDArray ℝ) (h : x.size ≠ 0) : rmse x x = .ok 0 :=
  (C28_zero_iff x x ⟨rfl, h⟩).2 ⟨rfl, fun _ _ => rfl⟩

theorem chain_comparable {x z : NDArray ℝ} {rs : List ℝ} (h : Chain x rs z) : Comparable x z := by
  induction h with
  | nil x h => exact ⟨rfl, h⟩
  | cons h _ ih => exact (comparable_of_rmse h).trans ih

/-- **C213.** RMSE of a chain of any number of steps is at most the sum of the RMSE of the steps. -/
theorem C213_rmse (x z : NDArray ℝ) (rs : List ℝ) (h : Chain x rs z) : ∃ r, rmse x z = .ok r ∧ r ≤ rs.sum := by
  induction h with
  | nil x h => exact ⟨0, rmse_self x h, le_rfl⟩
  | @cons x y z r rs h t ih =>
    obtain ⟨q, hq, hle⟩ := ih
    have c1 := comparable_of_rmse h
    have c2 := chain_comparable t
    obtain ⟨v, hv, -⟩ := C28_nonneg x z (c1.trans c2)
    refine ⟨v, hv, ?_⟩
    have := C28_triangle x y z c1 c2 v r q hv h hq
    rw [List.sum_cons]
    linarith

/-- PSNR and RMSE say the same. -/
theorem atLeastDb_iff {dr P : ℝ} (hd : 0 < dr) {x y : NDArray ℝ} (h : Comparable x y) {p : Psnr} {r : ℝ} (hp : psnr dr x y = .ok p)
    (hr : rmse x y = .ok r) : AtLeastDb P p ↔ r ≤ dr * (10 : ℝ) ^ (-(P / 20)) := by
  have hpos : 0 < dr * (10 : ℝ) ^ (-(P / 20)) := mul_pos hd (Real.rpow_pos_of_pos (by norm_num) _)
  by_cases hs : x.Same y
  · have e1 := (C29_infinite_iff dr x y).2 hs
    have e2 := (C28_zero_iff x y h).2 hs
    rw [e1] at hp; cases hp
    rw [e2] at hr; cases hr
    exact ⟨fun _ => hpos.le, fun _ => .inl rfl⟩
  · obtain ⟨r', hr', -, hp'⟩ := C29_formula dr x y h hs hd.ne'
    rw [hp'] at hp; cases hp
    obtain ⟨r0, he⟩ := psnr_of_rmse hp' hr
    rw [he]
    have key : P ≤ 20 * Real.logb 10 (dr / r) ↔ r ≤ dr * (10 : ℝ) ^ (-(P / 20)) := by
      have h1 : P ≤ 20 * Real.logb 10 (dr / r) ↔ P / 20 ≤ Real.logb 10 (dr / r) := by
        constructor <;> intro h <;> linarith
      rw [h1, Real.le_logb_iff_rpow_le (by norm_num) (div_pos hd r0), le_div_iff₀ r0, Real.rpow_neg (by norm_num),
        ← div_eq_mul_inv, le_div_iff₀ (Real.rpow_pos_of_pos (by norm_num) _), mul_comm]
    rw [← key]
    constructor
    · rintro (h | ⟨v, hv, hle⟩)
      · cases h
      · cases hv; exact hle
    · exact fun h => .inr ⟨_, rfl, h⟩

theorem comparable_of_psnr {dr : ℝ} {x y : NDArray ℝ} {p : Psnr} (hx : x.size ≠ 0) (h : psnr dr x y = .ok p) : Comparable x y := by
  refine ⟨?_, hx⟩
  by_contra hs
  unfold psnr at h
  rw [if_neg (fun e => hs e.1)] at h
  unfold meanSquaredError at h
  rw [if_pos hs] at h
  cases h

theorem psnrChain_rmse {dr P : ℝ} (hd : 0 < dr) {x z : NDArray ℝ} {n : Nat} (h : PsnrChain dr P x n z) :
    Comparable x z ∧ ∃ r, rmse x z = .ok r ∧ r ≤ n * (dr * (10 : ℝ) ^ (-(P / 20))) := by
  induction h with
  | nil x h => exact ⟨⟨rfl, h⟩, 0, rmse_self x h, by simp⟩
  | @cons x y z p n hx h hp t ih =>
    obtain ⟨c2, q, hq, hle⟩ := ih
    have c1 := comparable_of_psnr hx h
    obtain ⟨s, hs, -⟩ := C28_nonneg x y c1
    obtain ⟨v, hv, -⟩ := C28_nonneg x z (c1.trans c2)
    refine ⟨c1.trans c2, v, hv, ?_⟩
    have h1 := (atLeastDb_iff hd c1 h hs).1 hp
    have := C28_triangle x y z c1 c2 v s q hv hs hq
    push_cast
    linarith

/-- **C213.** PSNR of a chain of `n` steps of at least `P` decibels each is at least `P - 20 log10 n` decibels: two steps lose at
most 6.02 dB. -/
theorem C213_psnr (dr P : ℝ) (hd : 0 < dr) (x z : NDArray ℝ) (n : Nat) (hn : 0 < n) (h : PsnrChain dr P x n z) :
    ∃ p, psnr dr x z = .ok p ∧ AtLeastDb (P - 20 * Real.logb 10 n) p := by
  obtain ⟨c, r, hr, hle⟩ := psnrChain_rmse hd h
  have hn' : (0 : ℝ) < n := by exact_mod_cast hn
  have hex : ∃ p, psnr dr x z = .ok p := by
    by_cases hs : x.Same z
    · exact ⟨_, (C29_infinite_iff dr x z).2 hs⟩
    · obtain ⟨r', hr', -, hp'⟩ := C29_formula dr x z c hs hd.ne'
      exact ⟨_, hp'⟩
  obtain ⟨p, hp⟩ := hex
  refine ⟨p, hp, (atLeastDb_iff hd c hp hr).2 (hle.trans (le_of_eq ?_))⟩
  have e : -((P - 20 * Real.logb 10 n) / 20) = Real.logb 10 n + -(P / 20) := by ring
  rw [e, Real.rpow_add (by norm_num), Real.rpow_logb (by norm_num) (by norm_num) hn']
  ring

/-- SSIM loses at most what the steps lose. -/
def SsimLossesAdd : Prop := ∀ (big : ℝ) (x y z : NDArray ℝ) (s t u : ℝ), structuralSimilarity big {} 255 x y = .ok s →
  structuralSimilarity big {} 255 y z = .ok t → structuralSimilarity big {} 255 x z = .ok u → 1 - u ≤ (1 - s) + (1 - t)

theorem ssim_gray (big : ℝ) (sh : List Nat) (u w v : ℝ) (h : structuralSimilarity big {} 255 ⟨sh, fun _ => u⟩ ⟨sh, fun _ => w⟩ = .ok v) :
    v = (2 * u * w + (255 / 100) ^ 2) / (u ^ 2 + w ^ 2 + (255 / 100) ^ 2) := by
  have h1 := ssim_uniform big 255 {} (.inr (.inl rfl)) sh u w v h
  have hne : u ^ 2 + w ^ 2 + ((1 / 100 : ℝ) * 255) ^ 2 ≠ 0 := by positivity
  unfold luminanceTerm npDiv at h1
  have hk : ({} : SsimArgs).k1 = 1 / 100 := rfl
  rw [hk, if_neg hne] at h1
  unfold nanToNum npPow ExpArg.cast at h1
  norm_num at h1
  rw [← h1]
  norm_num

/-- **C213 is false** for SSIM: uniform images with the gray values 51, 102 and 204 lose 0.2 in each step and 0.53 in both. -/
theorem C213_ssim_refuted : ¬ SsimLossesAdd := by
  intro h
  have hex : ∀ u w : ℝ, ∃ v, structuralSimilarity 1 {} 255 (⟨[11, 11], fun _ => u⟩ : NDArray ℝ) ⟨[11, 11], fun _ => w⟩ = .ok v := by
    intro u w
    have hr : gaussRadius (3 / 2) = 5 := by
      unfold gaussRadius
      rw [Nat.floor_eq_iff (by norm_num)]
      norm_num
    have hv : ({} : SsimArgs).Valid [11, 11] :=
      ⟨by norm_num, by norm_num, by norm_num, by intro n hn; simp [SsimArgs.window, hr] at hn ⊢; omega, by simp [SsimArgs.window]⟩
    exact C32_score_exists 1 255 {} ⟨[11, 11], fun _ => u⟩ ⟨[11, 11], fun _ => w⟩ hv (by simp) (by simp) .reflect (by decide)
      (by simp [ExpArg.cast]) (by simp [ExpArg.cast]) (by simp [ExpArg.cast])
  obtain ⟨s, hs⟩ := hex 51 102
  obtain ⟨t, ht⟩ := hex 102 204
  obtain ⟨u, hu⟩ := hex 51 204
  have := h 1 _ _ _ s t u hs ht hu
  rw [ssim_gray _ _ _ _ _ hs, ssim_gray _ _ _ _ _ ht, ssim_gray _ _ _ _ _ hu] at this
  norm_num at this

/-- Two steps of one gray value each: the bound is attained. -/
example : ∃ r, rmse (⟨[2, 2], fun _ => 0⟩ : NDArray ℝ) ⟨[2, 2], fun _ => 2⟩ = .ok r ∧ r ≤ [(1 : ℝ), 1].sum := by
  have e : ∀ u w : ℝ, rmse (⟨[2, 2], fun _ => u⟩ : NDArray ℝ) ⟨[2, 2], fun _ => w⟩ = .ok |u - w| := by
    intro u w
    rw [rmse_eq (a := ⟨[2, 2], fun _ => u⟩) (b := ⟨[2, 2], fun _ => w⟩) ⟨rfl, by simp [NDArray.size]⟩]
    congr 1
    simp only []
    rw [List.map_const', List.sum_replicate, ← Real.sqrt_sq_eq_abs]
    congr 1
    have : (indices [2, 2]).length = 4 := by decide
    rw [this]
    norm_num [NDArray.size]
  have h1 := e 0 1
  have h2 := e 1 2
  norm_num at h1 h2
  exact C213_rmse _ _ _ (.cons h1 (.cons h2 (.nil _ (by simp [NDArray.size]))))

/-- Two steps of 20 dB. -/
example : ∃ p, psnr 10 (⟨[1], fun _ => 0⟩ : NDArray ℝ) ⟨[1], fun _ => 2⟩ = .ok p ∧ AtLeastDb (20 - 20 * Real.logb 10 (2 : ℕ)) p := by
  have step : ∀ u : ℝ, psnr 10 (⟨[1], fun _ => u⟩ : NDArray ℝ) ⟨[1], fun _ => u + 1⟩ = .ok (.finite 20) := by
    intro u
    have hc : Comparable (⟨[1], fun _ => u⟩ : NDArray ℝ) ⟨[1], fun _ => u + 1⟩ := ⟨rfl, by simp [NDArray.size]⟩
    obtain ⟨r, hr, h0, hp⟩ := C29_formula 10 (⟨[1], fun _ => u⟩ : NDArray ℝ) ⟨[1], fun _ => u + 1⟩ hc
      (fun h => by have := h.2 [0] (by simp [InShape]); simp at this) (by norm_num)
    rw [rmse_eq hc] at hr
    have e : r = 1 := by
      cases hr
      simp [NDArray.size, (by decide : indices [1] = [[0]])]
    rw [hp, e]
    have : Real.logb 10 (|(10 : ℝ)| / 1) = 1 := by
      rw [div_one, abs_of_pos (by norm_num)]
      exact Real.logb_self_eq_one (by norm_num)
    rw [this]
    norm_num
  have h1 := step 0
  have h2 := step 1
  norm_num at h1 h2
  have hsz : ∀ u : ℝ, (⟨[1], fun _ => u⟩ : NDArray ℝ).size ≠ 0 := fun u => by simp [NDArray.size]
  exact C213_psnr 10 20 (by norm_num) _ _ 2 (by norm_num)
    (.cons (hsz 0) h1 (.inr ⟨20, rfl, le_rfl⟩) (.cons (hsz 1) h2 (.inr ⟨20, rfl, le_rfl⟩) (.nil _ (hsz 2))))

end Viqa
