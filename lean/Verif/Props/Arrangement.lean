import Verif.Props.Distance

/-!
C177: RMSE and PSNR depend on the pairs of corresponding gray values, not on their arrangement.
-/

namespace Viqa

/-- The pairs of corresponding pixels of two images of one shape. -/
def Spec.pixelPairs (a b : NDArray ℝ) : List (ℝ × ℝ) := (indices a.shape).map fun i => (a.get i, b.get i)

theorem indices_length (sh : List Nat) : (indices sh).length = sh.prod := by
  induction sh with
  | nil => rfl
  | cons n sh ih => simp [indices, List.length_flatMap, ih]

theorem sum_copies (k : Nat) (l : List ℝ) : ((List.replicate k l).flatten).sum = k * l.sum := by
  induction k with
  | zero => simp
  | succ k ih =>
    rw [List.replicate_succ, List.flatten_cons, List.sum_append, ih]
    push_cast
    ring

theorem mem_copies (k : Nat) (hk : 0 < k) (l : List (ℝ × ℝ)) (p : ℝ × ℝ) :
    p ∈ (List.replicate k l).flatten ↔ p ∈ l := by
  rw [List.mem_flatten]
  constructor
  · rintro ⟨l', h, hp⟩
    rw [List.eq_of_mem_replicate h] at hp
    exact hp
  · intro hp
    exact ⟨l, List.mem_replicate.2 ⟨by omega, rfl⟩, hp⟩

theorem mse_arranged (x y x' y' : NDArray ℝ) (hs : x.shape = y.shape) (hs' : x'.shape = y'.shape) (k : Nat) (hk : 0 < k)
    (h : (Spec.pixelPairs x' y').Perm (List.replicate k (Spec.pixelPairs x y)).flatten) :
    meanSquaredError x' y' = meanSquaredError x y ∧ (arrayEqual x' y' ↔ arrayEqual x y) := by
  have hl : x'.size = k * x.size := by
    have := h.length_eq
    simpa [Spec.pixelPairs, NDArray.size, indices_length, List.length_flatten] using this
  constructor
  · unfold meanSquaredError
    rw [if_neg (not_not_intro hs), if_neg (not_not_intro hs'), hl]
    have hkr : (k : ℝ) ≠ 0 := by exact_mod_cast hk.ne'
    by_cases hz : x.size = 0
    · rw [if_pos (by simp [hz]), if_pos hz]
    · rw [if_neg (by simp [hz]; omega), if_neg hz]
      have hsum := (h.map (fun p : ℝ × ℝ => (p.1 - p.2) ^ 2)).sum_eq
      rw [List.map_flatten, List.map_replicate, sum_copies] at hsum
      unfold Spec.pixelPairs at hsum
      rw [List.map_map, List.map_map] at hsum
      have e : ∀ (a b : NDArray ℝ), ((fun p : ℝ × ℝ => (p.1 - p.2) ^ 2) ∘ fun i => (a.get i, b.get i)) =
          fun i => (a.get i - b.get i) ^ 2 := fun _ _ => rfl
      rw [e, e] at hsum
      rw [hsum]
      push_cast
      rw [mul_div_mul_left _ _ hkr]
  · have key : ∀ a b : NDArray ℝ, a.shape = b.shape → (arrayEqual a b ↔ ∀ p ∈ Spec.pixelPairs a b, p.1 = p.2) := by
      intro a b hab
      simp [arrayEqual, Spec.pixelPairs, hab]
    rw [key x' y' hs', key x y hs]
    constructor
    · intro hp p hmem
      exact hp p (h.mem_iff.2 ((mem_copies k hk _ p).2 hmem))
    · intro hp p hmem
      exact hp p ((mem_copies k hk _ p).1 (h.mem_iff.1 hmem))

/-- **C177.** If the pairs of corresponding pixels of two other images are the same up to their order, each of them
repeated `k` times, then the RMSE is the same. Shapes and dimensions may differ. -/
theorem C177_rmse (x y x' y' : NDArray ℝ) (hs : x.shape = y.shape) (hs' : x'.shape = y'.shape) (k : Nat) (hk : 0 < k)
    (h : (Spec.pixelPairs x' y').Perm (List.replicate k (Spec.pixelPairs x y)).flatten) :
    rmse x' y' = rmse x y := by
  unfold rmse
  rw [(mse_arranged x y x' y' hs hs' k hk h).1]

/-- **C177.** The same for the PSNR. -/
theorem C177_psnr (dr : ℝ) (x y x' y' : NDArray ℝ) (hs : x.shape = y.shape) (hs' : x'.shape = y'.shape) (k : Nat)
    (hk : 0 < k) (h : (Spec.pixelPairs x' y').Perm (List.replicate k (Spec.pixelPairs x y)).flatten) :
    psnr dr x' y' = psnr dr x y := by
  obtain ⟨h1, h2⟩ := mse_arranged x y x' y' hs hs' k hk h
  unfold psnr
  rw [h1]
  by_cases he : arrayEqual x y
  · rw [if_pos he, if_pos (h2.2 he)]
  · rw [if_neg he, if_neg (fun h => he (h2.1 h))]

/-! ### Examples -/

/-- A row of three pixels and the same pixels in another order in a column of six. -/
example : rmse ⟨[6, 1], fun i => [3, 1, 2, 2, 1, 3].getD (i.getD 0 0) 0⟩
      ⟨[6, 1], fun i => [30, 10, 20, 20, 10, 30].getD (i.getD 0 0) 0⟩ =
    rmse ⟨[3], fun i => [1, 2, 3].getD (i.getD 0 0) 0⟩ ⟨[3], fun i => [10, 20, 30].getD (i.getD 0 0) 0⟩ := by
  refine C177_rmse _ _ _ _ rfl rfl 2 (by omega) ?_
  show List.Perm [((3 : ℝ), (30 : ℝ)), (1, 10), (2, 20), (2, 20), (1, 10), (3, 30)]
    [(1, 10), (2, 20), (3, 30), (1, 10), (2, 20), (3, 30)]
  generalize ((1 : ℝ), (10 : ℝ)) = a
  generalize ((2 : ℝ), (20 : ℝ)) = b
  generalize ((3 : ℝ), (30 : ℝ)) = c
  classical
  rw [List.perm_iff_count]
  intro p
  simp only [List.count_cons, List.count_nil]
  ring

example : psnr 255 ⟨[2, 1], fun i => [3, 1].getD (i.getD 0 0) 0⟩ ⟨[2, 1], fun i => [30, 10].getD (i.getD 0 0) 0⟩ =
    psnr 255 ⟨[2], fun i => [1, 3].getD (i.getD 0 0) 0⟩ ⟨[2], fun i => [10, 30].getD (i.getD 0 0) 0⟩ := by
  refine C177_psnr 255 _ _ _ _ rfl rfl 1 (by omega) ?_
  show List.Perm [((3 : ℝ), (30 : ℝ)), (1, 10)] [(1, 10), (3, 30)]
  exact List.Perm.swap _ _ _

end Viqa
