import Verif.Lemmas.Ssim
import Mathlib.Tactic.NormNum

set_option linter.unusedSimpArgs false

/-! Properties C30 – C33 and C75 – C77: structural similarity and universal quality index. -/

namespace Viqa

/-! ### The arguments that are accepted -/

/-- The documented conditions on the arguments: non-negative constants, an odd window that fits
into the image. -/
structure SsimArgs.Valid (a : SsimArgs) (shape : List Nat) : Prop where
  k1 : 0 ≤ a.k1
  k2 : 0 ≤ a.k2
  sigma : 0 ≤ a.sigma
  fits : ∀ n ∈ shape, a.window ≤ n
  odd : a.window % 2 = 1

/-- The part of the computation after the checks. -/
noncomputable def ssimBody (big : ℝ) (a : SsimArgs) (dr : ℝ) (x y : NDArray ℝ) : Py ℝ := by
  classical exact
  match covNorm a x.ndim with
    | .error e => .error e
    | .ok norm =>
      match (if a.gaussian ∧ a.sigma = 0 then .ok .reflect else borderMode a.mode) with
      | .error e => .error e
      | .ok m =>
        match allOk ((cropPositions ((a.window - 1) / 2) x.shape).map
            (ssimAt big (a.filter m) norm dr a x y)) with
        | .error e => .error e
        | .ok l => meanList l

theorem ssim_valid (big dr : ℝ) (a : SsimArgs) (x y : NDArray ℝ) (h : a.Valid x.shape) :
    structuralSimilarity big a dr x y = ssimBody big a dr x y := by
  have h4 : ¬ x.shape.any (fun n => decide (n < a.window)) = true := by
    simp only [List.any_eq_true, decide_eq_true_eq, not_exists, not_and, not_lt]
    exact h.fits
  have h5 : ¬ a.window % 2 ≠ 1 := not_not.2 h.odd
  unfold structuralSimilarity ssimBody
  rw [if_neg (not_lt.2 h.k1), if_neg (not_lt.2 h.k2), if_neg (not_lt.2 h.sigma), if_neg h4, if_neg h5]
  rfl

theorem ssim_invalid (big dr : ℝ) (a : SsimArgs) (x y : NDArray ℝ) (h : ¬ a.Valid x.shape) :
    ∃ m, structuralSimilarity big a dr x y = .error (.valueError m) := by
  unfold structuralSimilarity
  split
  · exact ⟨_, rfl⟩
  split
  · exact ⟨_, rfl⟩
  split
  · exact ⟨_, rfl⟩
  split
  · exact ⟨_, rfl⟩
  split
  · exact ⟨_, rfl⟩
  rename_i h1 h2 h3 h4 h5
  exfalso
  refine h ⟨not_lt.1 h1, not_lt.1 h2, not_lt.1 h3, ?_, by simpa using h5⟩
  simpa only [List.any_eq_true, decide_eq_true_eq, not_exists, not_and, not_lt] using h4

theorem allOk_error_of_all {α} (l : List (Py α)) (P : Exc → Prop)
    (h : ∀ r ∈ l, ∀ e, r = .error e → P e) (e : Exc) (he : allOk l = .error e) : P e := by
  induction l with
  | nil => cases he
  | cons a l ih =>
    cases a with
    | error e' =>
      unfold allOk at he; cases he
      exact h _ (by simp) _ rfl
    | ok a =>
      unfold allOk at he
      cases hl : allOk l with
      | error e' =>
        rw [hl] at he; cases he
        exact ih (fun r hr => h r (by simp [hr])) hl
      | ok as => rw [hl] at he; cases he

theorem ssimAt_error (big : ℝ) (f : Filter) (norm dr : ℝ) (a : SsimArgs) (x y : NDArray ℝ) (p : List Nat)
    (e : Exc) (h : ssimAt big f norm dr a x y p = .error e) : e = .notANumber := by
  unfold ssimAt at h
  simp only at h
  split at h
  · cases h
  · cases h; rfl

/-- Exceptions after the checks: a window of one pixel divides by zero, an unknown border mode
raises RuntimeError. -/
theorem ssimBody_errors (big dr : ℝ) (a : SsimArgs) (x y : NDArray ℝ) (e : Exc)
    (h : ssimBody big a dr x y = .error e) :
    e = .zeroDivisionError ∨ (∃ m, e = .runtimeError m) ∨ e = .notANumber := by
  unfold ssimBody at h
  split at h
  · rename_i e' h'
    cases h
    unfold covNorm at h'
    split at h'
    · cases h'
    · simp only at h'
      split at h'
      · cases h'; exact Or.inl rfl
      · cases h'
  · split at h
    · rename_i e' h'
      cases h
      split at h'
      · cases h'
      · unfold borderMode at h'
        repeat (split at h'; · cases h')
        cases h'
        exact Or.inr (Or.inl ⟨_, rfl⟩)
    · split at h
      · rename_i e' h'
        cases h
        refine Or.inr (Or.inr (allOk_error_of_all _ (fun e => e = .notANumber) ?_ _ h'))
        intro r hr e he
        obtain ⟨p, -, rfl⟩ := List.mem_map.1 hr
        exact ssimAt_error _ _ _ _ _ _ _ _ _ he
      · unfold meanList at h
        split at h
        · cases h; exact Or.inr (Or.inr rfl)
        · cases h

/-! ### C32 -/

/-- **C32.** A ValueError is raised exactly if the documented conditions do not hold. -/
theorem C32_value_error_iff (big dr : ℝ) (a : SsimArgs) (x y : NDArray ℝ) :
    (∃ m, structuralSimilarity big a dr x y = .error (.valueError m)) ↔ ¬ a.Valid x.shape := by
  constructor
  · rintro ⟨m, hm⟩ hv
    rw [ssim_valid _ _ _ _ _ hv] at hm
    rcases ssimBody_errors _ _ _ _ _ _ hm with h | ⟨_, h⟩ | h <;> cases h
  · exact ssim_invalid big dr a x y

example (x y : NDArray ℝ) : ∃ m, structuralSimilarity 1e308 { k1 := -1 } 255 x y = .error (.valueError m) :=
  (C32_value_error_iff _ _ _ _ _).2 (fun h => by have := h.k1; norm_num at this)

/-- **C32.** For accepted arguments the averaged map is not empty: exactly the positions whose
window of the given size lies inside the image are averaged. -/
theorem C32_positions (a : SsimArgs) (shape : List Nat) (h : a.Valid shape) :
    cropPositions ((a.window - 1) / 2) shape ≠ [] ∧
    ∀ p : List Nat, p ∈ cropPositions ((a.window - 1) / 2) shape ↔
      p.length = shape.length ∧ ∀ i (h : i < shape.length) (hp : i < p.length),
        (a.window - 1) / 2 ≤ p[i] ∧ p[i] + (a.window - 1) / 2 < shape[i] := by
  refine ⟨?_, mem_cropPositions _ _⟩
  intro h0
  have h1 := length_cropPositions ((a.window - 1) / 2) shape
  rw [h0, List.length_nil, eq_comm, List.prod_eq_zero_iff, List.mem_map] at h1
  obtain ⟨n, hn, hz⟩ := h1
  have := h.fits n hn
  have := h.odd
  omega

example : [3, 3] ∈ cropPositions 3 [7, 7] ∧ [2, 3] ∉ cropPositions 3 [7, 7] := by
  have hv : SsimArgs.Valid { gaussian := false, winSize := some 7 } [7, 7] := by
    constructor <;> norm_num [SsimArgs.window]
  have h := (C32_positions _ _ hv).2
  simp only [SsimArgs.window] at h
  constructor
  · exact (h [3, 3]).2 ⟨rfl, fun i hi hp => by
      have : i = 0 ∨ i = 1 := by simp at hi; omega
      rcases this with rfl | rfl <;> simp⟩
  · intro hm
    have := ((h [2, 3]).1 hm).2 0 (by simp) (by simp)
    simp at this

/-- A position and exponents for which the index is defined. -/
theorem ssimAt_defined (big : ℝ) (f : Filter) (norm dr : ℝ) (a : SsimArgs) (x y : NDArray ℝ) (p : List Nat)
    (ha : 0 ≤ a.alpha.cast) (hb : 0 ≤ a.beta.cast) (hc : 0 ≤ a.gamma.cast) :
    ∃ v, ssimAt big f norm dr a x y p = .ok v := by
  unfold ssimAt npPow
  simp only [not_lt.2 ha, not_lt.2 hb, not_lt.2 hc, and_false, if_false]
  exact ⟨_, rfl⟩

/-- **C32.** Accepted arguments, a window of more than one pixel (or the default one), a mode known
to SciPy and non-negative exponents give a score. -/
theorem C32_score_exists (big dr : ℝ) (a : SsimArgs) (x y : NDArray ℝ) (h : a.Valid x.shape) (hd : x.shape ≠ [])
    (hw : a.winSize = some 1 → False) (m : BorderMode) (hm : borderMode a.mode = .ok m)
    (ha : 0 ≤ a.alpha.cast) (hb : 0 ≤ a.beta.cast) (hc : 0 ≤ a.gamma.cast) :
    ∃ v, structuralSimilarity big a dr x y = .ok v := by
  rw [ssim_valid _ _ _ _ _ h]
  have hnorm : ∃ n, covNorm a x.ndim = .ok n := by
    unfold covNorm
    split
    · exact ⟨_, rfl⟩
    · rename_i hg
      simp only
      split
      · rename_i h1
        exfalso
        have hnd : x.ndim ≠ 0 := by unfold NDArray.ndim; simpa using hd
        have hwin : a.window = 1 := by
          rcases Nat.pow_eq_one.1 h1 with h | h
          · exact h
          · exact absurd h hnd
        unfold SsimArgs.window at hwin
        cases hws : a.winSize with
        | some w =>
          rw [hws] at hwin
          simp only at hwin
          exact hw (by rw [hws, hwin])
        | none =>
          rw [hws] at hwin hg
          simp only [and_true] at hg
          simp [hg] at hwin
      · exact ⟨_, rfl⟩
  obtain ⟨n, hn⟩ := hnorm
  unfold ssimBody
  rw [hn]
  have hm' : ∃ m', (open Classical in if a.gaussian = true ∧ a.sigma = 0 then .ok .reflect else borderMode a.mode) =
      (.ok m' : Py BorderMode) := by
    split
    · exact ⟨_, rfl⟩
    · exact ⟨m, hm⟩
  obtain ⟨m', hm'⟩ := hm'
  simp only [hm']
  have hall : ∃ l, allOk ((cropPositions ((a.window - 1) / 2) x.shape).map
      (ssimAt big (a.filter m') n dr a x y)) = .ok l ∧ l.length ≠ 0 := by
    choose g hg using fun p => ssimAt_defined big (a.filter m') n dr a x y p ha hb hc
    refine ⟨(cropPositions ((a.window - 1) / 2) x.shape).map g, ?_, ?_⟩
    · rw [allOk_iff, List.map_map]
      apply List.map_congr_left
      intro p _
      exact hg p
    · rw [List.length_map]
      simpa using (C32_positions a x.shape h).1
  obtain ⟨l, hl, hl0⟩ := hall
  rw [hl]
  exact ⟨_, by simp only [meanList, if_neg hl0]; rfl⟩

/-- A window of 7 pixels without Gaussian weights. -/
theorem validSeven : SsimArgs.Valid { gaussian := false, winSize := some 7 } [9, 9] := by
  constructor <;> norm_num [SsimArgs.window]

example : ∃ v, structuralSimilarity 1e308 { gaussian := false, winSize := some 7 } 255 ⟨[9, 9], fun i => i.sum⟩ ⟨[9, 9], fun i => i.length⟩ = .ok v :=
  C32_score_exists _ _ _ _ _ validSeven (by simp) (by simp) .reflect (by simp [borderMode]) (by simp [ExpArg.cast]) (by simp [ExpArg.cast]) (by simp [ExpArg.cast])

/-- A window of one pixel passes all checks and then divides by zero, whatever the images are. -/
theorem C32_window_one (big dr : ℝ) (a : SsimArgs) (x y : NDArray ℝ) (h : a.Valid x.shape)
    (hw : a.winSize = some 1) : structuralSimilarity big a dr x y = .error .zeroDivisionError := by
  rw [ssim_valid _ _ _ _ _ h]
  unfold ssimBody
  have : covNorm a x.ndim = .error .zeroDivisionError := by
    unfold covNorm SsimArgs.window
    simp [hw]
  rw [this]

/-- Default arguments on an 11×11 image are accepted, on a 10×11 image they are not. -/
example : SsimArgs.Valid {} [11, 11] ∧ ¬ SsimArgs.Valid {} [10, 11] := by
  have hr : gaussRadius (3 / 2) = 5 := by
    unfold gaussRadius
    rw [Nat.floor_eq_iff (by norm_num)]
    norm_num
  have hw : SsimArgs.window {} = 11 := by simp [SsimArgs.window, hr]
  constructor
  · exact ⟨by norm_num, by norm_num, by norm_num, by intro n hn; rw [hw]; simp at hn; omega, by rw [hw]⟩
  · intro h
    have := h.fits 10 (by simp)
    omega

/-! ### The terms -/

theorem nanToNum_self (big t : ℝ) : nanToNum big (npDiv t t) = 1 := by
  unfold npDiv
  by_cases h : t = 0
  · simp [h, nanToNum]
  · simp [h, nanToNum]

theorem npPow_one (k : Int) : npPow 1 k = .ok 1 := by
  unfold npPow
  rw [if_neg (by simp), one_zpow]

theorem ssimAt_self (big : ℝ) (f : Filter) (norm dr : ℝ) (a : SsimArgs) (x : NDArray ℝ) (p : List Nat) :
    ssimAt big f norm dr a x x p = .ok 1 := by
  unfold ssimAt
  simp only
  have h1 : ∀ u c, nanToNum big (luminanceTerm u u c) = 1 := by
    intro u c
    unfold luminanceTerm
    have : u ^ 2 + u ^ 2 + c = 2 * u * u + c := by ring
    rw [this]; exact nanToNum_self big _
  have h2 : ∀ v c, nanToNum big (contrastTerm v v c) = 1 := by
    intro v c
    unfold contrastTerm
    split
    · rfl
    · rename_i h
      have hv : 0 ≤ v := by simpa using h
      have : 2 * Real.sqrt v * Real.sqrt v + c = v + v + c := by
        rw [mul_assoc, Real.mul_self_sqrt hv]; ring
      rw [this]; exact nanToNum_self big _
  have h3 : ∀ v c, nanToNum big (structureTerm v v v c) = 1 := by
    intro v c
    unfold structureTerm
    split
    · rfl
    · rename_i h
      have hv : 0 ≤ v := by simpa using h
      rw [Real.mul_self_sqrt hv]; exact nanToNum_self big _
  rw [h1, h2, h3, npPow_one, npPow_one, npPow_one]
  norm_num

/-! ### C30 -/

/-- **C30.** The score of an image with itself is 1 whenever a score is returned: for every
window, border mode, constants, data range and exponents. -/
theorem C30_self (big dr : ℝ) (a : SsimArgs) (x : NDArray ℝ) (v : ℝ)
    (h : structuralSimilarity big a dr x x = .ok v) : v = 1 := by
  have hv : a.Valid x.shape := by
    by_contra hc
    obtain ⟨m, hm⟩ := ssim_invalid big dr a x x hc
    rw [hm] at h; cases h
  rw [ssim_valid _ _ _ _ _ hv] at h
  unfold ssimBody at h
  split at h
  · cases h
  split at h
  · cases h
  split at h
  · cases h
  rename_i l hl
  rw [allOk_iff] at hl
  have hone : ∀ b ∈ l, b = 1 := by
    intro b hb
    have : (Except.ok b : Py ℝ) ∈ l.map .ok := List.mem_map_of_mem hb
    rw [← hl] at this
    obtain ⟨p, -, hp⟩ := List.mem_map.1 this
    rw [ssimAt_self] at hp
    cases hp; rfl
  by_cases hl0 : l = []
  · subst hl0; cases h
  · rw [meanList_const l 1 hl0 hone] at h
    cases h; rfl

/-- **C30.** The score exists for accepted arguments and is 1, for all exponents (also negative). -/
theorem C30_self_defined (big dr : ℝ) (a : SsimArgs) (x : NDArray ℝ) (h : a.Valid x.shape) (hd : x.shape ≠ [])
    (hw : a.winSize = some 1 → False) (m : BorderMode) (hm : borderMode a.mode = .ok m) :
    structuralSimilarity big a dr x x = .ok 1 := by
  -- the exponents do not matter at any position
  have hpos : ∀ (f : Filter) (n : ℝ) (p : List Nat), ssimAt big f n dr a x x p =
      ssimAt big f n dr { a with alpha := .int 1, beta := .int 1, gamma := .int 1 } x x p := by
    intro f n p; rw [ssimAt_self, ssimAt_self]
  obtain ⟨v, hv⟩ := C32_score_exists big dr { a with alpha := .int 1, beta := .int 1, gamma := .int 1 } x x
    ⟨h.k1, h.k2, h.sigma, h.fits, h.odd⟩ hd hw m hm (by simp [ExpArg.cast]) (by simp [ExpArg.cast])
    (by simp [ExpArg.cast])
  have h1 := C30_self big dr _ x v hv
  subst h1
  rw [← hv, ssim_valid _ _ _ _ _ h, ssim_valid]
  · unfold ssimBody
    have : (fun f n => ssimAt big f n dr a x x) = fun f n =>
        ssimAt big f n dr { a with alpha := .int 1, beta := .int 1, gamma := .int 1 } x x := by
      funext f n p; exact hpos f n p
    have e1 : ∀ f n, ssimAt big f n dr a x x =
        ssimAt big f n dr { a with alpha := .int 1, beta := .int 1, gamma := .int 1 } x x :=
      fun f n => congrFun (congrFun this f) n
    simp only [e1]
    rfl
  · exact ⟨h.k1, h.k2, h.sigma, h.fits, h.odd⟩

example : structuralSimilarity 1e308 { gaussian := false, winSize := some 7 } 255 ⟨[9, 9], fun i => i.sum⟩ ⟨[9, 9], fun i => i.sum⟩ = .ok 1 :=
  C30_self_defined _ _ _ _ validSeven (by simp) (by simp) .reflect (by simp [borderMode])

example (v : ℝ) (h : structuralSimilarity 1e308 { gaussian := false, winSize := some 7 } 255 ⟨[9, 9], fun i => i.sum⟩ ⟨[9, 9], fun i => i.sum⟩ = .ok v) :
    v = 1 := C30_self _ _ _ _ _ h

theorem ssimAt_symm (big : ℝ) (f : Filter) (norm dr : ℝ) (a : SsimArgs) (x y : NDArray ℝ)
    (hs : x.shape = y.shape) (p : List Nat) :
    ssimAt big f norm dr a x y p = ssimAt big f norm dr a y x p := by
  have hxy : NDArray.zip (· * ·) x y = NDArray.zip (fun a b : ℝ => a * b) y x := by
    unfold NDArray.zip
    rw [hs]
    congr 1
    funext i; exact mul_comm _ _
  have h1 : ∀ u v c, luminanceTerm u v c = luminanceTerm v u c := by
    intro u v c
    unfold luminanceTerm
    have e1 : 2 * u * v + c = 2 * v * u + c := by ring
    have e2 : u ^ 2 + v ^ 2 + c = v ^ 2 + u ^ 2 + c := by ring
    rw [e1, e2]
  have h2 : ∀ u v c, contrastTerm u v c = contrastTerm v u c := by
    intro u v c
    unfold contrastTerm
    have e1 : 2 * Real.sqrt u * Real.sqrt v + c = 2 * Real.sqrt v * Real.sqrt u + c := by ring
    have e2 : u + v + c = v + u + c := by ring
    rw [e1, e2]
    simp only [or_comm]
  have h3 : ∀ u v w c, structureTerm u v w c = structureTerm v u w c := by
    intro u v w c
    unfold structureTerm
    have e1 : Real.sqrt u * Real.sqrt v + c = Real.sqrt v * Real.sqrt u + c := by ring
    rw [e1]
    simp only [or_comm]
  unfold ssimAt
  simp only
  rw [hxy, h1, h2, h3, mul_comm (f.apply x p) (f.apply y p)]

/-- **C30.** Exchanging the two images changes nothing, for all arguments. -/
theorem C30_symm (big dr : ℝ) (a : SsimArgs) (x y : NDArray ℝ) (hs : x.shape = y.shape) :
    structuralSimilarity big a dr x y = structuralSimilarity big a dr y x := by
  have hd : x.ndim = y.ndim := by unfold NDArray.ndim; rw [hs]
  have : ∀ f n, ssimAt big f n dr a x y = ssimAt big f n dr a y x :=
    fun f n => funext (fun p => ssimAt_symm big f n dr a x y hs p)
  unfold structuralSimilarity
  simp only [this, hs, hd]

example : structuralSimilarity 1e308 {} 255 ⟨[11, 11], fun i => i.sum⟩ ⟨[11, 11], fun i => i.length⟩ =
    structuralSimilarity 1e308 {} 255 ⟨[11, 11], fun i => i.length⟩ ⟨[11, 11], fun i => i.sum⟩ := C30_symm _ _ _ _ _ rfl

/-! ### C31 -/

/-- Cases in which the border handling cannot falsify the local statistics: any mode but
`constant`, fill value zero, or a window size that is not set together with Gaussian weights. -/
def BorderHarmless (a : SsimArgs) : Prop :=
  borderMode a.mode ≠ .ok .constant ∨ a.cval = 0 ∨ a.winSize = none ∨ a.gaussian = false

theorem filter_mode (a : SsimArgs) (m : BorderMode) : (a.filter m).mode = m ∧ (a.filter m).cval = a.cval := by
  unfold SsimArgs.filter; split <;> exact ⟨rfl, rfl⟩

theorem filter_radius (a : SsimArgs) (m : BorderMode) (h : a.winSize = none ∨ a.gaussian = false) :
    (a.filter m).radius = (a.window - 1) / 2 := by
  unfold SsimArgs.filter
  split
  · rename_i hg
    rcases h with h | h
    · simp [SsimArgs.window, h, hg]
    · rw [h] at hg; cases hg
  · rfl

theorem harmless_faithful (a : SsimArgs) (sh : List Nat) (hv : a.Valid sh) (hb : BorderHarmless a) (m : BorderMode)
    (hm : (open Classical in if a.gaussian = true ∧ a.sigma = 0 then .ok .reflect else borderMode a.mode) =
      (.ok m : Py BorderMode)) (p : List Nat) (hp : p ∈ cropPositions ((a.window - 1) / 2) sh) :
    Faithful (a.filter m) sh p := by
  have hpos : ∀ n ∈ sh, 0 < n := by
    intro n hn
    have := hv.fits n hn
    have := hv.odd
    omega
  have hlen := ((mem_cropPositions _ _ _).1 hp).1
  rcases hb with h | h | h
  · apply faithful_of_mode _ _ _ hlen hpos
    rw [(filter_mode a m).1]
    rintro rfl
    split at hm
    · cases hm
    · exact h hm
  · left
    rw [(filter_mode a m).2, h]; norm_num
  · exact faithful_of_pad _ _ _ _ (by rw [filter_radius a m h]) hp

theorem abs_npDiv_le (big a b : ℝ) (hb : 0 ≤ b) (h : |a| ≤ b) : |nanToNum big (npDiv a b)| ≤ 1 := by
  unfold npDiv
  by_cases h0 : b = 0
  · have : a = 0 := by rw [h0] at h; exact abs_eq_zero.1 (le_antisymm h (abs_nonneg _))
    simp [h0, this, nanToNum]
  · simp only [h0, if_false, nanToNum]
    rw [abs_div, abs_of_nonneg hb]
    exact (div_le_one (lt_of_le_of_ne hb (Ne.symm h0))).2 h

theorem structure_bound (big vx vy vxy c : ℝ) (hc : 0 ≤ c)
    (h : |vxy| ≤ Real.sqrt vx * Real.sqrt vy) : |nanToNum big (structureTerm vx vy vxy c)| ≤ 1 := by
  unfold structureTerm
  split
  · simp [nanToNum]
  · apply abs_npDiv_le
    · positivity
    · calc |vxy + c| ≤ |vxy| + |c| := abs_add_le _ _
        _ ≤ _ := by rw [abs_of_nonneg hc]; linarith

theorem contrast_bound (big vx vy c : ℝ) (hc : 0 ≤ c) : |nanToNum big (contrastTerm vx vy c)| ≤ 1 := by
  unfold contrastTerm
  split
  · simp [nanToNum]
  · rename_i h
    push Not at h
    apply abs_npDiv_le
    · have := h.1; have := h.2; positivity
    · rw [abs_of_nonneg (by positivity)]
      nlinarith [sq_nonneg (Real.sqrt vx - Real.sqrt vy), Real.sq_sqrt h.1, Real.sq_sqrt h.2]

theorem luminance_bound (big ux uy c : ℝ) (hc : 0 ≤ c) : |nanToNum big (luminanceTerm ux uy c)| ≤ 1 := by
  unfold luminanceTerm
  apply abs_npDiv_le
  · positivity
  · rw [abs_le]
    constructor
    · nlinarith [sq_nonneg (ux + uy)]
    · nlinarith [sq_nonneg (ux - uy)]

theorem npPow_bound (x v : ℝ) (k : Int) (hk : 0 ≤ k) (hx : |x| ≤ 1) (h : npPow x k = .ok v) : |v| ≤ 1 := by
  unfold npPow at h
  rw [if_neg (by omega)] at h
  cases h
  obtain ⟨n, rfl⟩ := Int.eq_ofNat_of_zero_le hk
  rw [zpow_natCast, abs_pow]
  exact pow_le_one₀ (abs_nonneg _) hx

theorem covNorm_pos (a : SsimArgs) (d : Nat) (n : ℝ) (hodd : a.window % 2 = 1) (h : covNorm a d = .ok n) : 0 < n := by
  unfold covNorm at h
  split at h
  · cases h; norm_num
  · simp only at h
    split at h
    · cases h
    · rename_i h1
      cases h
      have h0 : 0 < a.window ^ d := Nat.pow_pos (by omega)
      have h2 : 1 < a.window ^ d := by omega
      have h3 : (1 : ℝ) < ((a.window ^ d : Nat) : ℝ) := by exact_mod_cast h2
      apply div_pos <;> linarith

/-- Inequalities between the statistics after scaling with `cov_norm`. -/
theorem scaled_stats (f : Filter) (hf : f.Proper) (x y : NDArray ℝ) (hs : x.shape = y.shape) (p : List Nat)
    (h : Faithful f x.shape p) (n : ℝ) (hn : 0 < n) :
    0 ≤ n * (f.apply (NDArray.zip (· * ·) x x) p - f.apply x p * f.apply x p) ∧
    0 ≤ n * (f.apply (NDArray.zip (· * ·) y y) p - f.apply y p * f.apply y p) ∧
    |n * (f.apply (NDArray.zip (· * ·) x y) p - f.apply x p * f.apply y p)| ≤
      Real.sqrt (n * (f.apply (NDArray.zip (· * ·) x x) p - f.apply x p * f.apply x p)) *
      Real.sqrt (n * (f.apply (NDArray.zip (· * ·) y y) p - f.apply y p * f.apply y p)) := by
  obtain ⟨h1, h3⟩ := window_stats f hf x y hs p h
  obtain ⟨h2, -⟩ := window_stats f hf y x hs.symm p (by rw [← hs]; exact h)
  refine ⟨mul_nonneg hn.le h1, mul_nonneg hn.le h2, ?_⟩
  rw [abs_mul, abs_of_pos hn, Real.sqrt_mul hn.le, Real.sqrt_mul hn.le]
  calc n * _ ≤ n * _ := mul_le_mul_of_nonneg_left h3 hn.le
    _ = _ := by
      nth_rewrite 1 [← Real.mul_self_sqrt hn.le]
      ring

theorem ssimAt_bound (big : ℝ) (f : Filter) (hf : f.Proper) (norm dr : ℝ) (hn : 0 < norm) (a : SsimArgs)
    (x y : NDArray ℝ) (hs : x.shape = y.shape) (p : List Nat) (h : Faithful f x.shape p)
    (ha : 0 ≤ a.alpha.cast) (hb : 0 ≤ a.beta.cast) (hc : 0 ≤ a.gamma.cast) (v : ℝ)
    (hv : ssimAt big f norm dr a x y p = .ok v) : |v| ≤ 1 := by
  obtain ⟨h1, h2, h3⟩ := scaled_stats f hf x y hs p h norm hn
  unfold ssimAt at hv
  simp only at hv
  split at hv
  · rename_i l c s hl hcc hss
    cases hv
    have bl := npPow_bound _ _ _ ha (luminance_bound big _ _ _ (sq_nonneg _)) hl
    have bc := npPow_bound _ _ _ hb (contrast_bound big _ _ _ (sq_nonneg _)) hcc
    have bs := npPow_bound _ _ _ hc (structure_bound big _ _ _ _ (by positivity) h3) hss
    rw [abs_mul, abs_mul]
    have : |l| * |c| ≤ 1 := by nlinarith [abs_nonneg l, abs_nonneg c]
    nlinarith [abs_nonneg s, mul_nonneg (abs_nonneg l) (abs_nonneg c)]
  · cases hv

/-- What a returned score is made of. -/
theorem ssim_ok (big dr : ℝ) (a : SsimArgs) (x y : NDArray ℝ) (v : ℝ)
    (h : structuralSimilarity big a dr x y = .ok v) :
    a.Valid x.shape ∧ ∃ norm m l, covNorm a x.ndim = .ok norm ∧
      (open Classical in if a.gaussian = true ∧ a.sigma = 0 then .ok .reflect else borderMode a.mode) =
        (.ok m : Py BorderMode) ∧
      (cropPositions ((a.window - 1) / 2) x.shape).map (ssimAt big (a.filter m) norm dr a x y) = l.map .ok ∧
      meanList l = .ok v := by
  have hv : a.Valid x.shape := by
    by_contra hc
    obtain ⟨m, hm⟩ := ssim_invalid big dr a x y hc
    rw [hm] at h; cases h
  refine ⟨hv, ?_⟩
  rw [ssim_valid _ _ _ _ _ hv] at h
  unfold ssimBody at h
  split at h
  · cases h
  rename_i norm hnorm
  split at h
  · cases h
  rename_i m hm
  split at h
  · cases h
  rename_i l hl
  exact ⟨norm, m, l, hnorm, hm, (allOk_iff _ _).1 hl, h⟩

/-- **C31.** The score lies in [-1, 1], for all images (also with negative pixels), all windows, all
non-negative constants (also zero) and all non-negative integer exponents. -/
theorem C31_bounded (big dr : ℝ) (a : SsimArgs) (x y : NDArray ℝ) (hs : x.shape = y.shape)
    (hb : BorderHarmless a) (hα : 0 ≤ a.alpha.cast) (hβ : 0 ≤ a.beta.cast) (hγ : 0 ≤ a.gamma.cast) (v : ℝ)
    (h : structuralSimilarity big a dr x y = .ok v) : -1 ≤ v ∧ v ≤ 1 := by
  obtain ⟨hv, norm, m, l, hn, hm, hl, hmean⟩ := ssim_ok _ _ _ _ _ _ h
  apply meanList_bounds l _ _ _ _ hmean
  intro b hbl
  have : (Except.ok b : Py ℝ) ∈ l.map .ok := List.mem_map_of_mem hbl
  rw [← hl] at this
  obtain ⟨p, hp, hpv⟩ := List.mem_map.1 this
  exact abs_le.1 (ssimAt_bound big _ (a.filter_proper m) norm dr (covNorm_pos a _ norm hv.odd hn) a x y hs p
    (harmless_faithful a x.shape hv hb m hm p hp) hα hβ hγ b hpv)

example : BorderHarmless {} := Or.inl (by simp [borderMode])

/-! ### C75: the score 1 is reached by identical images only -/

theorem term_eq_one (big a b : ℝ) (hb : 0 < b) (h : |nanToNum big (npDiv a b)| = 1) (hlow : -b < a) : a = b := by
  unfold npDiv at h
  rw [if_neg hb.ne'] at h
  simp only [nanToNum] at h
  rw [abs_div, abs_of_pos hb, div_eq_one_iff_eq hb.ne'] at h
  rcases abs_choice a with h' | h'
  · rw [← h, h']
  · rw [h'] at h; linarith

theorem npPow_abs_one (x v : ℝ) (k : Int) (hk : 0 < k) (h : npPow x k = .ok v) (hv : |v| = 1) : |x| = 1 := by
  unfold npPow at h
  rw [if_neg (by omega)] at h
  cases h
  obtain ⟨n, rfl⟩ := Int.eq_ofNat_of_zero_le hk.le
  rw [zpow_natCast, abs_pow] at hv
  have hn : n ≠ 0 := by rintro rfl; simp at hk
  exact (pow_eq_one_iff_of_nonneg (abs_nonneg _) hn).1 hv

theorem prod_one {a b c : ℝ} (ha : |a| ≤ 1) (hb : |b| ≤ 1) (hc : |c| ≤ 1) (h : a * b * c = 1) :
    |a| = 1 ∧ |b| = 1 ∧ |c| = 1 := by
  have h' : |a| * |b| * |c| = 1 := by rw [← abs_mul, ← abs_mul, h, abs_one]
  have h1 := abs_nonneg a
  have h2 := abs_nonneg b
  have h3 := abs_nonneg c
  refine ⟨?_, ?_, ?_⟩
  · have : |b| * |c| ≤ 1 := by nlinarith
    have : |a| * (|b| * |c|) ≤ |a| * 1 := mul_le_mul_of_nonneg_left this h1
    nlinarith
  · have : |a| * |c| ≤ 1 := by nlinarith
    have : |b| * (|a| * |c|) ≤ |b| * 1 := mul_le_mul_of_nonneg_left this h2
    nlinarith
  · have : |a| * |b| ≤ 1 := by nlinarith
    have : |c| * (|a| * |b|) ≤ |c| * 1 := mul_le_mul_of_nonneg_left this h3
    nlinarith

/-- Index 1 at a position: the two windows agree. -/
theorem ssimAt_eq_one (big : ℝ) (f : Filter) (hf : f.Proper) (norm dr : ℝ) (hn : 0 < norm) (a : SsimArgs)
    (x y : NDArray ℝ) (hs : x.shape = y.shape) (p : List Nat) (h : Faithful f x.shape p)
    (hα : 0 < a.alpha.cast) (hβ : 0 < a.beta.cast) (hγ : 0 < a.gamma.cast)
    (hk1 : a.k1 * dr ≠ 0) (hk2 : a.k2 * dr ≠ 0)
    (hv : ssimAt big f norm dr a x y p = .ok 1) :
    ∀ o ∈ offsets f.radius x.shape.length, sample f x (shiftIndex p o) = sample f y (shiftIndex p o) := by
  obtain ⟨h1, h2, h3⟩ := scaled_stats f hf x y hs p h norm hn
  have hc1 : 0 < (a.k1 * dr) ^ 2 := by positivity
  have hc2 : 0 < (a.k2 * dr) ^ 2 := by positivity
  unfold ssimAt at hv
  simp only at hv
  split at hv
  case h_2 => cases hv
  rename_i l c s hl hcc hss
  simp only [Except.ok.injEq] at hv
  obtain ⟨hla, hca, hsa⟩ := prod_one
    (npPow_bound _ _ _ hα.le (luminance_bound big _ _ _ (sq_nonneg _)) hl)
    (npPow_bound _ _ _ hβ.le (contrast_bound big _ _ _ (sq_nonneg _)) hcc)
    (npPow_bound _ _ _ hγ.le (structure_bound big _ _ _ _ (by positivity) h3) hss) hv
  have hlum := npPow_abs_one _ _ _ hα hl hla
  have hcon := npPow_abs_one _ _ _ hβ hcc hca
  have hstr := npPow_abs_one _ _ _ hγ hss hsa
  have eU : f.apply x p = f.apply y p := by
    unfold luminanceTerm at hlum
    have := term_eq_one big _ _ (by positivity) hlum (by nlinarith [sq_nonneg (f.apply x p + f.apply y p)])
    have h0 : (f.apply x p - f.apply y p) ^ 2 = 0 := by linarith
    exact sub_eq_zero.1 (pow_eq_zero_iff two_ne_zero |>.1 h0)
  have hneg : ¬ (norm * (f.apply (NDArray.zip (· * ·) x x) p - f.apply x p * f.apply x p) < 0 ∨
      norm * (f.apply (NDArray.zip (· * ·) y y) p - f.apply y p * f.apply y p) < 0) := by
    push Not; exact ⟨h1, h2⟩
  unfold contrastTerm at hcon
  rw [if_neg hneg] at hcon
  unfold structureTerm at hstr
  rw [if_neg hneg] at hstr
  have eC := term_eq_one big _ _ (by positivity) hcon (by
    have : 0 ≤ 2 * Real.sqrt (norm * (f.apply (NDArray.zip (· * ·) x x) p - f.apply x p * f.apply x p)) *
      Real.sqrt (norm * (f.apply (NDArray.zip (· * ·) y y) p - f.apply y p * f.apply y p)) := by positivity
    linarith)
  have eS := term_eq_one big _ _ (by positivity) hstr (by
    have := (abs_le.1 h3).1
    linarith)
  -- variance of the difference vanishes
  have hdiff : f.apply (NDArray.zip (· * ·) x x) p + f.apply (NDArray.zip (· * ·) y y) p
      - 2 * f.apply (NDArray.zip (· * ·) x y) p = 0 := by
    have e : norm * ((f.apply (NDArray.zip (· * ·) x x) p + f.apply (NDArray.zip (· * ·) y y) p
      - 2 * f.apply (NDArray.zip (· * ·) x y) p)) = 0 := by
      rw [eU] at eC eS
      linarith
    rcases mul_eq_zero.1 e with h' | h'
    · exact absurd h' hn.ne'
    · exact h'
  have hdim : y.ndim = x.ndim := by unfold NDArray.ndim; rw [hs]
  have hwpos := offsetWeight_pos f.weight f.radius x.ndim hf.pos
  have hyy := apply_zip f y y rfl p (by rw [← hs]; exact h)
  rw [hdim] at hyy
  rw [apply_zip f x x rfl p h, hyy, apply_zip f x y hs p h] at hdiff
  have hsq : ((offsets f.radius x.ndim).map (fun o => offsetWeight f.weight o *
      (sample f x (shiftIndex p o) - sample f y (shiftIndex p o)) ^ 2)).sum = 0 := by
    rw [← hdiff, ← sum_map_mul, ← sum_map_add, ← sum_map_sub]
    apply sum_congr
    intro o _; ring
  rw [sum_eq_zero_iff _ _ (fun o ho => mul_nonneg (hwpos o ho).le (sq_nonneg _))] at hsq
  intro o ho
  rcases mul_eq_zero.1 (hsq o ho) with h' | h'
  · exact absurd h' (hwpos o ho).ne'
  · exact sub_eq_zero.1 (pow_eq_zero_iff two_ne_zero |>.1 h')

/-- Every pixel lies in the window of a position that is averaged. -/
theorem pixel_covered (sh q : List Nat) (r : Nat) (hfit : ∀ n ∈ sh, 2 * r + 1 ≤ n) (hq : InShape sh q) :
    ∃ p ∈ cropPositions r sh, ∃ o ∈ offsets r sh.length, shiftIndex p o = q.map Int.ofNat := by
  simp only [mem_cropPositions, mem_offsets]
  induction sh generalizing q with
  | nil =>
    cases q with
    | nil => exact ⟨[], by simp, [], by simp, rfl⟩
    | cons i q => simp [InShape] at hq
  | cons n sh ih =>
    cases q with
    | nil => simp [InShape] at hq
    | cons i q =>
      obtain ⟨p, hp, o, ho, hpo⟩ := ih q (fun n hn => hfit n (by simp [hn])) hq.2
      have hn := hfit n (by simp)
      have hi : i < n := hq.1
      let c := max r (min i (n - 1 - r))
      refine ⟨c :: p, ⟨by simpa using hp.1, ?_⟩, ((i : Int) - c) :: o, ⟨by simpa using ho.1, ?_⟩, ?_⟩
      · intro j hj hj'
        cases j with
        | zero => simp only [List.getElem_cons_zero]; omega
        | succ j => exact hp.2 j (by simpa using hj) (by simpa using hj')
      · intro e he
        rcases List.mem_cons.1 he with rfl | he
        · omega
        · exact ho.2 e he
      · unfold shiftIndex at hpo ⊢
        rw [List.zipWith_cons_cons, hpo, List.map_cons]
        congr 1
        simp

theorem extendIndices_inShape (m : BorderMode) (sh : List Nat) (p : List Int) (i : List Nat)
    (hl : p.length = sh.length) (hn : ∀ n ∈ sh, 0 < n) (h : extendIndices m sh p = some i) : InShape sh i := by
  induction sh generalizing p i with
  | nil => simp [extendIndices] at h; subst h; simp [InShape]
  | cons n sh ih =>
    cases p with
    | nil => simp at hl
    | cons e p =>
      unfold extendIndices at h
      split at h
      · rename_i j js hj hjs
        cases h
        refine ⟨?_, ih p js (by simpa using hl) (fun n hn' => hn n (by simp [hn'])) hjs⟩
        by_cases hm : m = .constant
        · subst hm
          unfold extendIndex at hj
          split at hj
          · cases hj; omega
          · cases hj
        · obtain ⟨j', hj', hlt⟩ := extendIndex_spec m n e (hn n (by simp)) hm
          rw [hj] at hj'; cases hj'; exact hlt
      · cases h

/-- The score depends on the pixels inside the image only. -/
theorem ssim_same (big dr : ℝ) (a : SsimArgs) (x y y' : NDArray ℝ) (hs : x.shape = y.shape) (h : y.Same y') :
    structuralSimilarity big a dr x y = structuralSimilarity big a dr x y' := by
  by_cases hv : a.Valid x.shape
  swap
  · unfold structuralSimilarity
    split; · rfl
    split; · rfl
    split; · rfl
    split; · rfl
    split; · rfl
    rename_i h1 h2 h3 h4 h5
    exfalso
    refine hv ⟨not_lt.1 h1, not_lt.1 h2, not_lt.1 h3, ?_, by simpa using h5⟩
    simpa only [List.any_eq_true, decide_eq_true_eq, not_exists, not_and, not_lt] using h4
  have hpos : ∀ n ∈ y.shape, 0 < n := by
    intro n hn
    rw [← hs] at hn
    have := hv.fits n hn
    have := hv.odd
    omega
  rw [ssim_valid _ _ _ _ _ hv, ssim_valid _ _ _ _ _ hv]
  have happly : ∀ (z z' : NDArray ℝ) (f : Filter) (p : List Nat), z.Same z' → z.shape = y.shape →
      p.length = y.shape.length → f.apply z p = f.apply z' p := by
    intro z z' f p hz hzs hp
    unfold Filter.apply NDArray.ndim
    rw [← hz.1]
    apply sum_congr
    intro o ho
    congr 1
    unfold sample
    rw [← hz.1]
    cases he : extendIndices f.mode z.shape (shiftIndex p o) with
    | none => rfl
    | some i =>
      apply hz.2
      refine extendIndices_inShape f.mode z.shape _ i ?_ (by rw [hzs]; exact hpos) he
      have := ((mem_offsets _ _ _).1 ho).1
      unfold shiftIndex
      rw [List.length_zipWith, hp, ← hzs]; omega
  have hat : ∀ f n, ∀ p ∈ cropPositions ((a.window - 1) / 2) x.shape,
      ssimAt big f n dr a x y p = ssimAt big f n dr a x y' p := by
    intro f n p hp
    have hpl : p.length = y.shape.length := by rw [← hs]; exact ((mem_cropPositions _ _ _).1 hp).1
    have e1 := happly y y' f p h rfl hpl
    have e2 := happly (NDArray.zip (· * ·) y y) (NDArray.zip (· * ·) y' y') f p
      ⟨h.1, fun i hi => by simp only [NDArray.zip]; rw [h.2 i hi]⟩ rfl hpl
    have e3 := happly (NDArray.zip (· * ·) x y) (NDArray.zip (· * ·) x y') f p
      ⟨rfl, fun i hi => by
        simp only [NDArray.zip]
        rw [h.2 i (by rw [← hs]; exact hi)]⟩ hs hpl
    unfold ssimAt
    simp only [e1, e2, e3]
  unfold ssimBody
  have : ∀ f n, (cropPositions ((a.window - 1) / 2) x.shape).map (ssimAt big f n dr a x y) =
      (cropPositions ((a.window - 1) / 2) x.shape).map (ssimAt big f n dr a x y') :=
    fun f n => List.map_congr_left (hat f n)
  simp only [this]

/-- **C75.** With positive constants, exponents of at least one and a window that is not set
together with Gaussian weights, the score is 1 exactly for identical images. -/
theorem C75_one_iff_identical (big dr : ℝ) (a : SsimArgs) (x y : NDArray ℝ) (hs : x.shape = y.shape)
    (hd : x.shape ≠ []) (hv : a.Valid x.shape) (m : BorderMode) (hm : borderMode a.mode = .ok m)
    (hw : a.winSize = none ∨ a.gaussian = false) (hw1 : a.winSize = some 1 → False)
    (hα : 0 < a.alpha.cast) (hβ : 0 < a.beta.cast) (hγ : 0 < a.gamma.cast)
    (hk1 : a.k1 * dr ≠ 0) (hk2 : a.k2 * dr ≠ 0) :
    structuralSimilarity big a dr x y = .ok 1 ↔ x.Same y := by
  constructor
  · intro h
    obtain ⟨-, norm, m', l, hn, hm', hl, hmean⟩ := ssim_ok _ _ _ _ _ _ h
    have hpos := covNorm_pos a _ norm hv.odd hn
    have hb : BorderHarmless a := Or.inr (Or.inr hw)
    have hbound : ∀ b ∈ l, b ≤ 1 := by
      intro b hbl
      have : (Except.ok b : Py ℝ) ∈ l.map .ok := List.mem_map_of_mem hbl
      rw [← hl] at this
      obtain ⟨p, hp, hpv⟩ := List.mem_map.1 this
      exact (abs_le.1 (ssimAt_bound big _ (a.filter_proper m') norm dr hpos a x y hs p
        (harmless_faithful a x.shape hv hb m' hm' p hp) hα.le hβ.le hγ.le b hpv)).2
    have hone := meanList_eq_max l 1 hbound hmean
    have hall : ∀ p ∈ cropPositions ((a.window - 1) / 2) x.shape,
        ssimAt big (a.filter m') norm dr a x y p = .ok 1 := by
      intro p hp
      have : ssimAt big (a.filter m') norm dr a x y p ∈ l.map .ok := by
        rw [← hl]; exact List.mem_map_of_mem hp
      obtain ⟨b, hbl, hbe⟩ := List.mem_map.1 this
      rw [← hbe, hone b hbl]
    refine ⟨hs, fun q hq => ?_⟩
    have hrad := filter_radius a m' hw
    obtain ⟨p, hp, o, ho, hpo⟩ := pixel_covered x.shape q ((a.window - 1) / 2) (fun n hn => by
      have := hv.fits n hn
      have := hv.odd
      omega) hq
    have := ssimAt_eq_one big (a.filter m') (a.filter_proper m') norm dr hpos a x y hs p
      (harmless_faithful a x.shape hv hb m' hm' p hp) hα hβ hγ hk1 hk2 (hall p hp) o (by rw [hrad]; exact ho)
    rw [hpo] at this
    unfold sample at this
    rw [extendIndices_inside _ _ _ hq, ← hs, extendIndices_inside _ _ _ hq] at this
    exact this
  · intro h
    have h' : y.Same x := ⟨h.1.symm, fun i hi => (h.2 i (by rw [h.1]; exact hi)).symm⟩
    rw [ssim_same big dr a x y x hs h']
    exact C30_self_defined big dr a x hv hd hw1 m hm

/-- The default arguments with any data range but zero fulfil the conditions on constants and
exponents. -/
example : (0 : Int) < (SsimArgs.alpha {}).cast ∧ (SsimArgs.k1 {}) * 255 ≠ 0 ∧ (SsimArgs.k2 {}) * 255 ≠ 0 := by
  refine ⟨by simp [ExpArg.cast], by norm_num, by norm_num⟩

end Viqa
