import Verif.Model.NegativeWindow
import Verif.Props.Ssim

/-!
C220: window sizes of SSIM that are not positive.
-/

namespace Viqa

/-- **C220 (partial).** Zero and negative even window sizes raise ValueError, whatever the images are. Missing: negative odd ones
(`C220_corner_refuted`). -/
theorem C220_even_partial (big dr : ℝ) (a : SsimArgs) (w : Int) (hw : w ≤ 0) (he : w % 2 = 0) (x y : NDArray ℝ) :
    ∃ m, structuralSimilarityInt big a w dr x y = .error (.valueError m) := by
  have hodd : w % 2 ≠ 1 := by omega
  unfold structuralSimilarityInt
  rw [if_pos hodd]
  split_ifs with h0 h1 h2 h3
  · have : w = 0 := by omega
    subst this
    exact (C32_value_error_iff big dr _ x y).2 (fun hv => by
      have := hv.odd
      simp [SsimArgs.window] at this)
  · exact ⟨_, rfl⟩
  · exact ⟨_, rfl⟩
  · exact ⟨_, rfl⟩
  · exact ⟨_, rfl⟩

/-- **C220 (partial).** Minus one raises ZeroDivisionError for 2D images. -/
theorem C220_one_partial (big dr : ℝ) (a : SsimArgs) (hk1 : 0 ≤ a.k1) (hk2 : 0 ≤ a.k2) (hs : 0 ≤ a.sigma) (x y : NDArray ℝ)
    (h2 : x.ndim = 2) : structuralSimilarityInt big a (-1) dr x y = .error .zeroDivisionError := by
  unfold structuralSimilarityInt
  rw [if_neg (by omega), if_neg (not_lt.2 hk1), if_neg (not_lt.2 hk2), if_neg (not_lt.2 hs), if_neg (by decide), if_pos (by rw [h2]; rfl)]

theorem position_length : ∀ (sh idx : List Nat), InShape sh idx → idx.length = sh.length
  | [], [], _ => rfl
  | [], _ :: _, h => absurd h (by simp [InShape])
  | _ :: _, [], h => absurd h (by simp [InShape])
  | _ :: sh, _ :: idx, h => by
    rw [List.length_cons, List.length_cons, position_length sh idx h.2]

theorem offsets_zero (d : Nat) : offsets 0 d = [List.replicate d 0] := by
  induction d with
  | zero => rfl
  | succ d ih => simp [offsets, ih, offsets1, List.replicate_succ]

/-- Without a filter the pixel itself is taken. -/
theorem noFilter_apply (m : BorderMode) (cval : ℝ) (x : NDArray ℝ) (p : List Nat) (hp : InShape x.shape p) :
    Filter.apply ⟨0, boxWeight 0, m, cval⟩ x p = x.get p := by
  have hl : p.length = x.ndim := position_length _ _ hp
  unfold Filter.apply
  simp only [offsets_zero, List.map_cons, List.map_nil, List.sum_cons, List.sum_nil, add_zero]
  have hw : offsetWeight (boxWeight 0) (List.replicate x.ndim 0) = 1 := by
    unfold offsetWeight boxWeight
    simp
  have hsh : shiftIndex p (List.replicate x.ndim 0) = p.map Int.ofNat := by
    rw [← hl]
    clear hl hp hw
    unfold shiftIndex
    induction p with
    | nil => rfl
    | cons a p ih => simp [List.replicate_succ, ih]
  rw [hw, hsh, one_mul]
  unfold sample
  show (match extendIndices m x.shape (p.map Int.ofNat) with | some i => x.get i | none => cval) = _
  rw [extendIndices_inside m _ _ hp]

theorem lastPositions_mem (c : Nat) (sh p : List Nat) (h : p ∈ lastPositions c sh) :
    InShape sh p ∧ ∀ k (hk : k < sh.length) (hp : k < p.length), sh[k] ≤ p[k] + c := by
  unfold lastPositions at h
  obtain ⟨q, hq, rfl⟩ := List.mem_map.1 h
  rw [mem_indices] at hq
  induction sh generalizing q with
  | nil => cases q <;> simp [InShape] at hq ⊢
  | cons n sh ih =>
    cases q with
    | nil => simp [InShape] at hq
    | cons i q =>
      have hi : i < min n c := hq.1
      obtain ⟨h1, h2⟩ := ih q hq.2 (List.mem_map.2 ⟨q, (mem_indices _ _).2 hq.2, rfl⟩)
      refine ⟨⟨show n - min n c + i < n by omega, h1⟩, fun k hk hp => ?_⟩
      cases k with
      | zero => simp only [List.zipWith_cons_cons, List.getElem_cons_zero]; omega
      | succ k =>
        simp only [List.zipWith_cons_cons, List.getElem_cons_succ]
        exact h2 k (by simpa using hk) (by simpa using hp)

/-- **C220, refuted**: with a negative odd window only the last pixels of every axis are compared. Images that agree in this
corner have SSIM 1, however different they are elsewhere. -/
theorem C220_corner_refuted (big dr : ℝ) (a : SsimArgs) (hg : a.gaussian = false) (hk1 : 0 ≤ a.k1) (hk2 : 0 ≤ a.k2) (hs : 0 ≤ a.sigma)
    (w : Int) (hw : w < 0) (ho : w % 2 = 1) (x y : NDArray ℝ) (hsh : y.shape = x.shape) (hn : w ^ x.ndim ≠ 1)
    (hne : ∀ n ∈ x.shape, 0 < n)
    (hc : ∀ p, InShape x.shape p → (∀ k (hk : k < x.shape.length) (hp : k < p.length), x.shape[k] ≤ p[k] + ((1 - w) / 2).toNat) →
      x.get p = y.get p) :
    structuralSimilarityInt big a w dr x y = .ok 1 := by
  unfold structuralSimilarityInt
  rw [if_neg (by omega), if_neg (not_lt.2 hk1), if_neg (not_lt.2 hk2), if_neg (not_lt.2 hs), if_neg (by omega), if_neg hn, hg]
  simp only [Bool.false_eq_true, if_false]
  have hat : ∀ p ∈ lastPositions ((1 - w) / 2).toNat x.shape, ∀ norm,
      ssimAt big (negativeFilter a .reflect) norm dr a x y p = .ok 1 := by
    intro p hp norm
    obtain ⟨h1, h2⟩ := lastPositions_mem _ _ _ hp
    have e := hc p h1 h2
    rw [← ssimAt_self big (negativeFilter a .reflect) norm dr a x p]
    have hf : negativeFilter a .reflect = ⟨0, boxWeight 0, .reflect, a.cval⟩ := by
      unfold negativeFilter
      rw [hg]
      rfl
    have hy : InShape y.shape p := by rw [hsh]; exact h1
    have z : ∀ u v : NDArray ℝ, u.shape = x.shape → Filter.apply ⟨0, boxWeight 0, .reflect, a.cval⟩ (NDArray.zip (· * ·) u v) p = u.get p * v.get p := by
      intro u v hu
      rw [noFilter_apply _ _ _ _ (show InShape (NDArray.zip (· * ·) u v).shape p by
        show InShape u.shape p
        rw [hu]; exact h1)]
      rfl
    unfold ssimAt
    rw [hf]
    simp only [noFilter_apply _ _ x p h1, noFilter_apply _ _ y p hy, z x x rfl, z y y hsh, z x y rfl, e]
  rw [List.map_congr_left (g := fun _ => (.ok 1 : Py ℝ)) (fun p hp => hat p hp _)]
  have hall : allOk ((lastPositions ((1 - w) / 2).toNat x.shape).map (fun _ => (.ok 1 : Py ℝ))) =
      .ok ((lastPositions ((1 - w) / 2).toNat x.shape).map (fun _ => (1 : ℝ))) := by
    rw [allOk_iff, List.map_map]
    rfl
  rw [hall]
  show meanList _ = _
  refine meanList_const _ 1 (fun h => ?_) (fun b hb => ?_)
  · have hlen : (lastPositions ((1 - w) / 2).toNat x.shape).length = (x.shape.map (fun n => min n ((1 - w) / 2).toNat)).prod := by
      unfold lastPositions
      rw [List.length_map, length_indices]
    rw [List.map_eq_nil_iff] at h
    rw [h, List.length_nil, eq_comm, List.prod_eq_zero_iff, List.mem_map] at hlen
    obtain ⟨n, hn', e⟩ := hlen
    have := hne n hn'
    omega
  · obtain ⟨p, -, rfl⟩ := List.mem_map.1 hb
    rfl

theorem mem_lastPositions (c : Nat) : ∀ (sh p : List Nat), InShape sh p →
    (∀ k (hk : k < sh.length) (hp : k < p.length), sh[k] ≤ p[k] + c) → p ∈ lastPositions c sh
  | [], [], _, _ => by simp [lastPositions, indices]
  | [], _ :: _, h, _ => absurd h (by simp [InShape])
  | _ :: _, [], h, _ => absurd h (by simp [InShape])
  | n :: sh, i :: p, h, hk => by
    have h0 := hk 0 (by simp) (by simp)
    simp only [List.getElem_cons_zero] at h0
    have hi : i < n := h.1
    have ih := mem_lastPositions c sh p h.2 (fun k h1 h2 => by
      have := hk (k + 1) (by simpa using h1) (by simpa using h2)
      simpa using this)
    unfold lastPositions at ih ⊢
    obtain ⟨q, hq, e⟩ := List.mem_map.1 ih
    refine List.mem_map.2 ⟨(i - (n - min n c)) :: q, (mem_indices _ _).2 ⟨?_, (mem_indices _ _).1 hq⟩, ?_⟩
    · show i - (n - min n c) < min n c
      omega
    · show (n - min n c + (i - (n - min n c))) :: _ = _
      rw [e]
      congr 1
      omega

/-- Without a filter, and with the usual exponents, only the gray values at the position count. -/
theorem noFilter_ssimAt (big norm dr : ℝ) (a : SsimArgs) (hg : a.gaussian = false) (hα : a.alpha.cast = 1) (hβ : a.beta.cast = 1)
    (hγ : a.gamma.cast = 1) (hk : a.k1 * dr ≠ 0) (x y : NDArray ℝ) (hsh : y.shape = x.shape) (p : List Nat) (hp : InShape x.shape p) :
    ssimAt big (negativeFilter a .reflect) norm dr a x y p =
      .ok ((2 * x.get p * y.get p + (a.k1 * dr) ^ 2) / (x.get p ^ 2 + y.get p ^ 2 + (a.k1 * dr) ^ 2)) := by
  have hf : negativeFilter a .reflect = ⟨0, boxWeight 0, .reflect, a.cval⟩ := by
    unfold negativeFilter
    rw [hg]
    rfl
  have hy : InShape y.shape p := by rw [hsh]; exact hp
  have z : ∀ u v : NDArray ℝ, u.shape = x.shape → Filter.apply ⟨0, boxWeight 0, .reflect, a.cval⟩ (NDArray.zip (· * ·) u v) p = u.get p * v.get p := by
    intro u v hu
    rw [noFilter_apply _ _ _ _ (show InShape (NDArray.zip (· * ·) u v).shape p by
      show InShape u.shape p
      rw [hu]; exact hp)]
    rfl
  have h1 : ∀ k, nanToNum big (structureTerm 0 0 0 k) = 1 := by
    intro k
    unfold structureTerm
    rw [if_neg (by simp)]
    simp only [Real.sqrt_zero, mul_zero, zero_add]
    exact nanToNum_self big k
  have h2 : ∀ k, nanToNum big (contrastTerm 0 0 k) = 1 := by
    intro k
    unfold contrastTerm
    rw [if_neg (by simp)]
    simp only [Real.sqrt_zero, mul_zero, zero_add]
    exact nanToNum_self big k
  have hpos : 0 < x.get p ^ 2 + y.get p ^ 2 + (a.k1 * dr) ^ 2 := by positivity
  unfold ssimAt
  rw [hf]
  simp only [noFilter_apply _ _ x p hp, noFilter_apply _ _ y p hy, z x x rfl, z y y hsh, z x y rfl, sub_self, mul_zero, hα, hβ, hγ, h1, h2]
  unfold luminanceTerm npDiv
  rw [if_neg hpos.ne']
  simp [npPow, nanToNum]

/-- **C220, refuted**: the corner that is compared consists of exactly the last `(1 - w) / 2` pixels of every axis: the score is 1
only if the images agree there. -/
theorem C220_exact_refuted (big dr : ℝ) (a : SsimArgs) (hg : a.gaussian = false) (hk1 : 0 ≤ a.k1) (hk2 : 0 ≤ a.k2) (hs : 0 ≤ a.sigma)
    (hα : a.alpha.cast = 1) (hβ : a.beta.cast = 1) (hγ : a.gamma.cast = 1) (hk : a.k1 * dr ≠ 0)
    (w : Int) (hw : w < 0) (ho : w % 2 = 1) (x y : NDArray ℝ) (hsh : y.shape = x.shape) (hn : w ^ x.ndim ≠ 1)
    (h : structuralSimilarityInt big a w dr x y = .ok 1) (p : List Nat) (hp : InShape x.shape p)
    (hc : ∀ k (hk : k < x.shape.length) (hp : k < p.length), x.shape[k] ≤ p[k] + ((1 - w) / 2).toNat) :
    x.get p = y.get p := by
  unfold structuralSimilarityInt at h
  rw [if_neg (by omega), if_neg (not_lt.2 hk1), if_neg (not_lt.2 hk2), if_neg (not_lt.2 hs), if_neg (by omega), if_neg hn, hg] at h
  simp only [Bool.false_eq_true, if_false] at h
  rw [List.map_congr_left (fun q hq => noFilter_ssimAt big _ dr a hg hα hβ hγ hk x y hsh q (lastPositions_mem _ _ _ hq).1)] at h
  have hall : ∀ (l : List (List Nat)) (f : List Nat → ℝ), allOk (l.map (fun q => (.ok (f q) : Py ℝ))) = .ok (l.map f) := by
    intro l f
    rw [allOk_iff, List.map_map]
    rfl
  rw [hall] at h
  have hpos : ∀ q, 0 < x.get q ^ 2 + y.get q ^ 2 + (a.k1 * dr) ^ 2 := fun q => by positivity
  have hone := meanList_eq_max _ 1 (fun b hb => by
    obtain ⟨q, -, rfl⟩ := List.mem_map.1 hb
    rw [div_le_one (hpos q)]
    nlinarith [sq_nonneg (x.get q - y.get q)]) h _ (List.mem_map.2 ⟨p, mem_lastPositions _ _ _ hp hc, rfl⟩)
  rw [div_eq_one_iff_eq (hpos p).ne'] at hone
  have : (x.get p - y.get p) ^ 2 = 0 := by nlinarith
  have := pow_eq_zero_iff (two_ne_zero) |>.1 this
  linarith

/-- An empty image and one with gray values up to 198 that ends with four empty pixels: SSIM 1 with `win_size=-3`. -/
example : structuralSimilarityInt 1e308 { gaussian := false } (-3) 255 ⟨[100, 100], fun _ => 0⟩
    ⟨[100, 100], fun p => if 98 ≤ p.getD 0 0 ∧ 98 ≤ p.getD 1 0 then 0 else p.sum⟩ = .ok 1 := by
  refine C220_corner_refuted _ _ _ rfl (by norm_num) (by norm_num) (by norm_num) (-3) (by omega) (by decide) _ _ rfl
    (by simp [NDArray.ndim]) (by simp) (fun p hp h => ?_)
  have hl := position_length _ _ hp
  match p, hl with
  | [u, v], _ =>
    have h0 := h 0 (by simp) (by simp)
    have h1 := h 1 (by simp) (by simp)
    simp at h0 h1
    simp
    omega

/-- Sizes like -2 raise. -/
example (x y : NDArray ℝ) : ∃ m, structuralSimilarityInt 1e308 {} (-2) 255 x y = .error (.valueError m) :=
  C220_even_partial _ _ _ _ (by omega) (by decide) x y

example : structuralSimilarityInt 1e308 { gaussian := false } (-1) 255 ⟨[9, 9], fun _ => 0⟩ ⟨[9, 9], fun _ => 7⟩ = .error .zeroDivisionError :=
  C220_one_partial _ _ _ (by norm_num) (by norm_num) (by norm_num) _ _ rfl

/-- One bright pixel at the end is found with `win_size=-3`. -/
example (big : ℝ) : structuralSimilarityInt big { gaussian := false } (-3) 255 ⟨[100, 100], fun _ => 0⟩
    ⟨[100, 100], fun p => if p = [98, 99] then 7 else 0⟩ ≠ .ok 1 := fun h => by
  have := C220_exact_refuted big 255 { gaussian := false } rfl (by norm_num) (by norm_num) (by norm_num) rfl rfl rfl (by norm_num) (-3) (by omega) (by decide)
    ⟨[100, 100], fun _ => 0⟩ ⟨[100, 100], fun p => if p = [98, 99] then 7 else 0⟩ rfl
    (by simp [NDArray.ndim]) h [98, 99] ⟨show 98 < 100 by omega, show 99 < 100 by omega, trivial⟩ (fun k hk _ => by
      match k, hk with
      | 0, _ => simp
      | 1, _ => simp)
  norm_num at this

end Viqa
