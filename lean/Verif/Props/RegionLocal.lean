import Verif.Props.CropNoise

/-!
C176: SNR and CNR depend only on the pixels near the given centres.
-/

namespace Viqa

/-- The pixel lies within the radius of the centre on every axis the centre has; negative coordinates of a centre count
from the end. -/
def Spec.Near (r : Int) : List Nat → List Int → List Nat → Prop
  | n :: sh, c :: cs, i :: idx => (|(i : Int) - c| ≤ r ∨ |(i : Int) - (c + n)| ≤ r) ∧ Spec.Near r sh cs idx
  | _, _, _ => True

theorem boxMask_near (r : Int) (hr : 0 < r) (sh : List Nat) (cs : List Int) (hb : ∀ c ∈ cs, r ≤ |c|) (idx : List Nat)
    (h : boxMask sh cs r idx = true) : Spec.Near r sh cs idx := by
  induction sh generalizing cs idx with
  | nil => simp [Spec.Near]
  | cons n sh ih =>
    cases cs with
    | nil => simp [Spec.Near]
    | cons c cs =>
      cases idx with
      | nil => simp [Spec.Near]
      | cons i idx =>
        rw [boxMask, Bool.and_eq_true] at h
        refine ⟨?_, ih cs (fun c hc => hb c (List.mem_cons_of_mem _ hc)) idx h.2⟩
        have h1 := h.1
        have h2 := hb c (by simp)
        unfold inSlice sliceRange sliceBound at h1
        simp only [decide_eq_true_eq] at h1
        rw [abs_le, abs_le]
        rcases abs_cases c with ⟨e, hc⟩ | ⟨e, hc⟩ <;> rw [e] at h2 <;> split_ifs at h1 <;> omega

theorem sq_le_of_abs {x r : Int} (hr : 0 ≤ r) (h : x ^ 2 ≤ r ^ 2) : |x| ≤ r := by
  exact abs_le_of_sq_le_sq h hr

theorem distSq_nonneg' (idx : List Nat) (cs : List Int) : 0 ≤ distSq idx cs := by
  induction idx generalizing cs with
  | nil => simp [distSq]
  | cons i idx ih =>
    cases cs with
    | nil => simp [distSq]
    | cons c cs =>
      rw [distSq]
      have := ih cs
      positivity

theorem ball_near (r : Int) (hr : 0 ≤ r) (sh : List Nat) (cs : List Int) (idx : List Nat)
    (h : distSq idx cs ≤ r ^ 2) : Spec.Near r sh cs idx := by
  induction sh generalizing cs idx with
  | nil => simp [Spec.Near]
  | cons n sh ih =>
    cases cs with
    | nil => simp [Spec.Near]
    | cons c cs =>
      cases idx with
      | nil => simp [Spec.Near]
      | cons i idx =>
        rw [distSq] at h
        have h1 := distSq_nonneg' idx cs
        have h2 : 0 ≤ ((i : Int) - c) ^ 2 := by positivity
        exact ⟨.inl (sq_le_of_abs hr (by linarith)), ih cs idx (by linarith)⟩

/-- Two images of one shape have the same regions, or none at all. -/
theorem selectRegion_local (a b : NDArray Rat) (hs : b.shape = a.shape) (kind : RKind)
    (hk : kind = .cubic ∨ kind = .spherical) (c : List Int) (r : Int) (hr : 0 < r) (hb : ∀ ci ∈ c, r ≤ |ci|) :
    (∃ e, selectRegion a kind c r none = .error e ∧ selectRegion b kind c r none = .error e) ∨
      ∃ sel, selectRegion a kind c r none = .ok ⟨a, sel⟩ ∧ selectRegion b kind c r none = .ok ⟨b, sel⟩ ∧
        ∀ idx, sel idx = true → Spec.Near r a.shape c idx := by
  have e1 : isColour b = isColour a := by simp [isColour, NDArray.ndim, NDArray.lastDim, hs]
  have e2 : isPlane b = isPlane a := by simp [isPlane, NDArray.ndim, e1, hs]
  have e3 : b.ndim = a.ndim := by simp [NDArray.ndim, hs]
  have e4 : b.lastDim = a.lastDim := by simp [NDArray.lastDim, hs]
  have e5 : b.size = a.size := by simp [NDArray.size, hs]
  rcases hk with rfl | rfl
  · simp only [selectRegion, toCubic, e1, e2, e3, e4, e5, hs]
    split_ifs
    · exact .inl ⟨_, rfl, rfl⟩
    · exact .inl ⟨_, rfl, rfl⟩
    · exact .inr ⟨_, rfl, rfl, fun idx h => boxMask_near r hr _ _ hb idx h⟩
    · exact .inl ⟨_, rfl, rfl⟩
    · exact .inr ⟨_, rfl, rfl, fun idx h => boxMask_near r hr _ _ hb idx h⟩
    · exact .inl ⟨_, rfl, rfl⟩
  · simp only [selectRegion, toSpherical, e2, e3, e4]
    split_ifs
    · exact .inl ⟨_, rfl, rfl⟩
    · exact .inr ⟨_, rfl, rfl, fun idx h => ball_near r hr.le _ _ idx (by simpa using h)⟩
    · exact .inl ⟨_, rfl, rfl⟩
    · exact .inr ⟨_, rfl, rfl, fun idx h => ball_near r hr.le _ _ idx (by simpa using h)⟩
    · exact .inl ⟨_, rfl, rfl⟩

theorem values_local (a b : NDArray Rat) (hs : b.shape = a.shape) (sel : List Nat → Bool)
    (h : ∀ idx ∈ indices a.shape, sel idx = true → b.get idx = a.get idx) :
    (⟨b, sel⟩ : Region Rat).values = (⟨a, sel⟩ : Region Rat).values := by
  unfold Region.values Region.selected
  simp only [hs]
  apply List.map_congr_left
  intro idx hidx
  obtain ⟨h1, h2⟩ := List.mem_filter.1 hidx
  exact h idx h1 h2

/-- **C176.** CNR with given centres and a cubic or spherical region: two images of one shape that agree on the pixels
within the radius of the centres have the same CNR, or both raise the same error. -/
theorem C176_cnr (a b : NDArray Rat) (hs : b.shape = a.shape) (args : CnrArgs) (hauto : args.auto = false)
    (hk : regionKind args.regionType = .cubic ∨ regionKind args.regionType = .spherical) (s g : List Int) (r : Int)
    (hsig : args.signal = Spec.given s) (hbg : args.background = Spec.given g) (hrad : args.radius = .int r)
    (h : ∀ idx ∈ indices a.shape, Spec.Near r a.shape s idx ∨ Spec.Near r a.shape g idx → b.get idx = a.get idx) :
    cnr b args = cnr a args := by
  have e3 : b.ndim = a.ndim := by simp [NDArray.ndim, hs]
  unfold cnr cnrSelect
  rw [hauto, hsig, hbg, hrad]
  simp only [Bool.false_eq_true, if_false]
  unfold cnrRegions
  have hint : ∀ l : List Int, checkBorder (Spec.given l) (.int r) = .ok () → ∀ ci ∈ l, r ≤ |ci| := by
    intro l hl ci hci
    obtain ⟨n, hn, hle⟩ := (C53_check_iff _ _).1 hl (.int ci) (List.mem_map_of_mem hci)
    cases hn
    exact hle
  cases h1 : checkBorder (Spec.given s) (.int r) with
  | error e => rfl
  | ok u1 =>
    cases h2 : checkBorder (Spec.given g) (.int r) with
    | error e => rfl
    | ok u2 =>
      have hs' := hint s h1
      have hg' := hint g h2
      by_cases hr : r ≤ 0
      · have : checkRadius (.int r) = .error (.typeError "Radius has to be an integer.") := if_pos hr
        rw [this]
        rfl
      · have : checkRadius (.int r) = .ok r := if_neg hr
        rw [this, e3, centreInts_given, centreInts_given]
        simp only [bind, Except.bind]
        split_ifs with hdim
        · rfl
        · rcases selectRegion_local a b hs _ hk s r (by omega) hs' with ⟨e, p1, p2⟩ | ⟨sel, p1, p2, p3⟩
          · rw [p1, p2]
          · rw [p1, p2]
            rcases selectRegion_local a b hs _ hk g r (by omega) hg' with ⟨e, q1, q2⟩ | ⟨sel', q1, q2, q3⟩
            · rw [q1, q2]
            · rw [q1, q2]
              simp only
              rw [values_local a b hs sel (fun idx hi hsel => h idx hi (.inl (p3 idx hsel))),
                values_local a b hs sel' (fun idx hi hsel => h idx hi (.inr (q3 idx hsel)))]

theorem near_append (r : Int) (sh : List Nat) (c : List Int) (p : List Nat) (i j : Nat) (hc : c.length ≤ p.length)
    (h : Spec.Near r sh c (p ++ [i])) : Spec.Near r sh c (p ++ [j]) := by
  induction sh generalizing c p with
  | nil => simp [Spec.Near]
  | cons n sh ih =>
    cases c with
    | nil => simp [Spec.Near]
    | cons c cs =>
      cases p with
      | nil => simp at hc
      | cons q p =>
        exact ⟨h.1, ih cs p (by simpa using hc) h.2⟩

/-- **C176.** The same for SNR, colour images included. -/
theorem C176_snr (a b : NDArray Rat) (hs : b.shape = a.shape) (args : SnrArgs) (hauto : args.auto = false)
    (hk : regionKind args.regionType = .cubic ∨ regionKind args.regionType = .spherical) (s : List Int) (r : Int)
    (hsig : args.center = some (Spec.given s)) (hrad : args.radius = .int r)
    (h : ∀ idx ∈ indices a.shape, Spec.Near r a.shape s idx → b.get idx = a.get idx) :
    snr b args = snr a args := by
  have e1 : isColour b = isColour a := by simp [isColour, NDArray.ndim, NDArray.lastDim, hs]
  have e3 : b.ndim = a.ndim := by simp [NDArray.ndim, hs]
  have e4 : b.lastDim = a.lastDim := by simp [NDArray.lastDim, hs]
  unfold snr
  rw [hauto, hsig, hrad]
  simp only [Bool.false_eq_true, if_false]
  have hchk : snrChecks b (some (Spec.given s)) (.int r) = snrChecks a (some (Spec.given s)) (.int r) := by
    simp only [snrChecks, e3, e4]
  rw [hchk]
  cases hc : snrChecks a (some (Spec.given s)) (.int r) with
  | error e => rfl
  | ok cr =>
    obtain ⟨c, r'⟩ := cr
    have hfacts : c = s ∧ r' = r ∧ 0 < r ∧ (∀ ci ∈ s, r ≤ |ci|) ∧
        a.ndim = (if a.lastDim = 3 then s.length + 1 else s.length) := by
      unfold snrChecks at hc
      simp only [bind, Except.bind] at hc
      cases h1 : checkBorder (Spec.given s) (.int r) with
      | error e => rw [h1] at hc; cases hc
      | ok u =>
        rw [h1] at hc
        by_cases hr : r ≤ 0
        · have : checkRadius (.int r) = .error (.typeError "Radius has to be an integer.") := if_pos hr
          rw [this] at hc; cases hc
        · have : checkRadius (.int r) = .ok r := if_neg hr
          rw [this] at hc
          simp only at hc
          by_cases hdim : a.ndim = (if a.lastDim = 3 then (Spec.given s).length + 1 else (Spec.given s).length)
          · rw [if_neg (not_not_intro hdim)] at hc
            cases hc
            refine ⟨centreInts_given s, rfl, by omega, ?_, ?_⟩
            · intro ci hci
              obtain ⟨n, hn, hle⟩ := (C53_check_iff _ _).1 h1 (.int ci) (List.mem_map_of_mem hci)
              cases hn
              exact hle
            · simpa [Spec.given] using hdim
          · rw [if_pos hdim] at hc
            cases hc
    obtain ⟨rfl, rfl, hr, hb, hdim⟩ := hfacts
    show snrCompute b c r' _ _ _ = snrCompute a c r' _ _ _
    unfold snrCompute
    rw [e1, hs]
    split_ifs with hcol hy h3
    · have hys : (rgbToYuv b).shape = (rgbToYuv a).shape := hs
      rcases selectRegion_local (rgbToYuv a) (rgbToYuv b) hys _ hk c r' hr hb with ⟨e, p1, p2⟩ | ⟨sel, p1, p2, p3⟩
      · rw [p1, p2]
      · rw [p1, p2]
        have hlast : a.lastDim = 3 ∧ a.ndim = 3 := by
          unfold isColour at hcol
          simp at hcol
          exact ⟨hcol.2, hcol.1⟩
        rw [if_pos hlast.1, hlast.2] at hdim
        obtain ⟨n0, n1, n2, hsh⟩ : ∃ n0 n1 n2, a.shape = [n0, n1, n2] := by
          have : a.shape.length = 3 := hlast.2
          match hsh : a.shape, this with
          | [n0, n1, n2], _ => exact ⟨n0, n1, n2, rfl⟩
        have hn2 : n2 = 3 := by
          have := hlast.1
          simpa [NDArray.lastDim, hsh] using this
        subst hn2
        have hch : ∀ i, i < 3 → channelValues ⟨rgbToYuv b, sel⟩ i = channelValues ⟨rgbToYuv a, sel⟩ i := by
          intro i hi
          unfold channelValues
          simp only [hys]
          apply List.map_congr_left
          intro p hp
          obtain ⟨hp1, hp2⟩ := List.mem_filter.1 hp
          have hnear := p3 _ hp2
          have hsh' : (rgbToYuv a).shape = [n0, n1, 3] := hsh
          rw [hsh'] at hp1 hnear
          have hp1' : p ∈ indices [n0, n1] := hp1
          have hlen : p.length = 2 := by
            simp only [indices, List.mem_flatMap, List.mem_map, List.mem_range] at hp1'
            obtain ⟨u, -, q, ⟨v, -, t, ht, rfl⟩, rfl⟩ := hp1'
            simp at ht
            simp [ht]
          have hget : ∀ j < 3, b.get (p ++ [j]) = a.get (p ++ [j]) := by
            intro j hj
            apply h
            · rw [hsh]
              simp only [indices, List.mem_flatMap, List.mem_map, List.mem_range] at hp1' ⊢
              obtain ⟨u, hu, q, ⟨v, hv, t, ht, rfl⟩, rfl⟩ := hp1'
              simp at ht
              subst ht
              exact ⟨u, hu, [v, j], ⟨v, hv, [j], ⟨j, hj, [], by simp, rfl⟩, rfl⟩, rfl⟩
            · rw [hsh]
              exact near_append _ _ _ _ i j (by omega) hnear
          simp only [rgbToYuv, List.dropLast_concat, hget 0 (by omega), hget 1 (by omega), hget 2 (by omega)]
        have hsz : (rgbToYuv b).size = (rgbToYuv a).size := by simp [NDArray.size, hys]
        simp only [snrChannel, hch 0 (by omega), hch 1 (by omega), hch 2 (by omega), hsz]
    · rcases selectRegion_local a b hs _ hk c r' hr hb with ⟨e, p1, p2⟩ | ⟨sel, p1, p2, -⟩
      · rw [p1, p2]
      · rw [p1, p2]
    · rcases selectRegion_local a b hs _ hk c r' hr hb with ⟨e, p1, p2⟩ | ⟨sel, p1, p2, -⟩
      · rw [p1, p2]
      · rw [p1, p2]
    · rcases selectRegion_local a b hs _ hk c r' hr hb with ⟨e, p1, p2⟩ | ⟨sel, p1, p2, p3⟩
      · rw [p1, p2]
      · rw [p1, p2]
        simp only
        rw [values_local a b hs sel (fun idx hi hsel => h idx hi (p3 idx hsel))]

/-! ### Examples -/

/-- A volume and the same volume with a bright voxel far from the regions. -/
def brightCorner : NDArray Rat := ⟨[6, 6, 6], fun i => if i = [5, 5, 5] then 1000 else i.getD 2 0⟩

example : cnr brightCorner { signal := [.int 2, .int 2, .int 2], background := [.int 1, .int 1, .int 2], radius := .int 1 } =
    cnr planes { signal := [.int 2, .int 2, .int 2], background := [.int 1, .int 1, .int 2], radius := .int 1 } := by
  refine C176_cnr planes brightCorner rfl _ rfl (.inl rfl) [2, 2, 2] [1, 1, 2] 1 rfl rfl rfl ?_
  intro idx _ h
  by_cases hi : idx = [5, 5, 5]
  · subst hi
    simp [Spec.Near, planes] at h
  · simp [brightCorner, planes, hi]

example : snr brightCorner { center := some [.int 2, .int 2, .int 2], radius := .int 2, regionType := "spherical" } =
    snr planes { center := some [.int 2, .int 2, .int 2], radius := .int 2, regionType := "spherical" } := by
  refine C176_snr planes brightCorner rfl _ rfl (.inr rfl) [2, 2, 2] 2 rfl rfl ?_
  intro idx _ h
  by_cases hi : idx = [5, 5, 5]
  · subst hi
    simp [Spec.Near, planes] at h
  · simp [brightCorner, planes, hi]

end Viqa
