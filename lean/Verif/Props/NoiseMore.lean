import Verif.Props.Noise

/-!
Further properties of CNR and SNR: C89 to C94.
-/

namespace Viqa

open Spec

/-! ### C89 -/

/-- Eroding only removes pixels. -/
theorem erode_sub (d : NDArray Bool) (idx : List Nat) (h : (erodeStep d).get idx = true) :
    d.get idx = true ∧ InShape d.shape idx := by
  simp only [erodeStep, crossNeighbours, List.all_cons, Bool.and_eq_true, boolAt, decide_eq_true_eq] at h
  have e : (idx.map (fun i : Nat => (i : Int))).map Int.toNat = idx := by
    rw [List.map_map]
    have : (Int.toNat ∘ fun i : Nat => (i : Int)) = id := by funext i; simp
    rw [this, List.map_id]
  have h2 := h.1.2
  rw [e] at h2
  exact ⟨h2.2, h2.1⟩

/-- A pixel whose first coordinate is smallest is removed by erosion. -/
theorem erode_first (d : NDArray Bool) (i : Nat) (idx : List Nat)
    (hmin : ∀ j idx', InShape d.shape (j :: idx') → d.get (j :: idx') = true → i ≤ j) :
    (erodeStep d).get (i :: idx) = false := by
  rw [Bool.eq_false_iff]
  intro h
  simp only [erodeStep, crossNeighbours, List.all_cons, List.all_flatMap, Bool.and_eq_true,
    List.all_eq_true, List.mem_range, List.length_map, List.length_cons] at h
  have h0 := h.2 0 (by omega)
  have h1 := h0.1
  simp only [List.map_cons, List.modify_zero_cons, boolAt, List.all_cons, Bool.and_eq_true,
    decide_eq_true_eq] at h1
  have := hmin _ _ h1.2.1 h1.2.2
  omega

theorem exists_min_first (S : Nat → Prop) (h : ∃ i, S i) : ∃ i, S i ∧ ∀ j, S j → i ≤ j := by
  classical
  exact ⟨Nat.find h, Nat.find_spec h, fun j hj => Nat.find_min' h hj⟩

/-- The pixels remaining after two erosions are fewer than before, if there are any. -/
theorem erode_twice_smaller (d : NDArray Bool) (n : Nat) (sh : List Nat) (hs : d.shape = n :: sh)
    (hne : ∃ idx, InShape d.shape idx ∧ d.get idx = true) :
    ∃ idx, InShape d.shape idx ∧ d.get idx = true ∧ (erodeStep (erodeStep d)).get idx = false := by
  obtain ⟨p, hp1, hp2⟩ := hne
  have hS : ∃ i, ∃ idx, InShape d.shape (i :: idx) ∧ d.get (i :: idx) = true := by
    cases p with
    | nil => rw [hs] at hp1; simp [InShape] at hp1
    | cons i idx => exact ⟨i, idx, hp1, hp2⟩
  obtain ⟨i, ⟨idx, h1, h2⟩, hmin⟩ := exists_min_first _ hS
  refine ⟨i :: idx, h1, h2, ?_⟩
  rw [Bool.eq_false_iff]
  intro h
  have h3 := (erode_sub _ _ h).1
  rw [erode_first d i idx (fun j idx' a b => hmin j ⟨idx', a, b⟩)] at h3
  cases h3

/-- **C89 (refuted).** With `auto_center=True` and the region type `full` the score is that of the
cleaned region without the documented erosion, which always has more pixels: for every grayscale
image in which a region is found, SNR is the ratio for the region `l.cleaned`, the region returned by
`find_largest_region` has fewer pixels. -/
theorem C89_refuted (a : NDArray Rat) (args : SnrArgs) (l : Largest) (v : ℝ)
    (hauto : args.auto = true) (ht : args.regionType = "full") (hc : isColour a = false)
    (hl : autoFind a args.lower args.upper args.iterations = .ok l)
    (hne : ∃ idx, InShape a.shape idx ∧ l.cleaned.get idx = true)
    (h : snr a args = .ok (.gray v)) :
    (⟨a, l.cleaned.get⟩ : Region Rat).values ≠ [] ∧
    snrOf (⟨a, l.cleaned.get⟩ : Region Rat).values = .ok v ∧
    ∃ b reg, getBinary a args.lower args.upper = .ok b ∧ largestRegion b l .full = .ok reg ∧
      (∀ idx, reg.sel idx = true → l.cleaned.get idx = true) ∧
      ∃ idx, InShape a.shape idx ∧ l.cleaned.get idx = true ∧ reg.sel idx = false := by
  have hk : regionKind args.regionType = .full := by rw [ht]; decide
  refine ⟨?_, ?_, ?_⟩
  · obtain ⟨idx, h1, h2⟩ := hne
    intro hnil
    simp only [Region.values, Region.selected, List.map_eq_nil_iff, List.filter_eq_nil_iff] at hnil
    exact hnil idx ((inShape_iff_mem _ _).2 h1) h2
  · unfold snr at h
    simp only [hauto, if_true, hl, bind, Except.bind, hk, autoRegion, hc, Bool.false_eq_true, if_false] at h
    cases h3 : snrChecks a (some (natCentre l.centre)) (.int (l.radius : Nat)) with
    | error e => rw [h3] at h; cases h
    | ok p =>
      rw [h3] at h
      simp only [snrCompute, hc, Bool.false_eq_true, if_false, selectRegion, Option.getD_some] at h
      cases h4 : snrOf (⟨a, l.cleaned.get⟩ : Region Rat).values with
      | error e => rw [h4] at h; cases h
      | ok w => rw [h4] at h; cases h; rfl
  · unfold autoFind at hl
    rw [if_neg (by simp [hc])] at hl
    cases hb : getBinary a args.lower args.upper with
    | error e => rw [hb] at hl; cases hl
    | ok b =>
      rw [hb] at hl
      simp only at hl
      obtain ⟨hlen, hin, hcl⟩ := findLargest_length _ _ _ hl
      have hsb := (getBinary_ok _ _ _ _ hb).1
      have hshape : l.cleaned.shape = a.shape := by rw [hcl, cleanBinary_shape, hsb]
      refine ⟨b, _, rfl, rfl, ?_, ?_⟩
      · intro idx hi
        exact (erode_sub _ _ (erode_sub _ _ hi).1).1
      · have hne' : ∃ n sh, l.cleaned.shape = n :: sh := by
          cases hsh : l.cleaned.shape with
          | nil =>
            exfalso
            rw [hshape] at hsh
            rw [hsb, hsh] at hin
            unfold findLargest at hl
            split at hl
            · cases hl
            · split at hl
              · cases hl
              · rw [if_neg (by simp [NDArray.ndim, hsb, hsh])] at hl; cases hl
          | cons n sh => exact ⟨n, sh, rfl⟩
        obtain ⟨n, sh, hsh⟩ := hne'
        have := erode_twice_smaller l.cleaned n sh hsh (by rw [hshape]; exact hne)
        rw [hshape] at this
        exact this

/-- A bright block in a dark image, 9 times 11 pixels. -/
def sampleBlock : NDArray Rat :=
  ⟨[9, 11], fun idx => if 1 ≤ idx.getD 0 0 ∧ idx.getD 0 0 < 8 ∧ 2 ≤ idx.getD 1 0 ∧ idx.getD 1 0 < 10
    then 10 + idx.getD 0 0 else 1⟩

example : (autoFind sampleBlock 10 100 1).toOption.map (fun l => (l.centre, l.radius,
    l.cleaned.get [2, 4], (erodeStep (erodeStep l.cleaned)).get [2, 4])) = some ([4, 5], 3, true, false) := by
  decide +kernel

/-! ### C90 -/

/-- **C90 (partial).** All pixels of an automatically found cubic or spherical region that are closer
to the centre than the radius belong to the detected region; in the interior of the sphere that are all
of its pixels. Missing: see `C90_refuted`. -/
theorem C90_partial (b : NDArray Bool) (it : Int) (l : Largest) (reg : Region Bool) (kind : RKind)
    (hne : ∃ idx, InShape b.shape idx ∧ l.cleaned.get idx = true)
    (h : findLargest b it = .ok l) (hreg : largestRegion b l kind = .ok reg)
    (idx : List Nat) (hi : InShape b.shape idx) (hsel : reg.sel idx = true) :
    (sqDist idx (toInts l.centre) < (l.radius : Int) ^ 2 → l.cleaned.get idx = true) ∧
    (kind = .spherical → sqDist idx (toInts l.centre) ≠ (l.radius : Int) ^ 2 → l.cleaned.get idx = true) := by
  have hv := (C58_valid b it l h hne).2.2.2.2.1
  refine ⟨hv idx hi, ?_⟩
  intro hk hd
  subst hk
  apply hv idx hi
  have hlen := (findLargest_length _ _ _ h).1
  have hs : reg.sel idx = decide (distSq idx (toInts l.centre) ≤ ((l.radius : Nat) : Int) ^ 2) := by
    simp only [largestRegion, toSpherical] at hreg
    split at hreg
    · split at hreg
      · cases hreg
      · cases hreg; rfl
    · split at hreg
      · split at hreg
        · cases hreg
        · cases hreg; rfl
      · cases hreg
  rw [hs, decide_eq_true_eq, distSq_eq_sqDist _ _ (by
    rw [toInts, List.length_map, hlen, inShape_length _ _ hi])] at hsel
  exact lt_of_le_of_ne hsel hd

/-- **C90 (refuted).** Whenever the distance from the centre to the nearest pixel outside of the
detected region is an integer, the spherical region around that centre contains a pixel that is not in
the detected region. -/
theorem C90_refuted (b : NDArray Bool) (it : Int) (l : Largest) (reg : Region Bool)
    (hl : findLargest b it = .ok l) (hreg : largestRegion b l .spherical = .ok reg)
    (hout : ∃ q, InShape b.shape q ∧ l.cleaned.get q = false)
    (hint : ((l.radius : Nat) : Int) ^ 2 = edtSq l.cleaned l.centre) :
    ∃ q, InShape b.shape q ∧ reg.sel q = true ∧ l.cleaned.get q = false := by
  obtain ⟨_, hin, hcl⟩ := findLargest_length _ _ _ hl
  have hshape : l.cleaned.shape = b.shape := by rw [hcl, cleanBinary_shape]
  obtain ⟨q, hq, hf, he⟩ := edtSq_attained l.cleaned l.centre (by rw [hshape]; exact hout)
  refine ⟨q, by rw [← hshape]; exact hq, ?_, hf⟩
  have hsel : reg.sel q = decide (distSq q (l.centre.map (fun i : Nat => (i : Int))) ≤ ((l.radius : Nat) : Int) ^ 2) := by
    simp only [largestRegion, toSpherical] at hreg
    split at hreg
    · split at hreg
      · cases hreg
      · cases hreg; rfl
    · split at hreg
      · split at hreg
        · cases hreg
        · cases hreg; rfl
      · cases hreg
  rw [hsel, decide_eq_true_eq, hint, he]
  exact le_of_eq (distSq_symm q l.centre)

/-- **C90 (refuted).** The cubic and the spherical region found in a rectangle contain pixels outside
of the detected region. -/
theorem C90_refuted_sample : ∃ l cube sphere, findLargest sampleBinary 1 = .ok l ∧
    largestRegion sampleBinary l .cubic = .ok cube ∧ largestRegion sampleBinary l .spherical = .ok sphere ∧
    cube.sel [1, 2] = true ∧ l.cleaned.get [1, 2] = false ∧
    sphere.sel [1, 5] = true ∧ l.cleaned.get [1, 5] = false := by
  have h : ∃ l, findLargest sampleBinary 1 = .ok l ∧ l.centre = [4, 5] ∧ l.radius = 3 ∧
      l.cleaned.get [1, 2] = false ∧ l.cleaned.get [1, 5] = false ∧ l.cleaned.shape = [9, 11] := by
    have hd : (findLargest sampleBinary 1).toOption.map (fun l => (l.centre, l.radius,
      l.cleaned.get [1, 2], l.cleaned.get [1, 5], l.cleaned.shape)) =
        some ([4, 5], 3, false, false, [9, 11]) := by decide +kernel
    cases hf : findLargest sampleBinary 1 with
    | error e => rw [hf] at hd; cases hd
    | ok l =>
      rw [hf] at hd
      simp only [Except.toOption, Option.map_some, Option.some.injEq, Prod.mk.injEq] at hd
      exact ⟨l, rfl, hd.1, hd.2.1, hd.2.2.1, hd.2.2.2.1, hd.2.2.2.2⟩
  obtain ⟨l, h1, hc, hr, h2, h3, hs⟩ := h
  obtain ⟨c, r, d⟩ := l
  obtain ⟨sh, g⟩ := d
  simp only at hc hr h2 h3 hs
  subst hc hr hs
  refine ⟨_, ⟨⟨[9, 11], g⟩, boxMask [9, 11] [4, 5] 3⟩,
    ⟨⟨[9, 11], g⟩, fun idx => decide (distSq idx [4, 5] ≤ 3 ^ 2)⟩, h1, ?_, ?_, by rfl, h2, by rfl, h3⟩
  · simp [largestRegion, toCubic, isPlane, NDArray.ndim, isColour]
  · simp [largestRegion, toSpherical, isPlane, NDArray.ndim]

/-! ### C91 -/

/-- Dictionary without entries. -/
def emptyDict {V} : Dict V := fun _ => none

theorem snrArgs_saved (params : Dict NVal) (t : String) (c : List NumArg) (r : NumArg)
    (ht : t = "cubic" ∨ t = "spherical") (a : NDArray Rat) :
    (snrScore a (params.update (snrSaved t c r)) emptyDict).2 =
      snr a { center := some c, radius := r } := by
  have hf : t ≠ "full" := by rcases ht with h | h <;> rw [h] <;> decide
  have hc : params.update (snrSaved t c r) "signal_center" = some (.centre c) := by
    simp [Dict.update, snrSaved, hf, ht]
  have hr : params.update (snrSaved t c r) "radius" = some (.num r) := by
    simp [Dict.update, snrSaved, hf, ht]
  unfold snrScore regionKwargs
  rw [if_neg (by decide), if_pos (by simp [Dict.has, snrKeys, hc, hr])]
  simp only [snrArgsOf, snrKeys, List.mem_cons, List.not_mem_nil, or_false, true_or, or_true, if_true, hc, hr]
  rfl

/-- **C91 (partial).** A cubic region saved by the widget is the one used by the next call of `score`
without arguments, for every image and whatever else is stored. Missing: the other region types, see
`C91_refuted`. -/
theorem C91_partial (a : NDArray Rat) (params : Dict NVal) (c : List NumArg) (r : NumArg) :
    (snrScore a (params.update (snrSaved "cubic" c r)) emptyDict).2 =
      snr a { center := some c, radius := r, regionType := "cubic" } :=
  snrArgs_saved params "cubic" c r (Or.inl rfl) a

example : (snrScore ⟨[5, 6], fun idx => (idx.getD 0 0 : Nat)⟩ (emptyDict.update (snrSaved "cubic" [.int 2, .int 2] (.int 1))) emptyDict).2 =
    snr ⟨[5, 6], fun idx => (idx.getD 0 0 : Nat)⟩ { center := some [.int 2, .int 2], radius := .int 1, regionType := "cubic" } := C91_partial _ _ _ _

/-- An image that is flat in a square but not in the circle with the same centre and radius. -/
def sampleCorner : NDArray Rat := ⟨[4, 4], fun idx => if idx.getD 0 0 < 2 ∧ idx.getD 1 0 < 2 then 1 else 5⟩

/-- **C91 (refuted).** A spherical region saved by the widget is scored as a cubic one: for every
image and region the score is that of the cube, which is a different number for some images. A saved
region of type `full` or `original` makes every later call of `score` without arguments raise TypeError. -/
theorem C91_refuted :
    (∀ (a : NDArray Rat) (params : Dict NVal) (c : List NumArg) (r : NumArg),
      (snrScore a (params.update (snrSaved "spherical" c r)) emptyDict).2 =
        snr a { center := some c, radius := r, regionType := "cubic" }) ∧
    (∃ (a : NDArray Rat) (c : List NumArg) (r : NumArg) (x y : ℝ),
      snr a { center := some c, radius := r, regionType := "cubic" } = .ok (.gray x) ∧
      snr a { center := some c, radius := r, regionType := "spherical" } = .ok (.gray y) ∧ x ≠ y) ∧
    (∀ (a : NDArray Rat) (params : Dict NVal) (t : String) (c : List NumArg) (r : NumArg),
      t = "full" ∨ t = "original" →
      (snrScore a (params.update (snrSaved t c r)) emptyDict).2 =
        .error (.typeError "'NoneType' object is not iterable")) := by
  refine ⟨fun a params c r => snrArgs_saved params "spherical" c r (Or.inr rfl) a, ?_, ?_⟩
  · have hcub := C55_region sampleCorner { center := some [.int 1, .int 1], radius := .int 1 } rfl (by decide)
      [1, 1] 1 ⟨sampleCorner, boxMask [4, 4] [1, 1] 1⟩ (by decide +kernel) (by rfl) (by decide +kernel)
    have hsph := C55_region sampleCorner
      { center := some [.int 1, .int 1], radius := .int 1, regionType := "spherical" } rfl (by decide)
      [1, 1] 1 ⟨sampleCorner, fun idx => decide (distSq idx [1, 1] ≤ 1 ^ 2)⟩ (by decide +kernel) (by rfl)
      (by decide +kernel)
    refine ⟨sampleCorner, [.int 1, .int 1], .int 1, 0, _, hcub.2.1 ⟨1, by decide +kernel⟩, hsph.2.2 ?_, ?_⟩
    · rintro ⟨v, hv⟩
      have h1 := hv 1 (by decide +kernel)
      have h5 := hv 5 (by decide +kernel)
      rw [← h1] at h5
      exact absurd h5 (by decide)
    · have e : (⟨sampleCorner, fun idx => decide (distSq idx [1, 1] ≤ 1 ^ 2)⟩ : Region Rat).values = [1, 1, 1, 5, 5] := by
        decide +kernel
      rw [e]
      intro h
      have hm : ((([1, 1, 1, 5, 5] : List Rat).sum / (([1, 1, 1, 5, 5] : List Rat).length : Rat) : Rat) : ℝ) ≠ 0 := by
        norm_num
      have hs : Real.sqrt (((([1, 1, 1, 5, 5] : List Rat).map
          (fun v => (v - ([1, 1, 1, 5, 5] : List Rat).sum / (([1, 1, 1, 5, 5] : List Rat).length : Rat)) ^ 2)).sum
          / (([1, 1, 1, 5, 5] : List Rat).length : Rat) : Rat) : ℝ) ≠ 0 := by
        rw [Real.sqrt_ne_zero']
        norm_num
      exact absurd h.symm (div_ne_zero hm hs)
  · intro a params t c r ht
    have hc : params.update (snrSaved t c r) "signal_center" = some .none := by
      rcases ht with rfl | rfl <;> simp [Dict.update, snrSaved]
    have hr : params.update (snrSaved t c r) "radius" = some .none := by
      rcases ht with rfl | rfl <;> simp [Dict.update, snrSaved]
    unfold snrScore regionKwargs
    rw [if_neg (by decide), if_pos (by simp [Dict.has, snrKeys, hc, hr])]
    simp only [snrArgsOf, snrKeys, List.mem_cons, List.not_mem_nil, or_false, true_or, or_true, if_true, hc, hr]
    rfl

/-! ### C92 -/

/-- **C92 (refuted).** For every image, a pixel that is not black and has three equal channels gets a
luminance different from its grey value and chrominances that are not zero. -/
theorem C92_refuted (a : NDArray Rat) (p : List Nat) (v : Rat) (hv : v ≠ 0)
    (hgrey : ∀ i < 3, a.get (p ++ [i]) = v) :
    (rgbToYuv a).get (p ++ [0]) ≠ v ∧ (rgbToYuv a).get (p ++ [1]) ≠ 0 ∧ (rgbToYuv a).get (p ++ [2]) ≠ 0 := by
  have e : ∀ j, (rgbToYuv a).get (p ++ [j]) = v * (yuvWeight 0 j + yuvWeight 1 j + yuvWeight 2 j) := by
    intro j
    simp only [rgbToYuv, List.getLast?_concat, Option.getD_some, List.dropLast_concat]
    rw [hgrey 0 (by omega), hgrey 1 (by omega), hgrey 2 (by omega)]
    ring
  have w0 : yuvWeight 0 0 + yuvWeight 1 0 + yuvWeight 2 0 = 72769 / 100000 := by decide +kernel
  have w1 : yuvWeight 0 1 + yuvWeight 1 1 + yuvWeight 2 1 = -17950 / 100000 := by decide +kernel
  have w2 : yuvWeight 0 2 + yuvWeight 1 2 + yuvWeight 2 2 = 45181 / 100000 := by decide +kernel
  rw [e, e, e, w0, w1, w2]
  refine ⟨?_, ?_, ?_⟩
  · intro h
    apply hv
    linarith
  · exact mul_ne_zero hv (by norm_num)
  · exact mul_ne_zero hv (by norm_num)

/-- **C92 (partial).** With the transposed matrix grey pixels have their value as luminance and, up to
the rounding of the coefficients, no chrominance: the rows of the matrix are the documented
coefficients. Missing: the conversion multiplies from the wrong side. -/
theorem C92_partial :
    yuvWeight 0 0 + yuvWeight 0 1 + yuvWeight 0 2 = 1 ∧
    yuvWeight 1 0 + yuvWeight 1 1 + yuvWeight 1 2 = 0 ∧
    yuvWeight 2 0 + yuvWeight 2 1 + yuvWeight 2 2 = 0 := by decide +kernel

example : (rgbToYuv ⟨[1, 1, 3], fun _ => 100⟩).get [0, 0, 0] = 72769 / 1000 := by decide +kernel

/-! ### C93 -/

/-- **C93 (refuted).** `SNR().score(img, auto_center=True)` raises ValueError for every image, as long
as no centre has been stored. -/
theorem C93_refuted (a : NDArray Rat) :
    (snrScore a emptyDict (fun k => if k = "auto_center" then some (.flag true) else none)).2 =
      .error (.valueError "No center or radius provided.") := by
  unfold snrScore regionKwargs
  rw [if_neg (by decide), if_neg (by decide)]

/-- **C93 (partial).** If any centre and radius are passed, automatic centres do not depend on them.
Missing: calls without them. -/
theorem C93_partial (a : NDArray Rat) (params kw kw' : Dict NVal)
    (h1 : kw "signal_center" ≠ none) (h2 : kw "radius" ≠ none)
    (h1' : kw' "signal_center" ≠ none) (h2' : kw' "radius" ≠ none)
    (hsame : ∀ k, k ∉ snrKeys → kw k = kw' k) (hauto : kw "auto_center" = some (.flag true)) :
    (snrScore a params kw).2 = (snrScore a params kw').2 := by
  have hk : kw.has snrKeys = true := by rw [has_iff]; intro k hk; simp [snrKeys] at hk; rcases hk with rfl | rfl <;> assumption
  have hk' : kw'.has snrKeys = true := by rw [has_iff]; intro k hk; simp [snrKeys] at hk; rcases hk with rfl | rfl <;> assumption
  unfold snrScore regionKwargs
  rw [if_pos hk, if_pos hk']
  have e1 := hsame "region_type" (by decide)
  have e2 := hsame "auto_center" (by decide)
  have e3 : (snrArgsOf kw).auto = true := by simp [snrArgsOf, hauto]
  have e4 : (snrArgsOf kw').auto = true := by simp [snrArgsOf, ← e2, hauto]
  have e5 : (snrArgsOf kw).regionType = (snrArgsOf kw').regionType := by simp only [snrArgsOf, e1]
  simp only [snr, e3, e4, if_true, e5]
  rfl

example : (snrScore sampleBlock emptyDict (fun k => if k = "auto_center" then some (.flag true) else if k = "signal_center" then some (.centre [.int 1, .int 1])
      else if k = "radius" then some (.num (.int 1)) else none)).2 =
    (snrScore sampleBlock emptyDict (fun k => if k = "auto_center" then some (.flag true) else if k = "signal_center" then some .none
      else if k = "radius" then some (.num (.int 9)) else none)).2 :=
  C93_partial _ _ _ _ (by simp) (by simp) (by simp) (by simp) (by
    intro k hk
    simp only [snrKeys, List.mem_cons, List.not_mem_nil, or_false, not_or] at hk
    simp [hk.1, hk.2]) (by simp)

/-! ### C94 -/

/-- **C94.** With the region type `full` or `original` and given centres both regions are the whole
image: the contrast-to-noise ratio is zero for every image. -/
theorem C94_whole (a : NDArray Rat) (args : CnrArgs) (hauto : args.auto = false)
    (hk : regionKind args.regionType = .full ∨ regionKind args.regionType = .original)
    (v : ℝ) (h : cnr a args = .ok v) : v = 0 := by
  unfold cnr at h
  cases hs : cnrSelect a args with
  | error e => rw [hs] at h; cases h
  | ok x =>
    rw [hs] at h
    unfold cnrSelect at hs
    simp only [hauto, Bool.false_eq_true, if_false] at hs
    obtain ⟨r, _, _, _, _, _, _, h1, h2⟩ := cnrRegions_ok _ _ _ _ _ _ _ _ hs
    have e1 : x.1 = wholeImage a := by
      rcases hk with hk | hk <;> rw [hk] at h1 <;> exact (Except.ok.inj h1).symm
    have e2 : x.2 = wholeImage a := by
      rcases hk with hk | hk <;> rw [hk] at h2 <;> exact (Except.ok.inj h2).symm
    obtain ⟨x1, x2⟩ := x
    simp only at e1 e2 h
    subst e1 e2
    unfold cnrOf at h
    split at h
    · cases h
    · split at h
      · cases h; rfl
      · rw [sub_self, Rat.cast_zero, zero_div] at h; cases h; rfl

example (v : ℝ) (h : cnr ⟨[5, 6], fun idx => (idx.getD 0 0 : Nat)⟩ ⟨[.int 1, .int 1], [.int 3, .int 3], .int 1, "full", false, 5⟩ = .ok v) : v = 0 :=
  C94_whole _ _ rfl (.inl (by decide)) v h

/-- There are such calls: for every grayscale image of two axes. -/
theorem C94_succeeds (n0 n1 : Nat) (g : List Nat → Rat) (h0 : n0 ≠ 0) (h1 : n1 ≠ 0) :
    cnr ⟨[n0, n1], g⟩ ⟨[.int 1, .int 1], [.int 1, .int 1], .int 1, "original", false, 5⟩ = .ok 0 := by
  have hk : regionKind "original" = .original := by decide
  have hb : checkBorder [.int 1, .int 1] (.int 1) = .ok () := by decide
  have hsel : cnrSelect ⟨[n0, n1], g⟩ ⟨[.int 1, .int 1], [.int 1, .int 1], .int 1, "original", false, 5⟩ =
      .ok (wholeImage ⟨[n0, n1], g⟩, wholeImage ⟨[n0, n1], g⟩) := by
    unfold cnrSelect cnrRegions
    simp only [Bool.false_eq_true, if_false, hk, hb, bind, Except.bind, checkRadius, selectRegion]
    simp [NDArray.ndim]
  have hval : (wholeImage (⟨[n0, n1], g⟩ : NDArray Rat)).values ≠ [] := by
    intro hnil
    simp only [Region.values, Region.selected, wholeImage, List.map_eq_nil_iff, List.filter_eq_nil_iff] at hnil
    exact hnil [0, 0] ((inShape_iff_mem _ _).2 (by simp [InShape]; omega)) trivial
  unfold cnr
  rw [hsel]
  unfold cnrOf
  simp only
  rw [if_neg hval]
  split
  · rfl
  · simp

example : cnr ⟨[5, 6], fun idx => (idx.getD 0 0 : Nat)⟩
    ⟨[.int 1, .int 1], [.int 1, .int 1], .int 1, "original", false, 5⟩ = .ok 0 :=
  C94_succeeds 5 6 _ (by decide) (by decide)

/-- C90 for a spherical region. -/
example (l : Largest) (h : findLargest sampleBinary 1 = .ok l) (idx : List Nat) (hi : InShape sampleBinary.shape idx) (reg : Region Bool)
    (hreg : largestRegion sampleBinary l .spherical = .ok reg) (hsel : reg.sel idx = true)
    (hd : sqDist idx (toInts l.centre) ≠ (l.radius : Int) ^ 2) : l.cleaned.get idx = true := by
  have e : (findLargest sampleBinary 1).toOption.map (fun l => l.cleaned.get [4, 5]) = some true := by decide +kernel
  rw [h] at e
  exact (C90_partial _ _ l reg _ ⟨[4, 5], by decide +kernel, by simpa [Except.toOption] using e⟩ h hreg idx hi hsel).2 rfl hd

end Viqa
