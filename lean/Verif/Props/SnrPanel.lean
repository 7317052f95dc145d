import Verif.Model.SnrPanel
import Verif.Props.Display

/-!
C124: the view of the signal region of SNR; C125: opening the interactive choice of SNR again; C126: `SNR.set_centers`
outside of notebooks.
-/

namespace Viqa

/-! ### C124 -/

theorem checkBorder_inside (r : Nat) (l : List Nat) (h : ∀ c ∈ l, r ≤ c) :
    checkBorder (List.map NumArg.int (List.map (fun c : Nat => (c : Int)) l)) (.int r) = .ok () := by
  induction l with
  | nil => rfl
  | cons c l ih =>
    have hc := h c (by simp)
    simp only [List.map_cons, checkBorder, tooClose]
    rw [abs_of_nonneg (by omega), decide_eq_false (by omega)]
    exact ih (fun c hc => h c (by simp [hc]))

theorem regionKind_names (t : String) (h : regionKind t = .cubic ∨ regionKind t = .spherical) :
    t ≠ "full" ∧ t ≠ "original" ∧ t ≠ "" := by
  refine ⟨?_, ?_, ?_⟩ <;> rintro rfl <;> revert h <;> decide +kernel

/-- What the user asked for: the argument, or else what is stored. -/
def Asked {β : Type} (arg : Option β) (stored : Option (Option β)) (b : β) : Prop :=
  arg = some b ∨ (arg = none ∧ stored = some (some b))

/-- The argument for an optional list. -/
def listArg {β : Type} : Option (List β) → List β
  | none => []
  | some l => l

theorem snrCentre_asked (m : SnrMetric Rat) (center : Option (List Int)) (radius : Option Int) (c : List Int) (r : Int)
    (hc : Asked center m.params.center c) (hr : Asked radius m.params.radius r) (hc0 : c ≠ []) (hr0 : r ≠ 0) :
    snrCentre m (listArg center) radius = .ok (c, r) := by
  unfold snrCentre
  rcases hc with rfl | ⟨rfl, hc⟩ <;> rcases hr with rfl | ⟨rfl, hr⟩ <;>
    simp [listArg, *, bind, Except.bind]

theorem snrVisualize_checked (gray : NDArray Rat → NDArray Rat) (img : NDArray Rat) (m : SnrMetric Rat)
    (center : Option (List Int)) (radius : Option Int) (regionType : Option String) (c : List Int) (r : Int) (t : String)
    (hreg : m.region = none) (ht : regionKind t = .cubic ∨ regionKind t = .spherical)
    (hc : Asked center m.params.center c) (hr : Asked radius m.params.radius r)
    (hrt : Asked regionType (m.params.regionType.map some) t) (hc0 : c ≠ []) (hr0 : r ≠ 0)
    (hchk : snrShownChecks img c r = .ok ()) :
    snrVisualize gray img m (listArg center) radius regionType none =
      if img.ndim = 3 ∧ img.lastDim ≠ 3 then snrDraw3d img c (some r) t none
      else if img.ndim = 3 then snrDraw2d (gray img) c (some r) t none
      else if img.ndim = 2 then snrDraw2d img c (some r) t none
      else .error (.valueError "No visualization possible for non 2d or non 3d images.") := by
  obtain ⟨t1, t2, t3⟩ := regionKind_names t ht
  have hcr := snrCentre_asked m center radius c r hc hr hc0 hr0
  have e1 : snrType m regionType = .ok t := by
    unfold snrType
    rcases hrt with rfl | ⟨rfl, h⟩
    · cases m.params.regionType <;> simp [t3]
    · cases hm : m.params.regionType with
      | none => simp [hm] at h
      | some s => simp [hm] at h; simp [h]
  unfold snrVisualize
  rw [e1]
  simp only [bind, Except.bind, snrSignal, hreg]
  rw [if_pos ⟨rfl, t1, t2⟩, hcr]
  simp only [hchk]

/-- **C124, partial** for volumes: without a stored full region, a box or ball that lies inside of the volume is drawn as
asked for, by arguments or by the stored values, with its three planes. -/
theorem C124_volume_partial (gray : NDArray Rat → NDArray Rat) (img : NDArray Rat) (n0 n1 n2 : Nat)
    (hs : img.shape = [n0, n1, n2]) (h3 : n2 ≠ 3) (m : SnrMetric Rat) (hreg : m.region = none)
    (center : Option (List Int)) (radius : Option Int) (regionType : Option String) (x y z r : Nat) (t : String)
    (ht : regionKind t = .cubic ∨ regionKind t = .spherical)
    (hc : Asked center m.params.center [(x : Int), y, z]) (hr : Asked radius m.params.radius r)
    (hrt : Asked regionType (m.params.regionType.map some) t) (hr0 : 0 < r) (hx : r ≤ x ∧ x < n0) (hy : r ≤ y ∧ y < n1)
    (hz : r ≤ z ∧ z < n2) :
    ∃ a b c, snrVisualize gray img m (listArg center) radius regionType none = .ok ⟨[a, b, c], []⟩ ∧
      (a.mark = markFor (regionKind t) y z r ∧ ∀ j k, j < n1 → k < n2 → a.shown.get [k, j] = img.get [x, j, k]) ∧
      (b.mark = markFor (regionKind t) x z r ∧ ∀ i k, i < n0 → k < n2 → b.shown.get [k, i] = img.get [i, y, k]) ∧
      (c.mark = markFor (regionKind t) x y r ∧ ∀ i j, i < n0 → j < n1 → c.shown.get [j, i] = img.get [i, j, z]) := by
  have hl : img.lastDim = n2 := by simp [NDArray.lastDim, hs]
  have hd : img.ndim = 3 := by simp [NDArray.ndim, hs]
  have hchk : snrShownChecks img [(x : Int), y, z] r = .ok () := by
    unfold snrShownChecks
    rw [if_neg (by rw [hl]; exact fun h => h3 h.1), if_neg (by rw [hd]; simp), if_neg (by omega)]
    exact checkBorder_inside r [x, y, z] (by simp; omega)
  rw [snrVisualize_checked gray img m center radius regionType _ r t hreg ht hc hr hrt (by simp) (by omega) hchk,
    if_pos ⟨hd, by rw [hl]; exact h3⟩]
  have ho : snrOverlay img.shape t (none : Option (NDArray Rat)) = .ok (regionKind t, none) := by
    unfold snrOverlay; rcases ht with h | h <;> rw [h]
  have hp : snrPatch (regionKind t) (some (r : Int)) = .ok (fun h v => markFor (regionKind t) h v r) := by
    unfold snrPatch; rcases ht with h | h <;> rw [h]
  obtain ⟨a, ha, -⟩ := viewX_ok img n0 n1 n2 hs x x ⟨hx.2, Or.inl rfl⟩
  obtain ⟨p, q, u, h, h1, h2, h3⟩ := threeViews_ok img n0 n1 n2 hs x y z x y z ⟨hx.2, Or.inl rfl⟩
    ⟨hy.2, Or.inl rfl⟩ ⟨hz.2, Or.inl rfl⟩ (fun h v => markFor (regionKind t) h v r)
  refine ⟨⟨p, some z, some y, markFor (regionKind t) y z r⟩, ⟨q, some z, some x, markFor (regionKind t) x z r⟩,
    ⟨u, some y, some x, markFor (regionKind t) x y r⟩, ?_, ⟨rfl, h1.2⟩, ⟨rfl, h2.2⟩, ⟨rfl, h3.2⟩⟩
  unfold snrDraw3d
  simp only [ho, bind, Except.bind, ha, hp, h]

/-- **C124, partial** for 2D images: one panel with the patch that was asked for. -/
theorem C124_plane_partial (gray : NDArray Rat → NDArray Rat) (img : NDArray Rat) (n0 n1 : Nat)
    (hs : img.shape = [n0, n1]) (h3 : n1 ≠ 3) (m : SnrMetric Rat) (hreg : m.region = none)
    (center : Option (List Int)) (radius : Option Int) (regionType : Option String) (x y r : Nat) (t : String)
    (ht : regionKind t = .cubic ∨ regionKind t = .spherical)
    (hc : Asked center m.params.center [(x : Int), y]) (hr : Asked radius m.params.radius r)
    (hrt : Asked regionType (m.params.regionType.map some) t) (hr0 : 0 < r) (hx : r ≤ x) (hy : r ≤ y) :
    ∃ p, snrVisualize gray img m (listArg center) radius regionType none = .ok ⟨[p], []⟩ ∧
      p.mark = markFor (regionKind t) x y r := by
  have hl : img.lastDim = n1 := by simp [NDArray.lastDim, hs]
  have hd : img.ndim = 2 := by simp [NDArray.ndim, hs]
  have hchk : snrShownChecks img [(x : Int), y] r = .ok () := by
    unfold snrShownChecks
    rw [if_neg (by rw [hl]; exact fun h => h3 h.1), if_neg (by rw [hd]; simp), if_neg (by omega)]
    exact checkBorder_inside r [x, y] (by simp; omega)
  rw [snrVisualize_checked gray img m center radius regionType _ r t hreg ht hc hr hrt (by simp) (by omega) hchk,
    if_neg (by omega), if_neg (by omega), if_pos hd]
  have ho : snrOverlay img.shape t (none : Option (NDArray Rat)) = .ok (regionKind t, none) := by
    unfold snrOverlay; rcases ht with h | h <;> rw [h]
  have hp : snrPatch (regionKind t) (some (r : Int)) = .ok (fun h v => markFor (regionKind t) h v r) := by
    unfold snrPatch; rcases ht with h | h <;> rw [h]
  refine ⟨⟨flipAxis img (img.ndim - 1), none, none, markFor (regionKind t) x y r⟩, ?_, rfl⟩
  unfold snrDraw2d
  simp only [ho, bind, Except.bind, hp, if_pos ht]
  rfl

/-- **C124, refuted**: a signal region with more than one pixel cannot be passed: for every image and metric, ValueError,
although every region of an image has more than one pixel. -/
theorem C124_signal_refuted (gray : NDArray Rat → NDArray Rat) (img : NDArray Rat) (m : SnrMetric Rat)
    (center : List Int) (radius : Option Int) (regionType : Option String) (s : NDArray Rat) (hs : 1 < s.shape.prod) :
    ∃ msg, snrVisualize gray img m center radius regionType (some s) = .error (.valueError msg) := by
  have hm : signalMissing s = .error (.valueError "The truth value of an array with more than one element is ambiguous.") := by
    unfold signalMissing
    rw [if_neg (by omega), if_neg (by omega)]
  have ht : (∃ t, snrType m regionType = .ok t) ∨ ∃ msg, snrType m regionType = .error (.valueError msg) := by
    unfold snrType
    split
    · split
      · exact Or.inr ⟨_, rfl⟩
      · exact Or.inl ⟨_, rfl⟩
    · exact Or.inl ⟨_, rfl⟩
    · exact Or.inl ⟨_, rfl⟩
    · exact Or.inr ⟨_, rfl⟩
  unfold snrVisualize
  rcases ht with ⟨t, h⟩ | ⟨msg, h⟩
  · simp only [h, bind, Except.bind, snrSignal, hm]
    exact ⟨_, rfl⟩
  · simp only [h, bind, Except.bind]
    exact ⟨_, rfl⟩

/-- **C124, refuted**: once a full region was saved, a box or ball that is saved later is not shown: the stored centre and
radius are ignored and TypeError is raised, for every 2D image. -/
theorem C124_after_full_refuted (gray : NDArray Rat → NDArray Rat) (img : NDArray Rat) (n0 n1 : Nat)
    (hs : img.shape = [n0, n1]) (m : SnrMetric Rat) (v w : SnrVars Rat) (s : NDArray Rat)
    (hv : v.regionType = some "full") (hvs : v.signal = some s)
    (hw : w.regionType = some "cubic" ∨ w.regionType = some "spherical") :
    ∃ msg, snrVisualize gray img (snrSave w (snrSave v m)) [] none none none = .error (.typeError msg) := by
  obtain ⟨t, ht, hk⟩ : ∃ t, w.regionType = some t ∧ (t = "cubic" ∨ t = "spherical") := by
    rcases hw with h | h
    · exact ⟨_, h, Or.inl rfl⟩
    · exact ⟨_, h, Or.inr rfl⟩
  have hkind : regionKind t = .cubic ∨ regionKind t = .spherical := by
    rcases hk with rfl | rfl
    · exact Or.inl (by decide +kernel)
    · exact Or.inr (by decide +kernel)
  have hwf : w.regionType ≠ some "full" := by
    rw [ht]; intro h; cases h; revert hkind; decide +kernel
  have e : snrSave w (snrSave v m) =
      ⟨⟨some t, some w.center, some w.radius, some none, some none, some none⟩, some s⟩ := by
    unfold snrSave
    rw [if_neg hwf, if_pos hw, if_pos hv, hvs, ht]
  have hd : img.ndim = 2 := by simp [NDArray.ndim, hs]
  have ho : snrOverlay img.shape t (some s) = .ok (regionKind t, none) := by
    unfold snrOverlay; rcases hkind with h | h <;> rw [h]
  rw [e]
  unfold snrVisualize
  simp only [bind, Except.bind, snrSignal, snrType]
  rw [if_neg (by simp)]
  simp only
  rw [if_neg (by omega), if_neg (by omega), if_pos hd]
  unfold snrDraw2d
  have hp : snrPatch (regionKind t) none = .error (.typeError "unsupported operand type(s)") := by
    unfold snrPatch; rcases hkind with h | h <;> rw [h]
  simp only [ho, bind, Except.bind, if_pos hkind, if_true]
  simp only [hs, List.map_cons, hp]
  exact ⟨_, rfl⟩

/-- **C124, refuted** for 2D images: a full region is drawn unmirrored on top of the mirrored image, so that its columns
are drawn over other columns of the image. -/
theorem C124_mirrored_refuted (gray : NDArray Rat → NDArray Rat) (img s : NDArray Rat) (n0 n1 : Nat)
    (hs : img.shape = [n0, n1]) (hss : s.shape = img.shape) (m : SnrMetric Rat) (hreg : m.region = some s) :
    ∃ p, snrVisualize gray img m [] none (some "full") none = .ok ⟨[p], [s]⟩ ∧
      ∀ i j, i < n0 → j < n1 → p.shown.get [i, j] = img.get [i, n1 - 1 - j] := by
  have hd : img.ndim = 2 := by simp [NDArray.ndim, hs]
  have ho : snrOverlay img.shape "full" (some s) = .ok (.full, some s) := by
    have hk : regionKind "full" = .full := by decide +kernel
    unfold snrOverlay; rw [hk]; simp [hss]
  refine ⟨⟨flipAxis img 1, none, none, none⟩, ?_, ?_⟩
  · unfold snrVisualize
    have hT : snrType m (some "full") = .ok "full" := by
      unfold snrType; cases m.params.regionType <;> simp
    simp only [hT, bind, Except.bind, snrSignal, hreg]
    rw [if_neg (by simp)]
    simp only
    rw [if_neg (by omega), if_neg (by omega), if_pos hd]
    unfold snrDraw2d
    simp only [ho, bind, Except.bind, hd]
    rfl
  · intro i j hi hj
    simp [flipAxis, hs]

/-- **C124.** Without a region type there is nothing to show: ValueError. -/
theorem C124_no_type (gray : NDArray Rat → NDArray Rat) (img : NDArray Rat) (m : SnrMetric Rat) (center : List Int)
    (radius : Option Int) (signal : Option (NDArray Rat)) (h : m.params.regionType = none) :
    ∃ msg, snrVisualize gray img m center radius none signal = .error (.valueError msg) := by
  unfold snrVisualize
  simp only [snrType, h, bind, Except.bind]
  exact ⟨_, rfl⟩

/-! ### C125 -/

/-- **C125, partial**: after a box or ball was saved that the sliders can show, the choice opens with this region. -/
theorem C125_reopened_partial {α : Type} (n0 n1 n2 x y z r : Nat) (v w : SnrVars α) (m : SnrMetric α) (t : String)
    (ht : t = "cubic" ∨ t = "spherical") (hv : w.regionType = some t) (hc : w.center = some [(x : Int), y, z])
    (hr : w.radius = some (r : Int)) (hr0 : 0 < r) (hx : r + 1 ≤ x ∧ x + (r + 1) ≤ n0)
    (hy : r + 1 ≤ y ∧ y + (r + 1) ≤ n1) (hz : r + 1 ≤ z ∧ z + (r + 1) ≤ n2) :
    ∃ s, (snrOpen [n0, n1, n2] v (snrSave w m) {}).2.2 = .ok s ∧ s.regionType = t ∧
      s.panel.shown = ([(x : Int), y, z], (r : Int)) := by
  have hwf : w.regionType ≠ some "full" := by
    rw [hv]; intro h; cases h; revert ht; decide +kernel
  have e : snrSave w m = ⟨⟨some t, some (some [(x : Int), y, z]), some (some (r : Int)), some none, some none, some none⟩,
      m.region⟩ := by
    unfold snrSave
    rw [if_neg hwf, if_pos (by rw [hv]; rcases ht with rfl | rfl <;> simp), hv, hc, hr]
  rw [e]
  have hb := checkBorder_inside r [x, y, z] (by simp; omega)
  have hp : makePanel [n0, n1, n2] (decide ([n0, n1, n2].length = 2)) ([(x : Int), y, z], (r : Int)) =
      some ⟨[n0, n1, n2], false, ⟨1, ((min (min n0 n1) n2 / 2 : Nat) : Int), r⟩,
        [⟨r + 1, n0 - (r + 1), x⟩, ⟨r + 1, n1 - (r + 1), y⟩, ⟨r + 1, n2 - (r + 1), z⟩]⟩ := by
    have hm : r ≤ min (min n0 n1) n2 / 2 := by omega
    have e1 : Slider.make 1 (((min (min n0 n1) n2) / 2 : Nat) : Int) (r : Int) =
        some ⟨1, ((min (min n0 n1) n2 / 2 : Nat) : Int), r⟩ := by
      unfold Slider.make
      rw [if_neg (by omega)]
      congr 2
      omega
    have e2 : ∀ n c : Nat, r + 1 ≤ c → c + (r + 1) ≤ n →
        Slider.make ((r : Int) + 1) ((n : Int) - ((r : Int) + 1)) (c : Int) = some ⟨r + 1, n - (r + 1), c⟩ := by
      intro n c h1 h2
      unfold Slider.make
      rw [if_neg (by omega)]
      congr 2
      omega
    unfold makePanel
    simp only [List.foldl_cons, List.foldl_nil, List.headD_cons, min_self, e1]
    simp only [List.zip_cons_cons, List.zip_nil_right, makeCoords, e2 n0 x hx.1 hx.2, e2 n1 y hy.1 hy.2, e2 n2 z hz.1 hz.2]
    rfl
  show ∃ s, (snrOpenWith [n0, n1, n2] v _ (some [(x : Int), y, z]) (some (r : Int)) t none none none).2.2 = .ok s ∧ _
  unfold snrOpenWith
  simp only
  have ht' : ¬ (t ≠ "full" ∧ t ≠ "original" ∧ t ≠ "cubic" ∧ t ≠ "spherical") := by
    rcases ht with rfl | rfl <;> simp
  rw [if_neg (by simp), if_neg (by omega), if_neg ht']
  have hb' : checkBorder (List.map NumArg.int [(x : Int), y, z]) (NumArg.int r) = .ok () := hb
  rw [hb']
  simp only [hp]
  exact ⟨_, rfl, rfl, rfl⟩

/-- **C125, refuted**: after "full" or "original" was saved, the choice cannot be opened again: TypeError, for every image,
with or without other starting values, as long as no centre is given. -/
theorem C125_refuted {α : Type} (shape : List Nat) (v w : SnrVars α) (m : SnrMetric α) (args : SnrParams)
    (ha : args.center = none) (t : String) (ht : t = "full" ∨ t = "original") (hw : w.regionType = some t) :
    ∃ msg, (snrOpen shape v (snrSave w m) args).2.2 = .error (.typeError msg) := by
  have e : (snrSave w m).params.center = some none := by
    unfold snrSave
    rcases ht with rfl | rfl
    · rw [if_pos hw]
    · rw [if_neg (by rw [hw]; simp), if_neg (by rw [hw]; simp)]
  unfold snrOpen
  simp only [startFrom, e, ha, Option.getD, snrOpenWith]
  exact ⟨_, rfl⟩

/-- **C125, refuted** for the thresholds: the defaults (90, 99 and 2 iterations) are shown only the first time. Opening the
choice stores `None`, so that it starts from 0, 0 and 1 the second time, for every image, even if nothing was saved. -/
theorem C125_thresholds_refuted {α : Type} (shape : List Nat) (v v' : SnrVars α) (m : SnrMetric α) (hm : m.params = {})
    (s s' : SnrSliders) (h : (snrOpen shape v m {}).2.2 = .ok s)
    (h' : (snrOpen shape v' (snrOpen shape v m {}).2.1 {}).2.2 = .ok s') :
    (s.lower, s.upper, s.iterations) = (90, 99, 2) ∧ (s'.lower, s'.upper, s'.iterations) = (0, 0, 1) := by
  have key : ∀ (u : SnrVars α) (k : SnrMetric α) (q : SnrSliders), (snrOpen shape u k {}).2.2 = .ok q →
      (q.lower, q.upper, q.iterations) = (sliderStart 0 100 (k.params.lower.getD (some 90)),
        sliderStart 0 100 (k.params.upper.getD (some 99)), sliderStart 1 10 (k.params.iterations.getD (some 2))) ∧
      ∃ u', u'.regionType = some (k.params.regionType.getD "cubic") ∧ (snrOpen shape u k {}).2.1 = snrSave u' k := by
    intro u k q hq
    have hgen : ∀ (ce : Option (List Int)) (ra : Option Int) (t : String) (i l h : Option Int),
        (snrOpenWith shape u k ce ra t i l h).2.2 = .ok q →
        (q.lower, q.upper, q.iterations) = (sliderStart 0 100 l, sliderStart 0 100 h, sliderStart 1 10 i) ∧
        ∃ u' : SnrVars α, u'.regionType = some t ∧ (snrOpenWith shape u k ce ra t i l h).2.1 = snrSave u' k := by
      intro ce ra t i l h hq
      unfold snrOpenWith at hq ⊢
      rcases ce with _ | c
      · cases hq
      rcases ra with _ | r
      · simp only at hq
        split at hq <;> cases hq
      simp only at hq ⊢
      by_cases h1 : c.length ≠ shape.length
      · rw [if_pos h1] at hq; cases hq
      rw [if_neg h1] at hq ⊢
      by_cases h2 : r ≤ 0
      · rw [if_pos h2] at hq; cases hq
      rw [if_neg h2] at hq ⊢
      by_cases h3 : t ≠ "full" ∧ t ≠ "original" ∧ t ≠ "cubic" ∧ t ≠ "spherical"
      · rw [if_pos h3] at hq; cases hq
      rw [if_neg h3] at hq ⊢
      cases h4 : checkBorder (c.map NumArg.int) (.int r) with
      | error e => rw [h4] at hq; cases hq
      | ok _ =>
        rw [h4] at hq
        simp only at hq ⊢
        cases h5 : makePanel shape (decide (shape.length = 2)) (c, r) with
        | none => rw [h5] at hq; cases hq
        | some p =>
          rw [h5] at hq
          simp only at hq ⊢
          cases hq
          exact ⟨rfl, _, rfl, rfl⟩
    exact hgen _ _ _ _ _ _ hq
  obtain ⟨e1, u', hu, e2⟩ := key v m s h
  obtain ⟨e3, -⟩ := key v' _ s' h'
  rw [hm] at e1 hu
  replace hu : u'.regionType = some "cubic" := hu
  refine ⟨e1.trans (by decide), e3.trans ?_⟩
  have : snrSave u' m = ⟨⟨some "cubic", some u'.center, some u'.radius, some none, some none, some none⟩, m.region⟩ := by
    unfold snrSave
    rw [if_neg (by rw [hu]; decide +kernel), if_pos (Or.inl hu), hu]
  rw [e2, this]
  rfl

/-- **C125, refuted** for the region: opening the choice of one metric with the type "full" stores the region that was
computed last for another metric, whatever it belongs to. -/
theorem C125_other_region_refuted {α : Type} (n0 n1 n2 : Nat) (h0 : 5 ≤ n0) (h1 : 5 ≤ n1) (h2 : 5 ≤ n2) (v : SnrVars α)
    (region : NDArray α) (l u i : Int) :
    (snrOpen [n0, n1, n2] (snrCalculate v region l u i) {} { regionType := some "full" }).2.1.region = some region := by
  have hb := checkBorder_inside 1 [n0 / 2, n1 / 2, n2 / 2] (by simp; omega)
  have hb' : checkBorder (List.map NumArg.int (List.map (fun n => ((n / 2 : Nat) : Int)) [n0, n1, n2])) (NumArg.int 1) =
      .ok () := hb
  show (snrOpenWith [n0, n1, n2] _ _ (some (List.map (fun n => ((n / 2 : Nat) : Int)) [n0, n1, n2])) (some 1) "full" _ _
    _).2.1.region = _
  unfold snrOpenWith
  simp only
  rw [if_neg (by simp), if_neg (by omega), if_neg (by simp), hb']
  simp only
  split <;> simp [snrSave, snrCalculate]

/-! ### C126 -/

/-- **C126, refuted**: outside of notebooks the starting values are ignored; a new metric raises ImportError for every image
and every choice of starting values, although centre, radius and type are given. -/
theorem C126_refuted (gray : NDArray Rat → NDArray Rat) (img : NDArray Rat) (start : SnrParams) :
    snrSetCentersPlain gray img {} start [] none none none = .error .importError := by
  obtain ⟨msg, h⟩ := C124_no_type gray img {} [] none none rfl
  unfold snrSetCentersPlain
  rw [h]

/-- **C126, partial**: a box or ball inside of a volume that is stored, or given in `vis_kwargs`, is shown. -/
theorem C126_shown_partial (gray : NDArray Rat → NDArray Rat) (img : NDArray Rat) (n0 n1 n2 : Nat)
    (hs : img.shape = [n0, n1, n2]) (h3 : n2 ≠ 3) (m : SnrMetric Rat) (hreg : m.region = none) (start : SnrParams)
    (center : Option (List Int)) (radius : Option Int) (regionType : Option String) (x y z r : Nat) (t : String)
    (ht : regionKind t = .cubic ∨ regionKind t = .spherical)
    (hc : Asked center m.params.center [(x : Int), y, z]) (hr : Asked radius m.params.radius r)
    (hrt : Asked regionType (m.params.regionType.map some) t) (hr0 : 0 < r) (hx : r ≤ x ∧ x < n0) (hy : r ≤ y ∧ y < n1)
    (hz : r ≤ z ∧ z < n2) :
    ∃ a b c, snrSetCentersPlain gray img m start (listArg center) radius regionType none = .ok ⟨[a, b, c], []⟩ ∧
      a.mark = markFor (regionKind t) y z r ∧ b.mark = markFor (regionKind t) x z r ∧
      c.mark = markFor (regionKind t) x y r := by
  obtain ⟨a, b, c, h, ha, hb, hc'⟩ := C124_volume_partial gray img n0 n1 n2 hs h3 m hreg center radius regionType x y z r t ht
    hc hr hrt hr0 hx hy hz
  refine ⟨a, b, c, ?_, ha.1, hb.1, hc'.1⟩
  unfold snrSetCentersPlain
  rw [h]

/-! ### Examples -/

/-- A volume. -/
def snrVolume : NDArray Rat := ⟨[9, 9, 9], fun i => (i.getD 0 0 : Nat)⟩

/-- A metric with a stored ball. -/
def snrStoredBall : SnrMetric Rat := { params := { regionType := some "spherical", center := some (some [3, 4, 5]), radius := some (some 2) } }

example : ∃ a b c, snrVisualize id snrVolume snrStoredBall [] none none none = .ok ⟨[a, b, c], []⟩ ∧
    a.mark = some (.circle 4 5 2) := by
  obtain ⟨a, b, c, h, ha, -⟩ := C124_volume_partial id snrVolume 9 9 9 rfl (by decide) snrStoredBall rfl none none none 3 4 5 2
    "spherical" (Or.inr (by decide +kernel)) (Or.inr ⟨rfl, rfl⟩) (Or.inr ⟨rfl, rfl⟩) (Or.inr ⟨rfl, rfl⟩) (by decide)
    (by decide) (by decide) (by decide)
  refine ⟨a, b, c, h, ha.1.trans ?_⟩
  decide +kernel

/-- A 2D image. -/
def snrPlane : NDArray Rat := ⟨[9, 9], fun i => (i.getD 1 0 : Nat)⟩

example : ∃ p, snrVisualize id snrPlane {} [4, 4] (some 2) (some "cubic") none = .ok ⟨[p], []⟩ ∧
    p.mark = some (.rect 4 4 2) := by
  obtain ⟨p, h, hp⟩ := C124_plane_partial id snrPlane 9 9 rfl (by decide) {} rfl (some [4, 4]) (some 2) (some "cubic") 4 4 2
    "cubic" (Or.inl (by decide +kernel)) (Or.inl rfl) (Or.inl rfl) (Or.inl rfl) (by decide) (by decide) (by decide)
  refine ⟨p, h, hp.trans ?_⟩
  decide +kernel

example : ∃ msg, snrVisualize id snrPlane {} [4, 4] (some 2) (some "full") (some snrPlane) = .error (.valueError msg) :=
  C124_signal_refuted _ _ _ _ _ _ _ (by decide)

example : ∃ p, snrVisualize id snrPlane { region := some snrPlane } [] none (some "full") none = .ok ⟨[p], [snrPlane]⟩ ∧
    p.shown.get [0, 0] = 8 ∧ snrPlane.get [0, 0] = 0 := by
  obtain ⟨p, h, hp⟩ := C124_mirrored_refuted id snrPlane snrPlane 9 9 rfl rfl { region := some snrPlane } rfl
  refine ⟨p, h, (hp 0 0 (by decide) (by decide)).trans ?_, ?_⟩ <;> decide +kernel

example : ∃ msg, snrVisualize id snrPlane (snrSave { regionType := some "cubic", center := some [4, 4], radius := some 2 }
    (snrSave { regionType := some "full", signal := some snrPlane } {})) [] none none none = .error (.typeError msg) :=
  C124_after_full_refuted id snrPlane 9 9 rfl _ _ _ snrPlane rfl rfl (Or.inl rfl)

example : ∃ s, (snrOpen [9, 9, 9] ({} : SnrVars Rat)
    (snrSave { regionType := some "spherical", center := some [3, 4, 5], radius := some 2 } snrStoredBall) {}).2.2 = .ok s ∧
    s.panel.shown = ([3, 4, 5], 2) := by
  obtain ⟨s, h, -, h'⟩ := C125_reopened_partial 9 9 9 3 4 5 2 ({} : SnrVars Rat)
    { regionType := some "spherical", center := some [3, 4, 5], radius := some 2 } snrStoredBall "spherical" (Or.inr rfl) rfl
    rfl rfl (by decide) (by decide) (by decide) (by decide)
  exact ⟨s, h, h'⟩

example : ∃ msg, (snrOpen [9, 9, 9] ({} : SnrVars Rat) (snrSave (snrPick {} "original") {}) {}).2.2 = .error (.typeError msg) :=
  C125_refuted _ _ _ _ {} rfl "original" (Or.inr rfl) rfl

example : ∃ s s', (snrOpen [9, 9] ({} : SnrVars Rat) {} {}).2.2 = .ok s ∧
    (snrOpen [9, 9] ({} : SnrVars Rat) (snrOpen [9, 9] ({} : SnrVars Rat) {} {}).2.1 {}).2.2 = .ok s' := by
  refine ⟨_, _, rfl, rfl⟩

example : snrSetCentersPlain id snrVolume {} { regionType := some "cubic", center := some (some [4, 4, 4]), radius := some (some 2) }
    [] none none none = .error .importError := C126_refuted _ _ _

example : ∃ a b c, snrSetCentersPlain id snrVolume {} {} [4, 4, 4] (some 2) (some "cubic") none = .ok ⟨[a, b, c], []⟩ := by
  obtain ⟨a, b, c, h, -⟩ := C126_shown_partial id snrVolume 9 9 9 rfl (by decide) {} rfl {} (some [4, 4, 4]) (some 2)
    (some "cubic") 4 4 4 2 "cubic" (Or.inl (by decide +kernel)) (Or.inl rfl) (Or.inl rfl) (Or.inl rfl) (by decide)
    (by decide) (by decide) (by decide)
  exact ⟨a, b, c, h⟩

example : ∃ msg, snrVisualize id snrPlane {} [4, 4] (some 2) none none = .error (.valueError msg) := C124_no_type _ _ _ _ _ _ rfl

end Viqa
