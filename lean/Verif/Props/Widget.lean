import Verif.Model.Widget

set_option linter.unusedSimpArgs false

/-!
Properties C60, C106 and C107: the interactive choice of centres, over all sequences of user events.
-/

namespace Viqa

namespace Spec

/-- Every coordinate has at least the radius (and one more pixel) to both ends of its axis. -/
def ChoiceInside (axes : List Nat) (c : Choice) : Prop :=
  c.1.length = axes.length ∧ ∀ (i : Nat) (n : Nat) (x : Int), axes[i]? = some n → c.1[i]? = some x →
    0 ≤ x - c.2 - 1 ∧ x + c.2 + 1 ≤ (n : Int)

/-- Events in the only panel, with radii that leave room for a centre. -/
def OnlyPanel (m : Nat) (axes : List Nat) : WidgetEvent → Prop
  | .open .. => False
  | .moveRadius m' r => m' = m ∧ ∀ n ∈ axes, 2 * (r + 1) ≤ (n : Int)
  | .moveCoord m' _ _ => m' = m
  | .save m' => m' = m

end Spec

open Spec

/-- The sliders fit to the radius. -/
def WidgetPanel.Good (p : WidgetPanel) : Prop :=
  1 ≤ p.radius.val ∧ p.radius.lo = 1 ∧ p.coords.length = p.axes.length ∧
  ∀ ns ∈ p.axes.zip p.coords, ns.2.lo = p.radius.val + 1 ∧ ns.2.hi = (ns.1 : Int) - (p.radius.val + 1) ∧
    ns.2.lo ≤ ns.2.val ∧ ns.2.val ≤ ns.2.hi

theorem Slider.make_some {lo hi v : Int} {s : Slider} (h : Slider.make lo hi v = some s) :
    s.lo = lo ∧ s.hi = hi ∧ lo ≤ s.val ∧ s.val ≤ hi := by
  unfold Slider.make at h
  split at h
  · cases h
  · cases h; refine ⟨rfl, rfl, ?_, ?_⟩ <;> simp only <;> omega

theorem makeCoords_good (r : Int) (l : List (Nat × Int)) (cs : List Slider) (h : makeCoords r l = some cs) :
    cs.length = l.length ∧ ∀ ns ∈ (l.map Prod.fst).zip cs, ns.2.lo = r + 1 ∧ ns.2.hi = (ns.1 : Int) - (r + 1) ∧
      ns.2.lo ≤ ns.2.val ∧ ns.2.val ≤ ns.2.hi := by
  induction l generalizing cs with
  | nil => cases h; simp
  | cons a l ih =>
    obtain ⟨n, c⟩ := a
    unfold makeCoords at h
    cases h1 : Slider.make (r + 1) ((n : Int) - (r + 1)) c with
    | none => rw [h1] at h; cases h
    | some s =>
      cases h2 : makeCoords r l with
      | none => rw [h1, h2] at h; cases h
      | some t =>
        rw [h1, h2] at h
        cases h
        obtain ⟨i1, i2⟩ := ih t h2
        refine ⟨by simp [i1], ?_⟩
        intro ns hns
        simp only [List.map_cons, List.zip_cons_cons, List.mem_cons] at hns
        rcases hns with rfl | hns
        · obtain ⟨a1, a2, a3, a4⟩ := Slider.make_some h1
          exact ⟨a1, a2, by rw [a1]; exact a3, by rw [a2]; exact a4⟩
        · exact i2 ns hns

theorem makePanel_good (axes : List Nat) (z : Bool) (start : Choice) (hl : start.1.length = axes.length) (p : WidgetPanel)
    (h : makePanel axes z start = some p) : p.Good ∧ p.axes = axes ∧ p.zNone = z := by
  unfold makePanel at h
  split at h
  · cases h
  · rename_i rs hrs
    split at h
    · cases h
    · rename_i cs hcs
      cases h
      obtain ⟨a1, -, a3, -⟩ := Slider.make_some hrs
      obtain ⟨b1, b2⟩ := makeCoords_good _ _ _ hcs
      have hz : (axes.zip start.1).map Prod.fst = axes := by
        rw [List.map_fst_zip (by omega)]
      rw [hz] at b2
      refine ⟨⟨a3, a1, ?_, b2⟩, rfl, rfl⟩
      simp only [b1, List.length_zip]; omega

/-- New bounds for a radius that leaves room: no error, and the sliders fit again. -/
theorem updateBounds_good (r0 r : Int) (l : List (Nat × Slider))
    (hg : ∀ ns ∈ l, ns.2.lo = r0 + 1 ∧ ns.2.hi = (ns.1 : Int) - (r0 + 1) ∧ ns.2.lo ≤ ns.2.val ∧ ns.2.val ≤ ns.2.hi)
    (hr : ∀ ns ∈ l, 2 * (r + 1) ≤ (ns.1 : Int)) :
    (updateBounds r l).2.2 = false ∧ (updateBounds r l).1.length = l.length ∧
    ∀ ns ∈ (l.map Prod.fst).zip (updateBounds r l).1, ns.2.lo = r + 1 ∧ ns.2.hi = (ns.1 : Int) - (r + 1) ∧
      ns.2.lo ≤ ns.2.val ∧ ns.2.val ≤ ns.2.hi := by
  induction l with
  | nil => simp [updateBounds]
  | cons a l ih =>
    obtain ⟨n, s⟩ := a
    obtain ⟨i1, i2, i3⟩ := ih (fun ns h => hg ns (by simp [h])) (fun ns h => hr ns (by simp [h]))
    obtain ⟨g1, g2, g3, g4⟩ := hg (n, s) (by simp)
    have hrn := hr (n, s) (by simp)
    simp only at g1 g2 g3 g4 hrn
    have e1 : s.setMin (r + 1) = some ⟨r + 1, s.hi, max (r + 1) s.val⟩ := by
      unfold Slider.setMin; rw [if_neg (by omega)]
    have e2 : (⟨r + 1, s.hi, max (r + 1) s.val⟩ : Slider).setMax ((n : Int) - (r + 1)) =
        some ⟨r + 1, (n : Int) - (r + 1), min ((n : Int) - (r + 1)) (max (r + 1) s.val)⟩ := by
      unfold Slider.setMax; rw [if_neg (by simp only; omega)]
    unfold updateBounds
    rw [e1]
    simp only
    rw [e2]
    simp only
    refine ⟨i1, by simp [i2], ?_⟩
    intro ns hns
    simp only [List.map_cons, List.zip_cons_cons, List.mem_cons] at hns
    rcases hns with rfl | hns
    · refine ⟨rfl, rfl, ?_, ?_⟩ <;> simp only <;> omega
    · exact i3 ns hns

/-- The situation with one panel: the module variables are the values shown. -/
def InSync (m : Nat) (axes : List Nat) (s : Session) : Prop :=
  ∃ p, s.panels m = some p ∧ p.Good ∧ p.axes = axes ∧ p.zNone = false ∧ s.globals = some p.shown

theorem setAt_same {α} (f : Nat → α) (i : Nat) (a : α) : setAt f i a i = a := by simp [setAt]

theorem inSync_step (m : Nat) (axes : List Nat) (s : Session) (hs : InSync m axes s) (e : WidgetEvent)
    (he : OnlyPanel m axes e) : InSync m axes (s.step e) := by
  obtain ⟨p, h1, h2, h3, h4, h5⟩ := hs
  obtain ⟨g1, g2, g3, g4⟩ := h2
  cases e with
  | «open» => exact he.elim
  | save m' =>
    obtain rfl : m' = m := he
    refine ⟨p, ?_, ⟨g1, g2, g3, g4⟩, h3, h4, ?_⟩ <;> simp [Session.step, h1, h5]
  | moveCoord m' i c =>
    obtain rfl : m' = m := he
    unfold Session.step
    simp only [h1]
    cases hi : p.coords[i]? with
    | none => exact ⟨p, h1, ⟨g1, g2, g3, g4⟩, h3, h4, h5⟩
    | some sl =>
      simp only
      split
      · exact ⟨p, h1, ⟨g1, g2, g3, g4⟩, h3, h4, h5⟩
      · refine ⟨{ p with coords := p.coords.set i (sl.setVal c) }, setAt_same _ _ _, ⟨g1, g2, by simp [g3], ?_⟩, h3, h4, rfl⟩
        intro ns hns
        obtain ⟨k, hk⟩ := List.mem_iff_getElem?.1 hns
        rw [List.getElem?_zip_eq_some] at hk
        obtain ⟨hk1, hk2⟩ := hk
        by_cases hik : i = k
        · subst hik
          have hmem : (ns.1, sl) ∈ p.axes.zip p.coords :=
            List.mem_iff_getElem?.2 ⟨i, List.getElem?_zip_eq_some.2 ⟨hk1, hi⟩⟩
          obtain ⟨c1, c2, c3, c4⟩ := g4 _ hmem
          simp only at c1 c2 c3 c4 hk2
          have hlt : i < p.coords.length := (List.getElem?_eq_some_iff.1 hi).1
          rw [List.getElem?_set_self hlt] at hk2
          rw [← Option.some.inj hk2]
          simp only [Slider.setVal]; omega
        · simp only at hk2
          rw [List.getElem?_set_ne hik] at hk2
          exact g4 ns (List.mem_iff_getElem?.2 ⟨k, List.getElem?_zip_eq_some.2 ⟨hk1, hk2⟩⟩)
  | moveRadius m' r =>
    obtain ⟨rfl, hr⟩ := he
    unfold Session.step
    simp only [h1]
    split
    · exact ⟨p, h1, ⟨g1, g2, g3, g4⟩, h3, h4, h5⟩
    · have hfst : (p.axes.zip p.coords).map Prod.fst = p.axes := List.map_fst_zip (by omega)
      have hfit : ∀ ns ∈ p.axes.zip p.coords, 2 * ((p.radius.setVal r).val + 1) ≤ (ns.1 : Int) := by
        intro ns hns
        obtain ⟨c1, c2, c3, c4⟩ := g4 ns hns
        have := hr ns.1 (by rw [← h3]; exact (List.of_mem_zip (show (ns.1, ns.2) ∈ _ from hns)).1)
        simp only [Slider.setVal, g2]; omega
      obtain ⟨u1, u2, u3⟩ := updateBounds_good _ _ _ g4 hfit
      rw [hfst] at u3
      rw [u1, h4]
      simp only [Bool.or_false, Bool.false_eq_true, if_false]
      refine ⟨_, setAt_same _ _ _, ⟨?_, ?_, ?_, u3⟩, h3, rfl, rfl⟩
      · simp only [Slider.setVal, g2]; omega
      · simp [Slider.setVal, g2]
      · simp only [u2, List.length_zip]; omega

theorem inSync_run (m : Nat) (axes : List Nat) (es : List WidgetEvent) (s : Session) (hs : InSync m axes s)
    (he : ∀ e ∈ es, OnlyPanel m axes e) : InSync m axes (s.run es) := by
  induction es generalizing s with
  | nil => exact hs
  | cons e es ih =>
    exact ih (s.step e) (inSync_step m axes s hs e (he e (by simp))) (fun e h => he e (by simp [h]))

theorem WidgetPanel.Good.inside {p : WidgetPanel} (h : p.Good) : ChoiceInside p.axes p.shown := by
  obtain ⟨g1, g2, g3, g4⟩ := h
  refine ⟨by simp [WidgetPanel.shown, g3], ?_⟩
  intro i n x hn hx
  simp only [WidgetPanel.shown, List.getElem?_map, Option.map_eq_some_iff] at hx
  obtain ⟨sl, hsl, rfl⟩ := hx
  obtain ⟨c1, c2, c3, c4⟩ := g4 (n, sl) (List.mem_iff_getElem?.2 ⟨i, List.getElem?_zip_eq_some.2 ⟨hn, hsl⟩⟩)
  simp only [WidgetPanel.shown] at *
  omega

theorem open_inSync (s : Session) (m : Nat) (axes : List Nat) (start : Choice) (ha : startAccepted axes start = true)
    (p : WidgetPanel) (hp : makePanel axes false start = some p) : InSync m axes (s.step (.open m axes false start)) := by
  have hl : start.1.length = axes.length := by
    simp only [startAccepted, Bool.and_eq_true, decide_eq_true_eq] at ha
    exact ha.1.1
  obtain ⟨g1, g2, g3⟩ := makePanel_good axes false start hl p hp
  refine ⟨p, ?_, g1, g2, g3, ?_⟩ <;> simp [Session.step, ha, hp, setAt_same]

/-- **C60, partial.** With one panel open (CNR, or SNR of a volume) and radii that leave room for a centre: after any sequence
of events, saving stores the values shown. Missing: several panels, larger radii, SNR of 2D images; see below. -/
theorem C60_single_partial (s : Session) (m : Nat) (axes : List Nat) (start : Choice) (ha : startAccepted axes start = true)
    (hp : (makePanel axes false start).isSome) (es : List WidgetEvent) (he : ∀ e ∈ es, OnlyPanel m axes e) :
    ∃ p, (s.run (.open m axes false start :: (es ++ [.save m]))).panels m = some p ∧
      (s.run (.open m axes false start :: (es ++ [.save m]))).stored m = some p.shown := by
  obtain ⟨p0, hp0⟩ := Option.isSome_iff_exists.1 hp
  obtain ⟨p, h1, -, -, -, h5⟩ := inSync_run m axes es _ (open_inSync s m axes start ha p0 hp0) he
  have e : s.run (.open m axes false start :: (es ++ [.save m])) =
      ((s.step (.open m axes false start)).run es).step (.save m) := by
    simp [Session.run, List.foldl_append]
  rw [e]
  generalize (s.step (.open m axes false start)).run es = t at *
  refine ⟨p, ?_, ?_⟩ <;> simp [Session.step, h1, h5, setAt_same]

example : (Session.new.run [.open 0 [20, 20, 20, 20] false ([10, 10, 10, 10], 1), .moveRadius 0 9, .moveCoord 0 2 3,
    .moveRadius 0 4, .moveCoord 0 1 17, .save 0]).stored 0 = some ([10, 15, 10, 10], 4) := by decide +kernel

/-- **C60, refuted** for two panels: saving in the first one stores the values of the second one. -/
theorem C60_two_refuted (s : Session) (m m' : Nat) (hm : m ≠ m') (axes axes' : List Nat) (z z' : Bool) (start start' : Choice)
    (ha : startAccepted axes start = true) (ha' : startAccepted axes' start' = true) (p p' : WidgetPanel)
    (hp : makePanel axes z start = some p) (hp' : makePanel axes' z' start' = some p') :
    (s.run [.open m axes z start, .open m' axes' z' start', .save m]).panels m = some p ∧
    (s.run [.open m axes z start, .open m' axes' z' start', .save m]).stored m = some p'.shown := by
  constructor <;> simp [Session.run, Session.step, ha, ha', hp, hp', setAt, hm]

/-- **C60, refuted** for the largest radius offered by the slider: the radius shown is 5, the one stored is 1. -/
theorem C60_radius_refuted :
    let s := Session.new.run [.open 0 [10, 10, 10, 10] false ([5, 5, 5, 5], 1), .moveCoord 0 0 8, .moveRadius 0 5, .save 0]
    s.stored 0 = some ([8, 5, 5, 5], 1) ∧ (s.panels 0).map WidgetPanel.shown = some ([8, 5, 5, 5], 5) := by decide +kernel

theorem updateBounds_unchanged (r0 r : Int) (l : List (Nat × Slider))
    (hg : ∀ ns ∈ l, ns.2.lo = r0 + 1 ∧ ns.2.hi = (ns.1 : Int) - (r0 + 1) ∧ ns.2.lo ≤ ns.2.val ∧ ns.2.val ≤ ns.2.hi)
    (hr : ∀ ns ∈ l, r + 1 ≤ ns.2.val ∧ ns.2.val ≤ (ns.1 : Int) - (r + 1)) :
    (updateBounds r l).2.1 = false ∧ (updateBounds r l).1.map Slider.val = l.map (fun ns => ns.2.val) := by
  induction l with
  | nil => simp [updateBounds]
  | cons a l ih =>
    obtain ⟨n, s⟩ := a
    obtain ⟨i1, i2⟩ := ih (fun ns h => hg ns (by simp [h])) (fun ns h => hr ns (by simp [h]))
    obtain ⟨g1, g2, g3, g4⟩ := hg (n, s) (by simp)
    obtain ⟨r1, r2⟩ := hr (n, s) (by simp)
    simp only at g1 g2 g3 g4 r1 r2
    have e1 : s.setMin (r + 1) = some ⟨r + 1, s.hi, s.val⟩ := by
      unfold Slider.setMin; rw [if_neg (by omega), Int.max_eq_right r1]
    have e2 : (⟨r + 1, s.hi, s.val⟩ : Slider).setMax ((n : Int) - (r + 1)) = some ⟨r + 1, (n : Int) - (r + 1), s.val⟩ := by
      unfold Slider.setMax; rw [if_neg (by simp only; omega), Int.min_eq_right r2]
    unfold updateBounds
    rw [e1]
    simp only
    rw [e2]
    simp [i1, i2]

/-- **C60, refuted** for SNR of 2D images: every change of the radius that does not move the centre is lost. The radius shown is
the new one, saving stores the old one. -/
theorem C60_snr_2d_refuted (s : Session) (m : Nat) (p : WidgetPanel) (hp : s.panels m = some p) (hg : p.Good) (hz : p.zNone = true)
    (hsync : s.globals = some p.shown) (r : Int) (hr : 1 ≤ r) (hr' : r ≤ p.radius.hi) (hne : r ≠ p.radius.val)
    (hroom : ∀ ns ∈ p.axes.zip p.coords, r + 1 ≤ ns.2.val ∧ ns.2.val ≤ (ns.1 : Int) - (r + 1)) :
    ∃ p', (s.run [.moveRadius m r, .save m]).panels m = some p' ∧ p'.shown = (p.shown.1, r) ∧
      (s.run [.moveRadius m r, .save m]).stored m = some p.shown := by
  obtain ⟨g1, g2, g3, g4⟩ := hg
  have hv : (p.radius.setVal r).val = r := by simp only [Slider.setVal, g2]; omega
  obtain ⟨u1, u2⟩ := updateBounds_unchanged _ _ _ g4 hroom
  have hstep : s.step (.moveRadius m r) = Session.mk s.globals (setAt s.panels m (some (WidgetPanel.mk p.axes p.zNone
      (p.radius.setVal r) (updateBounds r (p.axes.zip p.coords)).1))) s.stored := by
    unfold Session.step
    simp only [hp, hv, if_neg hne, u1, hz, Bool.or_true, if_true, Bool.false_eq_true, if_false]
  refine ⟨{ p with radius := p.radius.setVal r, coords := (updateBounds r (p.axes.zip p.coords)).1 }, ?_, ?_, ?_⟩
  · simp only [Session.run, List.foldl_cons, List.foldl_nil, hstep]
    simp [Session.step, setAt_same]
  · have : (p.axes.zip p.coords).map (fun ns => ns.2.val) = p.coords.map Slider.val := by
      have h := List.map_snd_zip (l₁ := p.axes) (l₂ := p.coords) (by omega)
      calc _ = ((p.axes.zip p.coords).map Prod.snd).map Slider.val := by simp [List.map_map, Function.comp_def]
        _ = _ := by rw [h]
    simp only [WidgetPanel.shown, u2, this, hv]
  · simp only [Session.run, List.foldl_cons, List.foldl_nil, hstep]
    simp [Session.step, setAt_same, hsync]

example : (Session.new.run [.open 0 [20, 20] true ([10, 10], 1), .moveRadius 0 7, .save 0]).stored 0 = some ([10, 10], 1) := by
  decide +kernel

/-! ### C106 -/

/-- **C106, refuted**: opening a panel already stores the starting values, although nothing was saved; even if the panel
cannot be shown. -/
theorem C106_refuted (s : Session) (m : Nat) (axes : List Nat) (z : Bool) (start : Choice) (ha : startAccepted axes start = true) :
    (s.step (.open m axes z start)).stored m = some start := by
  unfold Session.step
  simp only [ha, Bool.true_eq_false, if_false]
  split <;> simp [setAt_same]

/-- **C106, partial**: nothing changes if the values of the metric are all stored before (CNR), or if no start is given (SNR). -/
theorem C106_stored_partial (s : Session) (m : Nat) (axes : List Nat) (z : Bool) (old : Choice) (hold : s.stored m = some old) :
    (∀ args, (s.step (.open m axes z (cnrStart (s.stored m) args))).stored m = some old) ∧
    (∀ d, (s.step (.open m axes z (snrStart (s.stored m) none d))).stored m = some old) := by
  have key : (s.step (.open m axes z old)).stored m = some old := by
    by_cases ha : startAccepted axes old = true
    · exact C106_refuted s m axes z old ha
    · simp only [Bool.not_eq_true] at ha
      simp [Session.step, ha, hold]
  constructor
  · intro args
    rw [show cnrStart (s.stored m) args = old by simp [cnrStart, hold]]; exact key
  · intro d
    rw [show snrStart (s.stored m) none d = old by simp [snrStart, hold]]; exact key

example : (Session.new.step (.open 3 [10, 10] true ([5, 5], 2))).stored 3 = some ([5, 5], 2) := by decide +kernel

/-! ### C107 -/

/-- **C107, partial.** In the situation of `C60_single_partial` everything that is saved lies inside of the image, including a
margin of one pixel. -/
theorem C107_inside_partial (s : Session) (m : Nat) (axes : List Nat) (start : Choice) (ha : startAccepted axes start = true)
    (hp : (makePanel axes false start).isSome) (es : List WidgetEvent) (he : ∀ e ∈ es, OnlyPanel m axes e) :
    ∃ c, (s.run (.open m axes false start :: (es ++ [.save m]))).stored m = some c ∧ ChoiceInside axes c := by
  obtain ⟨p0, hp0⟩ := Option.isSome_iff_exists.1 hp
  obtain ⟨p, h1, h2, h3, -, h5⟩ := inSync_run m axes es _ (open_inSync s m axes start ha p0 hp0) he
  have e : s.run (.open m axes false start :: (es ++ [.save m])) =
      ((s.step (.open m axes false start)).run es).step (.save m) := by
    simp [Session.run, List.foldl_append]
  rw [e]
  generalize (s.step (.open m axes false start)).run es = t at *
  refine ⟨p.shown, by simp [Session.step, h1, h5, setAt_same], ?_⟩
  rw [← h3]; exact h2.inside

/-- **C107, refuted**: with the largest radius of the slider a centre is saved whose region exceeds the image. -/
theorem C107_radius_refuted :
    ∃ c, (Session.new.run [.open 0 [10, 10, 10, 10] false ([5, 5, 5, 5], 1), .moveRadius 0 5, .save 0]).stored 0 = some c ∧
      c = ([6, 5, 5, 5], 5) ∧ ¬ ChoiceInside [10, 10, 10, 10] c := by
  refine ⟨_, by decide +kernel, rfl, ?_⟩
  rintro ⟨-, h⟩
  have := h 0 10 6 rfl rfl
  simp only at this
  omega

/-- **C107, refuted**: starting values outside of the image at its upper end are accepted and stored. -/
theorem C107_start_refuted : ∃ c, (Session.new.step (.open 0 [10, 10] false ([9, 30], 2))).stored 0 = some c ∧
    c = ([9, 30], 2) ∧ ¬ ChoiceInside [10, 10] c := by
  refine ⟨_, by decide +kernel, rfl, ?_⟩
  rintro ⟨-, h⟩
  have := h 0 10 9 rfl rfl
  simp only at this
  omega

example : ∃ c, (Session.new.run (.open 0 [20, 20, 20, 20] false ([10, 10, 10, 10], 1) :: ([.moveRadius 0 9, .moveCoord 0 2 3] ++ [.save 0]))).stored 0 = some c ∧
    ChoiceInside [20, 20, 20, 20] c :=
  C107_inside_partial _ _ _ _ (by decide) (by decide) _ (by
    intro e he
    simp only [List.mem_cons, List.not_mem_nil, or_false] at he
    rcases he with rfl | rfl
    · exact ⟨rfl, by decide⟩
    · rfl)

end Viqa
