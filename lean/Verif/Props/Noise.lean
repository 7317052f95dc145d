import Verif.Model.Noise
import Verif.Props.Regions

set_option linter.unusedSimpArgs false
set_option linter.unusedVariables false

/-! Properties C53 – C57, C89, C90, C92: CNR and SNR. -/

namespace Viqa
open Spec

/-! ### Statistics -/

theorem sum_map_affine (l : List Rat) (α β : Rat) :
    (l.map (fun x => α * x + β)).sum = α * l.sum + l.length * β := by
  induction l with
  | nil => simp
  | cons a l ih => simp only [List.map_cons, List.sum_cons, ih, List.length_cons]; push_cast; ring

theorem meanQ_affine (l : List Rat) (α β : Rat) (h : l ≠ []) :
    meanQ (l.map (fun x => α * x + β)) = α * meanQ l + β := by
  have : (l.length : Rat) ≠ 0 := by
    have := List.length_pos_of_ne_nil h
    exact_mod_cast Nat.pos_iff_ne_zero.1 this
  unfold meanQ
  rw [sum_map_affine, List.length_map]
  field_simp

theorem varQ_affine (l : List Rat) (α β : Rat) (h : l ≠ []) :
    varQ (l.map (fun x => α * x + β)) = α ^ 2 * varQ l := by
  unfold varQ
  rw [meanQ_affine l α β h, List.map_map, List.length_map]
  have : ((fun v => (v - (α * meanQ l + β)) ^ 2) ∘ fun x => α * x + β) =
      fun x => α ^ 2 * (x - meanQ l) ^ 2 := by
    funext x; simp only [Function.comp]; ring
  rw [this]
  have e : (l.map (fun x => α ^ 2 * (x - meanQ l) ^ 2)).sum = α ^ 2 * (l.map (fun x => (x - meanQ l) ^ 2)).sum := by
    generalize meanQ l = m
    clear h this
    induction l with
    | nil => simp
    | cons a l ih => simp only [List.map_cons, List.sum_cons, ih]; ring
  rw [e]; ring

theorem varQ_nonneg (l : List Rat) : 0 ≤ varQ l := by
  unfold varQ
  apply div_nonneg
  · apply List.sum_nonneg
    intro x hx
    obtain ⟨y, -, rfl⟩ := List.mem_map.1 hx
    positivity
  · positivity

/-- The variance is zero exactly if all values are equal. -/
theorem varQ_eq_zero_iff (l : List Rat) (h : l ≠ []) : varQ l = 0 ↔ ∃ v, ∀ x ∈ l, x = v := by
  have hn : (l.length : Rat) ≠ 0 := by
    have := List.length_pos_of_ne_nil h
    exact_mod_cast Nat.pos_iff_ne_zero.1 this
  unfold varQ
  rw [div_eq_zero_iff, or_iff_left hn]
  have key : ∀ (m : Rat) (t : List Rat), (t.map (fun v => (v - m) ^ 2)).sum = 0 ↔ ∀ x ∈ t, x = m := by
    intro m t
    induction t with
    | nil => simp
    | cons a t ih =>
      simp only [List.map_cons, List.sum_cons, List.mem_cons, forall_eq_or_imp, ← ih]
      have h1 : 0 ≤ (t.map (fun v => (v - m) ^ 2)).sum := by
        apply List.sum_nonneg
        intro x hx
        obtain ⟨y, -, rfl⟩ := List.mem_map.1 hx
        positivity
      have h2 := sq_nonneg (a - m)
      constructor
      · intro hs
        have e1 : (a - m) ^ 2 = 0 := by linarith
        have := pow_eq_zero_iff (two_ne_zero) |>.1 e1
        exact ⟨by linarith, by linarith⟩
      · rintro ⟨rfl, hs⟩; rw [hs]; simp
  rw [key]
  constructor
  · intro hx; exact ⟨_, hx⟩
  · rintro ⟨v, hv⟩ x hx
    have hs : l.sum = l.length * v := by
      clear hn hx key h
      induction l with
      | nil => simp
      | cons a l ih =>
        rw [List.sum_cons, ih (fun x hx => hv x (by simp [hx])), hv a (by simp), List.length_cons]
        push_cast; ring
    rw [hv x hx]
    unfold meanQ
    rw [hs]; field_simp

theorem stdQ_affine (l : List Rat) (α β : Rat) (h : l ≠ []) :
    stdQ (l.map (fun x => α * x + β)) = |(α : ℝ)| * stdQ l := by
  unfold stdQ
  rw [varQ_affine l α β h]
  push_cast
  rw [Real.sqrt_mul (sq_nonneg _), Real.sqrt_sq_eq_abs]

theorem stdQ_ne_zero (l : List Rat) (h : varQ l ≠ 0) : stdQ l ≠ 0 := by
  unfold stdQ
  have := varQ_nonneg l
  have : (0 : ℝ) < (varQ l : ℝ) := by
    exact_mod_cast lt_of_le_of_ne this (Ne.symm h)
  exact (Real.sqrt_pos.2 this).ne'

theorem cnrOf_affine (s b : List Rat) (α β : Rat) (hα : α ≠ 0) :
    cnrOf (s.map (fun x => α * x + β)) (b.map (fun x => α * x + β)) =
      (cnrOf s b).map (fun v => (if 0 < α then 1 else -1) * v) := by
  unfold cnrOf
  by_cases hb : b = []
  · simp [hb, Except.map]
  · rw [if_neg hb, if_neg (by simpa using hb), varQ_affine b α β hb]
    by_cases hv : varQ b = 0
    · simp [hv, Except.map]
    · rw [if_neg hv, if_neg (by simp [hα, hv])]
      by_cases hs : s = []
      · simp [hs, Except.map]
      · rw [if_neg hs, if_neg (by simpa using hs), meanQ_affine s α β hs, meanQ_affine b α β hb, stdQ_affine b α β hb]
        simp only [Except.map]
        congr 1
        have h1 := stdQ_ne_zero b hv
        have hα' : (α : ℝ) ≠ 0 := by exact_mod_cast hα
        push_cast
        split
        · rename_i hp
          have : (0 : ℝ) < (α : ℝ) := by exact_mod_cast hp
          rw [abs_of_pos this]; field_simp; ring
        · rename_i hp
          have : (α : ℝ) < 0 := by exact_mod_cast lt_of_le_of_ne (not_lt.1 hp) hα
          rw [abs_of_neg this]
          have : -(α : ℝ) ≠ 0 := neg_ne_zero.2 hα'
          field_simp; ring

theorem snrOf_scale (s : List Rat) (α : Rat) (hα : α ≠ 0) :
    snrOf (s.map (fun x => α * x)) = (snrOf s).map (fun v => (if 0 < α then 1 else -1) * v) := by
  have e : (fun x : Rat => α * x) = fun x => α * x + 0 := by funext x; ring
  unfold snrOf
  by_cases hb : s = []
  · simp [hb, Except.map]
  · rw [if_neg hb, if_neg (by simpa using hb), e, varQ_affine s α 0 hb]
    by_cases hv : varQ s = 0
    · simp [hv, Except.map]
    · rw [if_neg hv, if_neg (by simp [hα, hv]), meanQ_affine s α 0 hb, stdQ_affine s α 0 hb]
      simp only [Except.map]
      congr 1
      have h1 := stdQ_ne_zero s hv
      have hα' : (α : ℝ) ≠ 0 := by exact_mod_cast hα
      push_cast
      split
      · rename_i hp
        have : (0 : ℝ) < (α : ℝ) := by exact_mod_cast hp
        rw [abs_of_pos this]; field_simp; ring
      · rename_i hp
        have : (α : ℝ) < 0 := by exact_mod_cast lt_of_le_of_ne (not_lt.1 hp) hα
        rw [abs_of_neg this]
        have : -(α : ℝ) ≠ 0 := neg_ne_zero.2 hα'
        field_simp; ring

/-! ### Regions of transformed images -/

def Region.map {α β} (f : α → β) (r : Region α) : Region β := ⟨r.arr.map f, r.sel⟩

theorem Region.values_map {α β} (f : α → β) (r : Region α) : (r.map f).values = r.values.map f := by
  unfold Region.values Region.map Region.selected
  rw [List.map_map]; rfl

theorem toCubic_map {α β} (f : α → β) (a : NDArray α) (c : List Int) (r : Int) :
    toCubic (a.map f) c r = (toCubic a c r).map (Region.map f) := by
  unfold toCubic
  have h1 : isPlane (a.map f) = isPlane a := rfl
  have h2 : isColour (a.map f) = isColour a := rfl
  have h3 : (a.map f).size = a.size := rfl
  have h4 : (a.map f).ndim = a.ndim := rfl
  have h5 : (a.map f).lastDim = a.lastDim := rfl
  rw [h1, h2, h3, h4, h5]
  split
  · split
    · rfl
    · split <;> rfl
  · split
    · split <;> rfl
    · rfl

theorem toSpherical_map {α β} (f : α → β) (a : NDArray α) (c : List Int) (r : Int) :
    toSpherical (a.map f) c r = (toSpherical a c r).map (Region.map f) := by
  unfold toSpherical
  have h1 : isPlane (a.map f) = isPlane a := rfl
  have h4 : (a.map f).ndim = a.ndim := rfl
  have h5 : (a.map f).lastDim = a.lastDim := rfl
  rw [h1, h4, h5]
  split
  · split <;> rfl
  · split
    · split <;> rfl
    · rfl

theorem selectRegion_map (f : Rat → Rat) (a : NDArray Rat) (kind : RKind) (c : List Int) (r : Int)
    (pre : Option (Region Rat)) :
    selectRegion (a.map f) kind c r (pre.map (Region.map f)) =
      (selectRegion a kind c r pre).map (Region.map f) := by
  unfold selectRegion
  cases kind
  · exact toCubic_map f a c r
  · exact toSpherical_map f a c r
  all_goals cases pre <;> rfl

theorem cnrRegions_map (f : Rat → Rat) (a : NDArray Rat) (s b : List NumArg) (radius : NumArg) (kind : RKind)
    (preS preB : Option (Region Rat)) :
    cnrRegions (a.map f) s b radius kind (preS.map (Region.map f)) (preB.map (Region.map f)) =
      (cnrRegions a s b radius kind preS preB).map (fun p => (p.1.map f, p.2.map f)) := by
  unfold cnrRegions
  have h4 : (a.map f).ndim = a.ndim := rfl
  rw [h4]
  simp only [selectRegion_map]
  cases checkBorder s radius with
  | error e => rfl
  | ok u =>
    cases checkBorder b radius with
    | error e => rfl
    | ok u =>
      cases checkRadius radius with
      | error e => rfl
      | ok r =>
        simp only [bind, Except.bind]
        split
        · rfl
        · cases selectRegion a kind (centreInts s) r preS with
          | error e => rfl
          | ok x =>
            cases selectRegion a kind (centreInts b) r preB with
            | error e => rfl
            | ok y => rfl

/-! ### Thresholds of transformed images -/

theorem percentile_affine (l : List Rat) (q α β : Rat) (hα : 0 < α) (h0 : 0 ≤ q) (h1 : q ≤ 100) (hl : l ≠ []) :
    percentile (l.map (fun x => α * x + β)) q = α * percentile l q + β := by
  have hpos : 0 < l.length := List.length_pos_of_ne_nil hl
  have hn : (1 : Rat) ≤ l.length := by exact_mod_cast hpos
  have hsort : (l.map (fun x => α * x + β)).insertionSort (· ≤ ·) =
      (l.insertionSort (· ≤ ·)).map (fun x => α * x + β) := by
    symm
    apply List.map_insertionSort
    intro a _ b _
    constructor
    · intro h; nlinarith
    · intro h; exact le_of_mul_le_mul_left (by linarith) hα
  unfold percentile
  simp only [hsort, List.length_map]
  generalize hp : q / 100 * ((l.length : Rat) - 1) = pos
  have hp0 : 0 ≤ pos := by rw [← hp]; apply mul_nonneg <;> linarith
  have hp1 : pos ≤ (l.length : Rat) - 1 := by
    rw [← hp]; nlinarith
  have hf0 : 0 ≤ pos.floor := (Rat.le_floor_iff (x := 0) (a := pos)).2 (by simpa using hp0)
  have hfl : ((pos.floor : Int) : Rat) ≤ pos := Rat.le_floor_iff.1 (le_refl _)
  have hk : ((pos.floor.toNat : Nat) : Rat) ≤ pos := by
    have : ((pos.floor.toNat : Nat) : Rat) = ((pos.floor : Int) : Rat) := by
      rw [← Int.cast_natCast, Int.toNat_of_nonneg hf0]
    rw [this]; exact hfl
  generalize pos.floor.toNat = k at hk
  have hkl : k < l.length := by
    have : (k : Rat) ≤ (l.length : Rat) - 1 := le_trans hk hp1
    have : (k : Rat) + 1 ≤ (l.length : Rat) := by linarith
    exact_mod_cast this
  have hlen : (l.insertionSort (· ≤ ·)).length = l.length := List.length_insertionSort _ l
  generalize l.insertionSort (· ≤ ·) = t at hlen
  have key : ∀ j, j < l.length → (t.map (fun x => α * x + β)).getD j 0 = α * t.getD j 0 + β := by
    intro j hj
    rw [List.getD_eq_getElem?_getD, List.getD_eq_getElem?_getD, List.getElem?_map,
      List.getElem?_eq_getElem (by omega)]
    simp
  rw [key k hkl, key (min (k + 1) (l.length - 1)) (by omega)]
  ring

theorem getBinary_affine (a : NDArray Rat) (lower upper α β : Rat) (hα : 0 < α) :
    getBinary (a.map (fun x => α * x + β)) lower upper = getBinary a lower upper := by
  unfold getBinary
  have h3 : (a.map (fun x => α * x + β)).size = a.size := rfl
  have ht : (a.map (fun x => α * x + β)).toList = a.toList.map (fun x => α * x + β) := by
    unfold NDArray.toList; rw [List.map_map]; rfl
  rw [h3, ht]
  split
  · rfl
  · rename_i hq
    simp only [not_not] at hq
    split
    · rfl
    · rename_i hz
      have hl : a.toList ≠ [] := by
        unfold NDArray.toList
        intro h
        have := congrArg List.length h
        rw [List.length_map, length_indices] at this
        exact hz this
      simp only
      rw [percentile_affine _ lower α β hα hq.1 hq.2.1 hl, percentile_affine _ upper α β hα hq.2.2.1 hq.2.2.2 hl]
      congr 1
      unfold NDArray.map
      simp only
      congr 1
      funext i
      rw [decide_eq_decide]
      constructor
      · rintro ⟨h1, h2⟩
        exact ⟨lt_of_mul_lt_mul_left (by linarith) hα.le, le_of_mul_le_mul_left (by linarith) hα⟩
      · rintro ⟨h1, h2⟩
        exact ⟨by nlinarith, by nlinarith⟩

theorem autoFind_affine (a : NDArray Rat) (lower upper α β : Rat) (it : Int) (hα : 0 < α)
    (hc : isColour a = false) :
    autoFind (a.map (fun x => α * x + β)) lower upper it = autoFind a lower upper it := by
  unfold autoFind
  have h2 : isColour (a.map (fun x => α * x + β)) = isColour a := rfl
  simp only [h2, hc, Bool.false_eq_true, if_false]
  rw [getBinary_affine a lower upper α β hα]

theorem autoRegion_map (f : Rat → Rat) (a : NDArray Rat) (l : Largest) (kind : RKind) :
    autoRegion (a.map f) l kind = (autoRegion a l kind).map (Option.map (Region.map f)) := by
  unfold autoRegion
  have h2 : isColour (a.map f) = isColour a := rfl
  rw [h2]
  cases kind <;> first | rfl | (simp only; split <;> rfl)

theorem cnrSelect_map (f : Rat → Rat) (a : NDArray Rat) (args : CnrArgs)
    (h : args.auto = true → autoFind (a.map f) 90 100 args.iterations = autoFind a 90 100 args.iterations ∧
      autoFind (a.map f) 0 90 args.iterations = autoFind a 0 90 args.iterations) :
    cnrSelect (a.map f) args = (cnrSelect a args).map (fun p => (p.1.map f, p.2.map f)) := by
  unfold cnrSelect
  simp only
  split
  · rename_i ha
    rw [(h ha).1, (h ha).2]
    cases autoFind a 90 100 args.iterations with
    | error e => rfl
    | ok s =>
      cases autoFind a 0 90 args.iterations with
      | error e => rfl
      | ok b =>
        simp only [bind, Except.bind, autoRegion_map]
        cases autoRegion a s (regionKind args.regionType) with
        | error e => rfl
        | ok ps =>
          cases autoRegion a b (regionKind args.regionType) with
          | error e => rfl
          | ok pb => exact cnrRegions_map f a _ _ _ _ ps pb
  · exact cnrRegions_map f a _ _ _ _ none none

theorem cnr_of_select (f : Rat → Rat) (g : ℝ → ℝ) (a : NDArray Rat) (args : CnrArgs)
    (h : cnrSelect (a.map f) args = (cnrSelect a args).map (fun p => (p.1.map f, p.2.map f)))
    (hg : ∀ s b, cnrOf (s.map f) (b.map f) = (cnrOf s b).map g) :
    cnr (a.map f) args = (cnr a args).map g := by
  unfold cnr
  rw [h]
  cases cnrSelect a args with
  | error e => rfl
  | ok p =>
    obtain ⟨s, b⟩ := p
    simp only [Except.map, Region.values_map]
    exact hg _ _

/-! ### C54 -/

/-- **C54.** CNR is unchanged by a brightness offset and positive contrast scaling: same value or
same exception, for given centres. -/
theorem C54_affine (a : NDArray Rat) (args : CnrArgs) (α β : Rat) (hα : 0 < α)
    (hauto : args.auto = true → isColour a = false) :
    cnr (a.map (fun x => α * x + β)) args = cnr a args := by
  rw [cnr_of_select _ id a args (cnrSelect_map _ a args (fun h =>
    ⟨autoFind_affine a 90 100 α β _ hα (hauto h), autoFind_affine a 0 90 α β _ hα (hauto h)⟩))]
  · cases cnr a args <;> rfl
  · intro s b
    rw [cnrOf_affine s b α β hα.ne', if_pos hα]
    simp only [one_mul]; rfl

/-- Twice as bright and 3 brighter: the same CNR. -/
example : cnr ((⟨[9, 9], fun i => (i.getD 0 0 : Rat) * i.getD 1 0⟩ : NDArray Rat).map (fun x => 2 * x + 3))
      { signal := [.int 2, .int 2], background := [.int 6, .int 6], radius := .int 1 } =
    cnr ⟨[9, 9], fun i => (i.getD 0 0 : Rat) * i.getD 1 0⟩ { signal := [.int 2, .int 2], background := [.int 6, .int 6], radius := .int 1 } :=
  C54_affine _ _ 2 3 (by norm_num) (fun h => by cases h)

/-- **C54.** Inverting the image changes the sign of CNR, for given centres. -/
theorem C54_invert (a : NDArray Rat) (args : CnrArgs) (m : Rat) (hauto : args.auto = false) :
    cnr (a.map (fun x => m - x)) args = (cnr a args).map (fun v => -v) := by
  have e : (fun x : Rat => m - x) = fun x => (-1) * x + m := by funext x; ring
  rw [e]
  apply cnr_of_select
  · exact cnrSelect_map _ a args (fun h => by rw [hauto] at h; cases h)
  · intro s b
    rw [cnrOf_affine s b (-1) m (by norm_num), if_neg (by norm_num)]
    congr 1; funext v; ring

example : cnr ((⟨[9, 9], fun i => (i.getD 0 0 : Rat) * i.getD 1 0⟩ : NDArray Rat).map (fun x => 255 - x))
      { signal := [.int 2, .int 2], background := [.int 6, .int 6], radius := .int 1 } =
    (cnr ⟨[9, 9], fun i => (i.getD 0 0 : Rat) * i.getD 1 0⟩
      { signal := [.int 2, .int 2], background := [.int 6, .int 6], radius := .int 1 }).map (fun v => -v) :=
  C54_invert _ _ 255 rfl

theorem toCubic_eq {α} (a : NDArray α) (c : List Int) (r : Int) (reg : Region α)
    (h : toCubic a c r = .ok reg) : reg = ⟨a, boxMask a.shape c r⟩ := by
  unfold toCubic at h
  split at h
  · split at h
    · cases h
    · split at h
      · cases h
      · cases h; rfl
  · split at h
    · split at h
      · cases h
      · cases h; rfl
    · cases h

theorem toSpherical_eq {α} (a : NDArray α) (c : List Int) (r : Int) (reg : Region α)
    (h : toSpherical a c r = .ok reg) : reg = ⟨a, fun idx => decide (distSq idx c ≤ r ^ 2)⟩ := by
  unfold toSpherical at h
  split at h
  · split at h
    · cases h
    · cases h; rfl
  · split at h
    · split at h
      · cases h
      · cases h; rfl
    · cases h

theorem map_ok_iff {α β} (f : α → β) (x : Py α) (b : β) :
    x.map f = .ok b ↔ ∃ a, x = .ok a ∧ f a = b := by
  cases x <;> simp [Except.map]

theorem selectRegion_sel (a b : NDArray Rat) (hs : a.shape = b.shape) (kind : RKind) (c : List Int) (r : Int)
    (x : Region Rat) (h : selectRegion a kind c r none = .ok x) :
    selectRegion b kind c r none = .ok ⟨b, x.sel⟩ ∧ x.arr = a := by
  have ea : a = (⟨a.shape, id⟩ : NDArray (List Nat)).map a.get := rfl
  have eb : b = (⟨a.shape, id⟩ : NDArray (List Nat)).map b.get := by rw [hs]; rfl
  cases kind
  · simp only [selectRegion] at h ⊢
    have hx := toCubic_eq _ _ _ _ h
    rw [ea, toCubic_map, map_ok_iff] at h
    obtain ⟨y, hy, -⟩ := h
    rw [eb, toCubic_map, hy, toCubic_eq _ _ _ _ hy, hx]
    exact ⟨rfl, rfl⟩
  · simp only [selectRegion] at h ⊢
    have hx := toSpherical_eq _ _ _ _ h
    rw [ea, toSpherical_map, map_ok_iff] at h
    obtain ⟨y, hy, -⟩ := h
    rw [eb, toSpherical_map, hy, toSpherical_eq _ _ _ _ hy, hx]
    exact ⟨rfl, rfl⟩
  · cases h; exact ⟨rfl, rfl⟩
  · cases h; exact ⟨rfl, rfl⟩
  · cases h

theorem values_congr (a b : NDArray Rat) (hs : a.shape = b.shape) (sel : List Nat → Bool)
    (h : ∀ idx, InShape a.shape idx → sel idx = true → a.get idx = b.get idx) :
    (⟨a, sel⟩ : Region Rat).values = (⟨b, sel⟩ : Region Rat).values := by
  unfold Region.values Region.selected
  simp only
  rw [← hs]
  apply List.map_congr_left
  intro idx hi
  obtain ⟨h1, h2⟩ := List.mem_filter.1 hi
  exact h idx ((inShape_iff_mem _ _).1 h1) h2

/-- For given centres the regions depend on the shape of the image only. -/
theorem cnrSelect_sel (a b : NDArray Rat) (args : CnrArgs) (hauto : args.auto = false)
    (hs : a.shape = b.shape) (s g : Region Rat) (hsel : cnrSelect a args = .ok (s, g)) :
    cnrSelect b args = .ok (⟨b, s.sel⟩, ⟨b, g.sel⟩) ∧ s.arr = a ∧ g.arr = a := by
  unfold cnrSelect cnrRegions at *
  simp only [hauto, Bool.false_eq_true, if_false] at *
  have hn : b.ndim = a.ndim := by unfold NDArray.ndim; rw [hs]
  rw [hn]
  cases h1 : checkBorder args.signal args.radius with
  | error e => rw [h1] at hsel; cases hsel
  | ok u =>
    cases h2 : checkBorder args.background args.radius with
    | error e => rw [h1, h2] at hsel; cases hsel
    | ok u =>
      cases h3 : checkRadius args.radius with
      | error e => rw [h1, h2, h3] at hsel; cases hsel
      | ok r =>
        rw [h1, h2, h3] at hsel
        simp only [bind, Except.bind] at hsel ⊢
        split at hsel
        · cases hsel
        · rename_i hd
          rw [if_neg hd]
          cases h4 : selectRegion a (regionKind args.regionType) (centreInts args.signal) r none with
          | error e => rw [h4] at hsel; cases hsel
          | ok x =>
            cases h5 : selectRegion a (regionKind args.regionType) (centreInts args.background) r none with
            | error e => rw [h4, h5] at hsel; cases hsel
            | ok y =>
              rw [h4, h5] at hsel
              cases hsel
              obtain ⟨e1, e2⟩ := selectRegion_sel a b hs _ _ _ _ h4
              obtain ⟨e3, e4⟩ := selectRegion_sel a b hs _ _ _ _ h5
              rw [e1, e3]
              exact ⟨rfl, e2, e4⟩

/-- **C54.** For given centres CNR depends only on the pixels of the two regions. -/
theorem C54_local (a b : NDArray Rat) (args : CnrArgs) (hauto : args.auto = false)
    (hs : a.shape = b.shape) (s g : Region Rat) (hsel : cnrSelect a args = .ok (s, g))
    (h : ∀ idx, InShape a.shape idx → s.sel idx = true ∨ g.sel idx = true → a.get idx = b.get idx) :
    cnr b args = cnr a args := by
  have key := cnrSelect_sel a b args hauto hs s g hsel
  obtain ⟨k1, k2, k3⟩ := key
  unfold cnr
  rw [k1, hsel]
  obtain ⟨sa, ss⟩ := s
  obtain ⟨ga, gs⟩ := g
  simp only at k2 k3 h ⊢
  rw [k2, k3]
  rw [values_congr a b hs ss (fun idx hi hx => h idx hi (Or.inl hx)),
    values_congr a b hs gs (fun idx hi hx => h idx hi (Or.inr hx))]

/-- **C54.** CNR is zero if the background region is flat or the means of the regions agree. -/
theorem C54_zero (a : NDArray Rat) (args : CnrArgs) (s g : Region Rat)
    (hsel : cnrSelect a args = .ok (s, g)) (hg : g.values ≠ []) (hs : s.values ≠ [])
    (h : (∃ v, ∀ x ∈ g.values, x = v) ∨
      s.values.sum / s.values.length = g.values.sum / g.values.length) :
    cnr a args = .ok 0 := by
  unfold cnr cnrOf
  rw [hsel]
  simp only
  rw [if_neg hg]
  by_cases hv : varQ g.values = 0
  · rw [if_pos hv]
  · rw [if_neg hv, if_neg hs]
    rcases h with h | h
    · exact absurd ((varQ_eq_zero_iff _ hg).2 h) hv
    · have : meanQ s.values - meanQ g.values = 0 := by unfold meanQ; rw [h]; ring
      rw [this]; simp

/-- **C54.** The value: difference of the means divided by the deviation of the background. -/
theorem C54_value (a : NDArray Rat) (args : CnrArgs) (s g : Region Rat)
    (hsel : cnrSelect a args = .ok (s, g)) (hg : ¬ ∃ v, ∀ x ∈ g.values, x = v) (hs : s.values ≠ []) :
    cnr a args = .ok (((s.values.sum / s.values.length - g.values.sum / g.values.length : Rat) : ℝ) /
      Real.sqrt (((g.values.map (fun v => (v - g.values.sum / g.values.length) ^ 2)).sum
        / g.values.length : Rat))) := by
  have hg' : g.values ≠ [] := by
    intro h; exact hg ⟨0, by rw [h]; simp⟩
  unfold cnr cnrOf
  rw [hsel]
  simp only
  rw [if_neg hg', if_neg (fun h => hg ((varQ_eq_zero_iff _ hg').1 h)), if_neg hs]
  rfl

/-- An image whose rows have the values 0 to 5. -/
def sampleRows : NDArray Rat := ⟨[6, 6], fun i => i.getD 0 0⟩

def sampleRowsArgs : CnrArgs := { signal := [.int 4, .int 4], background := [.int 1, .int 1], radius := .int 1 }

theorem sampleRows_select : cnrSelect sampleRows sampleRowsArgs =
    .ok (⟨sampleRows, boxMask [6, 6] [4, 4] 1⟩, ⟨sampleRows, boxMask [6, 6] [1, 1] 1⟩) := rfl

theorem sampleRows_signal : (⟨sampleRows, boxMask [6, 6] [4, 4] 1⟩ : Region Rat).values = [3, 3, 4, 4] := by decide +kernel

theorem sampleRows_background : (⟨sampleRows, boxMask [6, 6] [1, 1] 1⟩ : Region Rat).values = [0, 0, 1, 1] := by decide +kernel

example : cnr sampleRows sampleRowsArgs = .ok 6 := by
  rw [C54_value _ _ _ _ sampleRows_select (by
    rw [sampleRows_background]
    rintro ⟨v, h⟩
    have h0 := h 0 (by simp)
    have h1 := h 1 (by simp)
    rw [← h0] at h1
    norm_num at h1) (by rw [sampleRows_signal]; simp), sampleRows_signal, sampleRows_background]
  norm_num
  rw [show (4 : ℝ) = 2 ^ 2 by norm_num, Real.sqrt_sq (by norm_num)]
  norm_num

/-- Only the two regions count. -/
example : cnr ⟨[6, 6], fun i => if i = [5, 5] then 99 else i.getD 0 0⟩ sampleRowsArgs = cnr sampleRows sampleRowsArgs :=
  C54_local _ _ _ rfl rfl _ _ sampleRows_select (by
    intro idx hi h
    have : idx ≠ [5, 5] := by
      rintro rfl
      revert h
      decide +kernel
    show _ = if idx = [5, 5] then _ else _
    rw [if_neg this]
    rfl)

/-- A flat background. -/
example : cnr ⟨[6, 6], fun i => if i.getD 0 0 < 3 then 0 else i.getD 0 0⟩ sampleRowsArgs = .ok 0 :=
  C54_zero _ _ ⟨⟨[6, 6], fun i => if i.getD 0 0 < 3 then 0 else i.getD 0 0⟩, boxMask [6, 6] [4, 4] 1⟩
    ⟨⟨[6, 6], fun i => if i.getD 0 0 < 3 then 0 else i.getD 0 0⟩, boxMask [6, 6] [1, 1] 1⟩ rfl (by decide +kernel) (by decide +kernel)
    (.inl ⟨0, by decide +kernel⟩)

/-! ### C53 -/

/-- **C53.** The check accepts a centre exactly if all coordinates are integers whose absolute value
is at least the radius; the size of the image plays no role. -/
theorem C53_check_iff (cs : List NumArg) (r : Int) :
    checkBorder cs (.int r) = .ok () ↔ ∀ x ∈ cs, ∃ n : Int, x = .int n ∧ r ≤ |n| := by
  induction cs with
  | nil => simp [checkBorder]
  | cons x cs ih =>
    cases x with
    | int c =>
      simp only [checkBorder, tooClose, List.mem_cons, forall_eq_or_imp]
      by_cases h : |c| - r < 0
      · simp only [h, decide_true]
        constructor
        · intro h'; cases h'
        · rintro ⟨⟨n, hn, hr⟩, -⟩
          cases hn; omega
      · simp only [h, decide_false]
        rw [ih]
        exact ⟨fun h' => ⟨⟨c, rfl, by omega⟩, h'⟩, fun h' => h'.2⟩
    | float q => simp [checkBorder]
    | other => simp [checkBorder]

example : checkBorder [.int (-5), .int 4] (.int 4) = .ok () :=
  (C53_check_iff _ _).2 (by simp)

theorem checkBorder_crossing (cs : List NumArg) (r : Int) (hi : ∀ x ∈ cs, ∃ n : Int, x = .int n)
    (h : ∃ n : Int, NumArg.int n ∈ cs ∧ 0 ≤ n ∧ n < r) :
    ∃ m, checkBorder cs (.int r) = .error (.valueError m) := by
  induction cs with
  | nil => obtain ⟨n, hn, -⟩ := h; cases hn
  | cons x cs ih =>
    obtain ⟨c, rfl⟩ := hi x (by simp)
    simp only [checkBorder, tooClose]
    by_cases hc : |c| - r < 0
    · simp only [hc, decide_true]; exact ⟨_, rfl⟩
    · simp only [hc, decide_false]
      apply ih (fun y hy => hi y (by simp [hy]))
      obtain ⟨n, hn, h0, h1⟩ := h
      rcases List.mem_cons.1 hn with e | e
      · cases e; rw [abs_of_nonneg h0] at hc; omega
      · exact ⟨n, e, h0, h1⟩

/-- **C53 (partial).** A region of CNR or SNR that crosses the lower border raises ValueError.
Missing for the full statement: the upper border, see `C53_refuted`. -/
theorem C53_lower_partial (a : NDArray Rat) (r : Int) (cs : List NumArg)
    (hi : ∀ x ∈ cs, ∃ n : Int, x = .int n) (h : ∃ n : Int, NumArg.int n ∈ cs ∧ 0 ≤ n ∧ n < r) :
    (∀ args : CnrArgs, args.auto = false → args.signal = cs → args.radius = .int r →
      ∃ m, cnr a args = .error (.valueError m)) ∧
    (∀ args : SnrArgs, args.auto = false → args.center = some cs → args.radius = .int r →
      ∃ m, snr a args = .error (.valueError m)) := by
  obtain ⟨m, hm⟩ := checkBorder_crossing cs r hi h
  constructor
  · intro args h1 h2 h3
    refine ⟨m, ?_⟩
    unfold cnr cnrSelect cnrRegions
    simp only [h1, h2, h3, hm, Bool.false_eq_true, if_false]
    rfl
  · intro args h1 h2 h3
    refine ⟨m, ?_⟩
    unfold snr snrChecks
    simp only [h1, h2, h3, hm, Bool.false_eq_true, if_false]
    rfl

example : ∃ m, cnr ⟨[9, 9], fun _ => 0⟩ { signal := [.int 1, .int 4], background := [.int 6, .int 6], radius := .int 2 } = .error (.valueError m) :=
  (C53_lower_partial _ 2 [.int 1, .int 4] (by simp) ⟨1, by simp, by decide, by decide⟩).1 _ rfl rfl rfl

theorem selected_nil_of_far (n0 n1 : Nat) (g : List Nat → Rat) (r : Int) (hr : 0 < r) :
    (⟨⟨[n0, n1], g⟩, boxMask [n0, n1] [(n0 : Int) + r, (n1 : Int) + r] r⟩ : Region Rat).values = [] := by
  unfold Region.values Region.selected
  rw [List.map_eq_nil_iff, List.filter_eq_nil_iff]
  intro idx hi
  have hi' := (inShape_iff_mem _ _).1 hi
  rcases idx with _ | ⟨i, idx⟩
  · simp [InShape] at hi'
  · have hlt : i < n0 := hi'.1
    intro hb
    simp only [boxMask, Bool.and_eq_true] at hb
    have := (inSlice_iff n0 _ _ i (by omega) (by omega) hlt).1 hb.1
    omega

/-- **C53 (refuted).** For every grayscale image and every radius, a region that lies completely
outside of the image, beyond the upper borders, is accepted: neither CNR nor SNR raises, both are not
a number. -/
theorem C53_refuted (n0 n1 : Nat) (g : List Nat → Rat) (r : Int) (hr : 0 < r) :
    cnr ⟨[n0, n1], g⟩ { background := [.int (n0 + r), .int (n1 + r)],
                        signal := [.int (n0 + r), .int (n1 + r)], radius := .int r } = .error .notANumber ∧
    (n1 ≠ 3 → snr ⟨[n0, n1], g⟩ { center := some [.int (n0 + r), .int (n1 + r)], radius := .int r } =
      .error .notANumber) := by
  have hb : checkBorder [.int (n0 + r), .int (n1 + r)] (.int r) = .ok () := by
    rw [C53_check_iff]
    intro x hx
    simp only [List.mem_cons, List.not_mem_nil, or_false] at hx
    rcases hx with rfl | rfl
    · exact ⟨_, rfl, by rw [abs_of_nonneg (by omega)]; omega⟩
    · exact ⟨_, rfl, by rw [abs_of_nonneg (by omega)]; omega⟩
  have hrad : checkRadius (.int r) = .ok r := by simp [checkRadius]; omega
  have hk : regionKind "cubic" = .cubic := by decide
  have hsel : selectRegion ⟨[n0, n1], g⟩ .cubic (centreInts [.int (n0 + r), .int (n1 + r)]) r none =
      .ok ⟨⟨[n0, n1], g⟩, boxMask [n0, n1] [(n0 : Int) + r, (n1 : Int) + r] r⟩ := by
    simp [selectRegion, toCubic, isPlane, isColour, NDArray.ndim, centreInts]
  constructor
  · unfold cnr cnrSelect cnrRegions
    simp only [Bool.false_eq_true, if_false, hb, hrad, hk, bind, Except.bind, hsel]
    simp only [NDArray.ndim, List.length_cons, List.length_nil, ne_eq, not_true_eq_false, or_self, if_false]
    rw [selected_nil_of_far n0 n1 g r hr]
    simp [cnrOf]
  · intro h3
    unfold snr snrChecks snrCompute
    simp only [Bool.false_eq_true, if_false, hb, hrad, hk, bind, Except.bind]
    rw [if_neg (by simp [NDArray.ndim, NDArray.lastDim, h3])]
    simp only [hsel]
    rw [if_neg (by simp [isColour, NDArray.ndim]), selected_nil_of_far n0 n1 g r hr]
    simp [snrOf]

/-- **C53.** A negative coordinate is accepted and means different pixels for different region types:
for a cube it counts from the end of the axis, for a sphere it is a point outside of the image. -/
theorem C53_negative (n0 n1 : Nat) (g : List Nat → Rat) (r c0 c1 : Int) (hr : 0 < r)
    (h0 : c0 + r < 0) (h1 : c1 + r < 0) (h2 : 0 ≤ (n0 : Int) + c0 - r) (h3 : 0 ≤ (n1 : Int) + c1 - r) :
    checkBorder [.int c0, .int c1] (.int r) = .ok () ∧
    (∃ reg, toCubic (⟨[n0, n1], g⟩ : NDArray Rat) [c0, c1] r = .ok reg ∧
      ∀ i j, i < n0 → j < n1 →
        (reg.sel [i, j] = true ↔ InBox [(n0 : Int) + c0, (n1 : Int) + c1] r [i, j])) ∧
    (∃ reg, toSpherical (⟨[n0, n1], g⟩ : NDArray Rat) [c0, c1] r = .ok reg ∧ reg.values = []) := by
  refine ⟨?_, ?_, ?_⟩
  · rw [C53_check_iff]
    intro x hx
    simp only [List.mem_cons, List.not_mem_nil, or_false] at hx
    rcases hx with rfl | rfl
    · exact ⟨_, rfl, by rw [abs_of_neg (by omega)]; omega⟩
    · exact ⟨_, rfl, by rw [abs_of_neg (by omega)]; omega⟩
  · refine ⟨⟨⟨[n0, n1], g⟩, boxMask [n0, n1] [c0, c1] r⟩, by simp [toCubic, isPlane, isColour, NDArray.ndim], ?_⟩
    intro i j hi hj
    simp only [boxMask, Bool.and_true, Bool.and_eq_true, inBox_cons]
    have e : ∀ (n : Nat) (c : Int) (i : Nat), c + r < 0 → 0 ≤ (n : Int) + c - r → i < n →
        (inSlice n (c - r) (c + r) i = true ↔ (n : Int) + c - r ≤ (i : Int) ∧ (i : Int) < (n : Int) + c + r) := by
      intro n c i h h' hlt
      unfold inSlice sliceRange sliceBound
      rw [if_pos (by omega), if_pos (by omega)]
      simp only [decide_eq_true_eq]
      omega
    rw [e n0 c0 i h0 h2 hi, e n1 c1 j h1 h3 hj]
    simp [InBox]
  · refine ⟨⟨⟨[n0, n1], g⟩, fun idx => decide (distSq idx [c0, c1] ≤ r ^ 2)⟩,
      by simp [toSpherical, isPlane, isColour, NDArray.ndim], ?_⟩
    unfold Region.values Region.selected
    rw [List.map_eq_nil_iff, List.filter_eq_nil_iff]
    intro idx hi
    have hi' := (inShape_iff_mem _ _).1 hi
    rcases idx with _ | ⟨i, _ | ⟨j, _ | ⟨k, t⟩⟩⟩ <;> simp [InShape] at hi'
    intro hd
    rw [decide_eq_true_eq] at hd
    simp only [distSq] at hd
    have e1 : r ^ 2 < ((i : Int) - c0) ^ 2 := by
      apply sq_lt_sq' <;> omega
    have e2 := sq_nonneg ((j : Int) - c1)
    linarith

example : checkBorder [.int 3, .int 4] (.int 4) =
    .error (.valueError "Center has to be at least the radius away from the border.") := by decide +kernel
example : checkBorder [.int 3000, .int 4] (.int 3) = .ok () := by decide +kernel

/-! ### C55 -/

theorem rgbToYuv_scale (a : NDArray Rat) (α : Rat) :
    rgbToYuv (a.map (fun x => α * x)) = (rgbToYuv a).map (fun x => α * x) := by
  unfold rgbToYuv NDArray.map
  simp only
  congr 1
  funext idx
  ring

theorem channelValues_map (f : Rat → Rat) (r : Region Rat) (i : Nat) :
    channelValues (r.map f) i = (channelValues r i).map f := by
  unfold channelValues Region.map NDArray.map
  rw [List.map_map]; rfl

theorem snrChannel_scale (r : Region Rat) (i : Nat) (α : Rat) (hα : 0 < α)
    (h0 : channelValues r i ≠ [] → channelValues r 0 ≠ []) :
    snrChannel (r.map (fun x => α * x)) i = snrChannel r i := by
  have e : (fun x : Rat => α * x) = fun x => α * x + 0 := by funext x; ring
  unfold snrChannel
  rw [channelValues_map, channelValues_map, e]
  by_cases hb : channelValues r i = []
  · simp [hb]
  · rw [if_neg hb, if_neg (by simpa using hb), varQ_affine _ α 0 hb]
    by_cases hv : varQ (channelValues r i) = 0
    · simp [hv]
    · rw [if_neg hv, if_neg (by simp [hα.ne', hv]), meanQ_affine _ α 0 (h0 hb), stdQ_affine _ α 0 hb]
      have h1 := stdQ_ne_zero _ hv
      have hα' : (0 : ℝ) < (α : ℝ) := by exact_mod_cast hα
      rw [abs_of_pos hα']
      push_cast
      field_simp
      ring

/-- The channels of a selected region of a colour image have the same pixels. -/
theorem channel_sel (a : NDArray Rat) (kind : RKind) (c : List Int) (r : Int) (pre : Option (Region Rat))
    (reg : Region Rat) (hcol : isColour a = true)
    (h : selectRegion a kind c r pre = .ok reg) (hpre : ∀ x, pre = some x → x = wholeImage a)
    (hz : reg.arr.size ≠ 0) (p : List Nat) (hp : p ∈ indices reg.arr.shape.dropLast) (i : Nat) :
    reg.sel (p ++ [i]) = reg.sel (p ++ [0]) := by
  have hsh : ∃ n0 n1, a.shape = [n0, n1, 3] := by
    rcases shape_of_isPlane a (by simp [isPlane, hcol]) with ⟨n0, n1, hs⟩ | h'
    · simp [isColour, NDArray.ndim, hs] at hcol
    · exact h'
  obtain ⟨n0, n1, hsh⟩ := hsh
  cases kind
  · simp only [selectRegion] at h
    have he := toCubic_eq _ _ _ _ h
    subst he
    simp only at hz
    unfold toCubic at h
    rw [if_pos (by simp [isPlane, hcol])] at h
    split at h
    · cases h
    · rw [if_pos ⟨hcol, hz⟩] at h; cases h
  · simp only [selectRegion] at h
    have he := toSpherical_eq _ _ _ _ h
    subst he
    simp only at hz hp ⊢
    have hc : c.length = 2 := by
      unfold toSpherical at h
      rw [if_pos (by simp [isPlane, hcol])] at h
      split at h
      · cases h
      · rename_i hl; simpa using hl
    rw [hsh] at hp
    have hp' := (inShape_iff_mem _ _).1 hp
    rcases p with _ | ⟨x, _ | ⟨y, _ | ⟨z, t⟩⟩⟩ <;> simp [InShape, List.dropLast] at hp'
    rcases c with _ | ⟨c0, _ | ⟨c1, _ | ⟨c2, t⟩⟩⟩ <;> simp at hc
    simp [distSq]
  all_goals
    cases pre with
    | none => first | (cases h; rfl) | cases h
    | some x => cases hpre x rfl; cases h; rfl

theorem channel_nonempty (a : NDArray Rat) (kind : RKind) (c : List Int) (r : Int) (pre : Option (Region Rat))
    (reg : Region Rat) (hcol : isColour a = true)
    (h : selectRegion a kind c r pre = .ok reg) (hpre : ∀ x, pre = some x → x = wholeImage a)
    (hz : reg.arr.size ≠ 0) (i : Nat) (hne : channelValues reg i ≠ []) : channelValues reg 0 ≠ [] := by
  unfold channelValues at *
  simp only [ne_eq, List.map_eq_nil_iff] at *
  rw [List.filter_congr (fun p hp => channel_sel a kind c r pre reg hcol h hpre hz p hp i)] at hne
  exact hne

theorem snrCompute_scale (a : NDArray Rat) (c : List Int) (r : Int) (kind : RKind) (yuv : Bool)
    (pre : Option (Region Rat)) (α : Rat) (hα : 0 < α)
    (hpre : isColour a = true → pre = none) :
    snrCompute (a.map (fun x => α * x)) c r kind yuv (pre.map (Region.map (fun x => α * x))) =
      snrCompute a c r kind yuv pre := by
  unfold snrCompute
  have h2 : isColour (a.map (fun x => α * x)) = isColour a := rfl
  rw [h2]
  split
  · rename_i hcol
    have hp := hpre hcol
    subst hp
    have e : (if yuv = true then rgbToYuv (a.map (fun x => α * x)) else a.map (fun x => α * x)) =
        (if yuv = true then rgbToYuv a else a).map (fun x => α * x) := by
      split
      · exact rgbToYuv_scale a α
      · rfl
    rw [e]
    have hcol' : isColour (if yuv = true then rgbToYuv a else a) = true := by
      split <;> exact hcol
    generalize (if yuv = true then rgbToYuv a else a) = img at hcol' ⊢
    rw [selectRegion_map _ img kind c r none]
    cases hsel : selectRegion img kind c r none with
    | error e => rfl
    | ok reg =>
      simp only [Except.map]
      have hsz : (Region.map (fun x => α * x) reg).arr.size = reg.arr.size := rfl
      rw [hsz]
      split
      · split
        · rfl
        · rename_i hz
          have key := fun i => snrChannel_scale reg i α hα
            (channel_nonempty img kind c r none reg hcol' hsel (by intro x hx; cases hx) hz i)
          rw [key 0, key 1, key 2]
      · rfl
  · rw [selectRegion_map]
    cases selectRegion a kind c r pre with
    | error e => rfl
    | ok reg =>
      simp only [Except.map]
      rw [Region.values_map, snrOf_scale _ α hα.ne', if_pos hα]
      cases snrOf reg.values <;> simp [Except.map]

/-- **C55.** SNR is unchanged by positive contrast scaling: same value or same exception, for
grayscale and colour images (automatic centres: grayscale images). -/
theorem C55_scale (a : NDArray Rat) (args : SnrArgs) (α : Rat) (hα : 0 < α)
    (hauto : args.auto = true → isColour a = false) :
    snr (a.map (fun x => α * x)) args = snr a args := by
  unfold snr
  simp only
  split
  · rename_i h
    have hc := hauto h
    have e : (fun x : Rat => α * x) = fun x => α * x + 0 := by funext x; ring
    have e1 : autoFind (a.map (fun x => α * x)) args.lower args.upper args.iterations =
        autoFind a args.lower args.upper args.iterations := by
      rw [e]; exact autoFind_affine a _ _ α 0 _ hα hc
    rw [e1]
    cases autoFind a args.lower args.upper args.iterations with
    | error e => rfl
    | ok l =>
      simp only [bind, Except.bind, autoRegion_map]
      cases autoRegion a l (regionKind args.regionType) with
      | error e => rfl
      | ok pre =>
        simp only [Except.map]
        have : snrChecks (a.map (fun x => α * x)) (some (natCentre l.centre)) (.int (l.radius : Nat)) =
            snrChecks a (some (natCentre l.centre)) (.int (l.radius : Nat)) := rfl
        rw [this]
        cases snrChecks a (some (natCentre l.centre)) (.int (l.radius : Nat)) with
        | error e => rfl
        | ok p => exact snrCompute_scale a _ _ _ _ pre α hα (fun h => by rw [hc] at h; cases h)
  · have : snrChecks (a.map (fun x => α * x)) args.center args.radius = snrChecks a args.center args.radius := rfl
    rw [this]
    cases snrChecks a args.center args.radius with
    | error e => rfl
    | ok p => exact snrCompute_scale a _ _ _ _ none α hα (fun _ => rfl)

example : snr ((⟨[9, 9], fun i => (i.getD 0 0 : Rat) * i.getD 1 0⟩ : NDArray Rat).map (fun x => 2 * x))
      { center := some [.int 4, .int 4], radius := .int 1 } =
    snr ⟨[9, 9], fun i => (i.getD 0 0 : Rat) * i.getD 1 0⟩ { center := some [.int 4, .int 4], radius := .int 1 } :=
  C55_scale _ _ 2 (by norm_num) (fun h => by cases h)

/-- The region of a grayscale SNR for a given centre. -/
theorem snr_gray_eq (a : NDArray Rat) (args : SnrArgs) (hauto : args.auto = false)
    (hc : isColour a = false) :
    snr a args = match snrChecks a args.center args.radius with
      | .error e => .error e
      | .ok (c, r) => match selectRegion a (regionKind args.regionType) c r none with
        | .error e => .error e
        | .ok reg => (snrOf reg.values).map .gray := by
  unfold snr snrCompute
  simp only [hauto, Bool.false_eq_true, if_false, hc]
  cases snrChecks a args.center args.radius with
  | error e => rfl
  | ok p =>
    simp only [bind, Except.bind]
    cases selectRegion a (regionKind args.regionType) p.1 p.2 none with
    | error e => rfl
    | ok reg => simp only; cases snrOf reg.values <;> rfl

/-- **C55.** For a given centre the SNR of a grayscale image depends only on the pixels of the
region; it is zero for a flat region and mean divided by deviation otherwise. -/
theorem C55_region (a : NDArray Rat) (args : SnrArgs) (hauto : args.auto = false)
    (hc : isColour a = false) (c : List Int) (r : Int) (reg : Region Rat)
    (h1 : snrChecks a args.center args.radius = .ok (c, r))
    (h2 : selectRegion a (regionKind args.regionType) c r none = .ok reg) (hne : reg.values ≠ []) :
    (∀ b : NDArray Rat, a.shape = b.shape →
      (∀ idx, InShape a.shape idx → reg.sel idx = true → a.get idx = b.get idx) → snr b args = snr a args) ∧
    ((∃ v, ∀ x ∈ reg.values, x = v) → snr a args = .ok (.gray 0)) ∧
    ((¬ ∃ v, ∀ x ∈ reg.values, x = v) → snr a args = .ok (.gray
      ((reg.values.sum / reg.values.length : Rat) /
        Real.sqrt (((reg.values.map (fun v => (v - reg.values.sum / reg.values.length) ^ 2)).sum
        / reg.values.length : Rat))))) := by
  refine ⟨?_, ?_, ?_⟩
  · intro b hs hag
    have hcb : isColour b = false := by
      unfold isColour NDArray.ndim NDArray.lastDim at *; rw [← hs]; exact hc
    rw [snr_gray_eq a args hauto hc, snr_gray_eq b args hauto hcb, h1]
    have hchk : snrChecks b args.center args.radius = .ok (c, r) := by
      rw [← h1]; unfold snrChecks NDArray.ndim NDArray.lastDim; rw [← hs]
    rw [hchk]
    simp only
    obtain ⟨e1, e2⟩ := selectRegion_sel a b hs _ _ _ _ h2
    rw [e1, h2]
    simp only
    obtain ⟨ra, rs⟩ := reg
    simp only at e2 hag
    subst e2
    rw [values_congr _ b hs rs hag]
  · intro hflat
    rw [snr_gray_eq a args hauto hc, h1]
    simp only [h2]
    unfold snrOf
    rw [if_neg hne, if_pos ((varQ_eq_zero_iff _ hne).2 hflat)]
    rfl
  · intro hflat
    rw [snr_gray_eq a args hauto hc, h1]
    simp only [h2]
    unfold snrOf
    rw [if_neg hne, if_neg (fun h => hflat ((varQ_eq_zero_iff _ hne).1 h))]
    rfl

example : snr sampleRows { center := some [.int 1, .int 1], radius := .int 1 } = .ok (.gray 1) := by
  rw [(C55_region sampleRows { center := some [.int 1, .int 1], radius := .int 1 } rfl rfl [1, 1] 1
    ⟨sampleRows, boxMask [6, 6] [1, 1] 1⟩ rfl rfl (by rw [sampleRows_background]; simp)).2.2 (by
    rw [sampleRows_background]
    rintro ⟨v, h⟩
    have h0 := h 0 (by simp)
    have h1 := h 1 (by simp)
    rw [← h0] at h1
    norm_num at h1), sampleRows_background]
  norm_num
  rw [show (4 : ℝ) = 2 ^ 2 by norm_num, Real.sqrt_sq (by norm_num)]
  norm_num

/-! ### C56 -/

theorem has_iff {V} (d : Dict V) (keys : List String) :
    d.has keys = true ↔ ∀ k ∈ keys, d k ≠ none := by
  simp [Dict.has, List.all_eq_true, Option.isSome_iff_ne_none]

theorem update_of_none {V} (d e : Dict V) (k : String) (h : e k = none) : d.update e k = d k := by
  simp [Dict.update, h]

theorem update_of_some {V} (d e : Dict V) (k : String) (h : e k ≠ none) : d.update e k = e k := by
  obtain ⟨v, hv⟩ := Option.ne_none_iff_exists'.1 h
  simp [Dict.update, hv]

/-- **C56 (partial).** If all of the regions are passed they are used; if none is passed the stored
ones are used, and everything else is used as passed. A call fails only if the regions are neither
passed nor stored. Missing: calls that pass some of them, see `C56_refuted`. -/
theorem C56_partial {V} (keys : List String) (params kw : Dict V) :
    ((∀ k ∈ keys, kw k ≠ none) → ∃ p', regionKwargs keys params kw = .ok (p', kw)) ∧
    ((∀ k ∈ keys, params k ≠ none) → (∀ k ∈ keys, kw k = none) → keys ≠ [] →
      ∃ p' kw', regionKwargs keys params kw = .ok (p', kw') ∧
        (∀ k ∈ keys, kw' k = params k) ∧ (∀ k, k ∉ keys → kw' k = kw k)) ∧
    ((¬ ∀ k ∈ keys, kw k ≠ none) → (¬ ∀ k ∈ keys, params k ≠ none) →
      regionKwargs keys params kw = .error (.valueError "No center or radius provided.")) := by
  refine ⟨?_, ?_, ?_⟩
  · intro h
    exact ⟨params.update kw, by unfold regionKwargs; rw [if_pos ((has_iff _ _).2 h)]⟩
  · intro hp hk hne
    have hn : ¬ kw.has keys = true := by
      rw [has_iff]; intro h
      obtain ⟨x, t, rfl⟩ := List.exists_cons_of_ne_nil hne
      exact h x (by simp) (hk x (by simp))
    refine ⟨_, _, by unfold regionKwargs; rw [if_neg hn, if_pos ((has_iff _ _).2 hp)], ?_, ?_⟩
    · intro k hk'; simp [hk']
    · intro k hk'; simp [hk']
  · intro h1 h2
    unfold regionKwargs
    rw [if_neg (by rw [has_iff]; exact h1), if_neg (by rw [has_iff]; exact h2)]

example : regionKwargs ["signal_center", "radius"] (fun _ => (none : Option Nat)) (fun k => if k = "radius" then some 2 else none) =
    .error (.valueError "No center or radius provided.") :=
  (C56_partial _ _ _).2.2 (by decide) (by decide)

/-- **C56 (refuted).** Whatever is stored and passed: if the regions are stored and one of them is
missing in the call, the other ones passed are ignored. -/
theorem C56_refuted {V} (keys : List String) (params kw : Dict V) (k k' : String) (v w : V)
    (hk : k ∈ keys) (hk' : k' ∈ keys) (hp : ∀ k ∈ keys, params k ≠ none)
    (hgiven : kw k = some v) (hstored : params k = some w) (hdiff : v ≠ w) (hmissing : kw k' = none) :
    ∃ p' kw', regionKwargs keys params kw = .ok (p', kw') ∧ kw' k = some w ∧ kw' k ≠ kw k ∧
      p' k = some w := by
  have hn : ¬ kw.has keys = true := by
    rw [has_iff]; intro h; exact h k' hk' hmissing
  refine ⟨_, _, by unfold regionKwargs; rw [if_neg hn, if_pos ((has_iff _ _).2 hp)], ?_, ?_, ?_⟩
  · simp [hk, hstored]
  · simp [hk, hstored, hgiven]; exact fun h => hdiff h.symm
  · rw [update_of_some]
    · simp [hk, hstored]
    · simp [hk, hstored]

/-- **C56.** After every sequence of calls the stored regions are those of the last call that passed
all of them, or the initial ones if there is none. -/
theorem C56_history {V} (keys : List String) (params : Dict V) (calls : List (Dict V)) (k : String)
    (hk : k ∈ keys) :
    ((∀ kw ∈ calls, ∃ k ∈ keys, kw k = none) → paramsAfter keys params calls k = params k) ∧
    (∀ before kw after, calls = before ++ kw :: after → (∀ k ∈ keys, kw k ≠ none) →
      (∀ kw ∈ after, ∃ k ∈ keys, kw k = none) → paramsAfter keys params calls k = kw k) := by
  have first : ∀ (calls : List (Dict V)) (params : Dict V), (∀ kw ∈ calls, ∃ k ∈ keys, kw k = none) →
      paramsAfter keys params calls k = params k := by
    intro calls
    induction calls with
    | nil => intro params _; rfl
    | cons kw t ih =>
      intro params h
      obtain ⟨k0, hk0, h0⟩ := h kw (by simp)
      have hn : ¬ kw.has keys = true := by rw [has_iff]; intro h; exact h k0 hk0 h0
      change paramsAfter keys (match regionKwargs keys params kw with
        | .ok (p', _) => p'
        | .error _ => params) t k = params k
      rw [ih _ (fun kw hkw => h kw (List.mem_cons_of_mem _ hkw))]
      unfold regionKwargs
      rw [if_neg hn]
      by_cases hp : params.has keys = true
      · rw [if_pos hp]
        have := (has_iff _ _).1 hp k hk
        simp only
        rw [update_of_some]
        · simp [hk]
        · simp [hk, this]
      · rw [if_neg hp]
  refine ⟨first calls params, ?_⟩
  intro before kw after hc hkw hafter
  subst hc
  unfold paramsAfter
  rw [List.foldl_append, List.foldl_cons]
  have := first after
  unfold paramsAfter at this
  rw [this _ hafter]
  unfold regionKwargs
  rw [if_pos ((has_iff _ _).2 hkw)]
  exact update_of_some _ _ _ (hkw k hk)

/-- A stored centre and a call that passes another one, without the radius. -/
example : ∃ p' kw', regionKwargs snrKeys
    (fun k => if k = "signal_center" then some 5 else if k = "radius" then some 2 else none)
    (fun k => if k = "signal_center" then some 7 else none) = .ok (p', kw') ∧
    kw' "signal_center" = some 5 := by
  obtain ⟨p', kw', h, h1, _⟩ := C56_refuted snrKeys
    (fun k => if k = "signal_center" then some 5 else if k = "radius" then some 2 else none)
    (fun k => if k = "signal_center" then some 7 else none) "signal_center" "radius" 7 5
    (by decide) (by decide) (by decide) (by decide) (by decide) (by decide) (by decide)
  exact ⟨p', kw', h, h1⟩

/-! ### C57 -/

theorem isColour_shape {α} (a : NDArray α) (h : isColour a = true) : ∃ n0 n1, a.shape = [n0, n1, 3] := by
  rcases shape_of_isPlane a (by simp [isPlane, h]) with ⟨n0, n1, hs⟩ | h'
  · simp [isColour, NDArray.ndim, hs] at h
  · exact h'

theorem toCubic_colour {α} (a : NDArray α) (c : List Int) (r : Int) (h : isColour a = true) (hz : a.size ≠ 0) :
    ∃ e, toCubic a c r = .error e := by
  unfold toCubic
  rw [if_pos (by simp [isPlane, h])]
  split
  · exact ⟨_, rfl⟩
  · rw [if_pos ⟨h, hz⟩]; exact ⟨_, rfl⟩

theorem centreInts_length (c : List NumArg) (radius : NumArg) (h : checkBorder c radius = .ok ()) :
    (centreInts c).length = c.length := by
  induction c with
  | nil => rfl
  | cons x c ih =>
    cases x with
    | int n =>
      simp only [checkBorder] at h
      cases ht : tooClose n radius with
      | error e => rw [ht] at h; cases h
      | ok b =>
        rw [ht] at h
        cases b with
        | true => cases h
        | false => simp only at h; simpa [centreInts] using ih h
    | float q => simp [checkBorder] at h
    | other => simp [checkBorder] at h

theorem cnrRegions_ok (a : NDArray Rat) (signal background : List NumArg) (radius : NumArg) (kind : RKind)
    (pS pB : Option (Region Rat)) (x : Region Rat × Region Rat)
    (h : cnrRegions a signal background radius kind pS pB = .ok x) :
    ∃ r : Int, checkBorder signal radius = .ok () ∧ checkBorder background radius = .ok () ∧
      radius = .int r ∧ 0 < r ∧ a.ndim = signal.length ∧ a.ndim = background.length ∧
      selectRegion a kind (centreInts signal) r pS = .ok x.1 ∧
      selectRegion a kind (centreInts background) r pB = .ok x.2 := by
  unfold cnrRegions at h
  cases h1 : checkBorder signal radius with
  | error e => rw [h1] at h; cases h
  | ok u1 =>
  cases h2 : checkBorder background radius with
  | error e => rw [h1, h2] at h; cases h
  | ok u2 =>
  cases h3 : checkRadius radius with
  | error e => rw [h1, h2, h3] at h; cases h
  | ok r =>
  rw [h1, h2, h3] at h
  simp only [bind, Except.bind] at h
  have hr : radius = .int r ∧ 0 < r := by
    unfold checkRadius at h3
    cases radius with
    | int n =>
      simp only at h3
      split at h3
      · cases h3
      · cases h3; exact ⟨rfl, by omega⟩
    | float q => cases h3
    | other => cases h3
  by_cases hd : a.ndim ≠ signal.length ∨ a.ndim ≠ background.length
  · rw [if_pos hd] at h; cases h
  · rw [if_neg hd] at h
    push Not at hd
    cases h4 : selectRegion a kind (centreInts signal) r pS with
    | error e => rw [h4] at h; cases h
    | ok s =>
    cases h5 : selectRegion a kind (centreInts background) r pB with
    | error e => rw [h4, h5] at h; cases h
    | ok b =>
    rw [h4, h5] at h
    simp only at h
    cases h
    exact ⟨r, rfl, rfl, hr.1, hr.2, hd.1, hd.2, h4, h5⟩

/-- Centres found in an image with `n` axes have `n` coordinates. -/
theorem findLargest_length (b : NDArray Bool) (it : Int) (l : Largest) (h : findLargest b it = .ok l) :
    l.centre.length = b.shape.length ∧ InShape b.shape l.centre ∧ l.cleaned = cleanBinary b it := by
  unfold findLargest at h
  split at h
  · cases h
  · split at h
    · cases h
    · split at h
      · cases hc : centreRadius (cleanBinary b it) with
        | none => rw [hc] at h; cases h
        | some p =>
          rw [hc] at h
          cases h
          unfold centreRadius at hc
          rw [Option.map_eq_some_iff] at hc
          obtain ⟨c, hc1, hc2⟩ := hc
          cases hc2
          have hm := (argmaxBy_spec _ _ _ hc1).1
          rw [cleanBinary_shape] at hm
          have := (inShape_iff_mem _ _).1 hm
          exact ⟨inShape_length _ _ this, this, rfl⟩
      · cases h

theorem getBinary_ok (a : NDArray Rat) (lower upper : Rat) (b : NDArray Bool)
    (h : getBinary a lower upper = .ok b) : b.shape = a.shape ∧ a.size ≠ 0 := by
  unfold getBinary at h
  split at h
  · cases h
  · by_cases hz : a.size = 0
    · rw [if_pos hz] at h; cases h
    · rw [if_neg hz] at h
      cases h
      exact ⟨rfl, hz⟩

theorem autoFind_spec (a : NDArray Rat) (lower upper : Rat) (it : Int) (l : Largest)
    (h : autoFind a lower upper it = .ok l) :
    l.centre.length = (if isColour a then 2 else a.ndim) ∧ a.size ≠ 0 := by
  unfold autoFind at h
  cases hb : getBinary (if isColour a then (toGrayscale ⟨.f64, a⟩).arr else a) lower upper with
  | error e => rw [hb] at h; cases h
  | ok b =>
    rw [hb] at h
    simp only at h
    have hl := (findLargest_length _ _ _ h).1
    obtain ⟨hsh, hz⟩ := getBinary_ok _ _ _ _ hb
    rw [hsh] at hl
    by_cases hc : isColour a = true
    · obtain ⟨n0, n1, hs⟩ := isColour_shape a hc
      simp only [hc, if_true] at hl hz ⊢
      have hg : (toGrayscale ⟨.f64, a⟩).arr.shape = [n0, n1] := by
        simp [toGrayscale, hs]
      rw [hg] at hl
      refine ⟨by simpa using hl, ?_⟩
      unfold NDArray.size at hz ⊢
      rw [hg] at hz
      rw [hs]
      simp at hz ⊢
      exact hz
    · simp only [hc, if_false, Bool.false_eq_true] at hl hz ⊢
      exact ⟨by simpa [NDArray.ndim] using hl, hz⟩

/-- **C57 (refuted).** CNR of a colour image that is not empty fails for every cubic or spherical
region, and whenever centres are to be found automatically. -/
theorem C57_cnr_refuted (a : NDArray Rat) (args : CnrArgs) (hcol : isColour a = true) (hz : a.size ≠ 0)
    (hk : args.auto = true ∨ regionKind args.regionType = .cubic ∨ regionKind args.regionType = .spherical) :
    ∃ e, cnr a args = .error e := by
  obtain ⟨n0, n1, hs⟩ := isColour_shape a hcol
  have hnd : a.ndim = 3 := by simp [NDArray.ndim, hs]
  have key : ∀ x, cnrSelect a args ≠ .ok x := by
    intro x hx
    unfold cnrSelect at hx
    simp only at hx
    by_cases hauto : args.auto = true
    · rw [if_pos hauto] at hx
      cases h1 : autoFind a 90 100 args.iterations with
      | error e => rw [h1] at hx; cases hx
      | ok s =>
      cases h2 : autoFind a 0 90 args.iterations with
      | error e => rw [h1, h2] at hx; cases hx
      | ok b =>
      rw [h1, h2] at hx
      simp only [bind, Except.bind] at hx
      cases h3 : autoRegion a s (regionKind args.regionType) with
      | error e => rw [h3] at hx; cases hx
      | ok pS =>
      cases h4 : autoRegion a b (regionKind args.regionType) with
      | error e => rw [h3, h4] at hx; cases hx
      | ok pB =>
      rw [h3, h4] at hx
      simp only at hx
      obtain ⟨r, _, _, _, _, hl, _⟩ := cnrRegions_ok _ _ _ _ _ _ _ _ hx
      have := (autoFind_spec a _ _ _ s h1).1
      rw [if_pos hcol] at this
      rw [hnd, natCentre, List.length_map, this] at hl
      cases hl
    · rw [if_neg hauto] at hx
      obtain ⟨r, hb, _, _, _, hl, _, hsel, _⟩ := cnrRegions_ok _ _ _ _ _ _ _ _ hx
      have hlen := centreInts_length _ _ hb
      rcases hk with hk | hk | hk
      · exact hauto hk
      · rw [hk] at hsel
        obtain ⟨e, he⟩ := toCubic_colour a (centreInts args.signal) r hcol hz
        simp only [selectRegion] at hsel
        rw [he] at hsel; cases hsel
      · rw [hk] at hsel
        simp only [selectRegion] at hsel
        unfold toSpherical at hsel
        rw [if_pos (by simp [isPlane, hcol]), if_pos (by rw [hlen]; omega)] at hsel
        cases hsel
  unfold cnr
  cases h : cnrSelect a args with
  | error e => exact ⟨e, rfl⟩
  | ok x => exact absurd h (key x)

theorem snrChecks_ok (a : NDArray Rat) (center : Option (List NumArg)) (radius : NumArg) (c : List Int) (r : Int)
    (h : snrChecks a center radius = .ok (c, r)) :
    ∃ cs, center = some cs ∧ checkBorder cs radius = .ok () ∧ radius = .int r ∧ 0 < r ∧
      c = centreInts cs ∧ a.ndim = (if a.lastDim = 3 then cs.length + 1 else cs.length) := by
  unfold snrChecks at h
  cases center with
  | none => cases h
  | some cs =>
  simp only at h
  cases h1 : checkBorder cs radius with
  | error e => rw [h1] at h; cases h
  | ok u =>
  cases h3 : checkRadius radius with
  | error e => rw [h1, h3] at h; cases h
  | ok r' =>
  rw [h1, h3] at h
  simp only [bind, Except.bind] at h
  by_cases hd : a.ndim ≠ (if a.lastDim = 3 then cs.length + 1 else cs.length)
  · rw [if_pos hd] at h; cases h
  · rw [if_neg hd] at h
    cases h
    have hr : radius = .int r ∧ 0 < r := by
      unfold checkRadius at h3
      cases radius with
      | int n =>
        simp only at h3
        split at h3
        · cases h3
        · cases h3; exact ⟨rfl, by omega⟩
      | float q => cases h3
      | other => cases h3
    exact ⟨cs, rfl, h1, hr.1, hr.2, rfl, by simpa using hd⟩

/-- **C57 (refuted).** SNR of a colour image that is not empty fails for every cubic region, for
every region if `yuv=False`, and for the region type `full` if the centre is found automatically. -/
theorem C57_snr_refuted (a : NDArray Rat) (args : SnrArgs) (hcol : isColour a = true) (hz : a.size ≠ 0)
    (hk : regionKind args.regionType = .cubic ∨ args.yuv = false ∨
      (args.auto = true ∧ regionKind args.regionType = .full)) :
    ∃ e, snr a args = .error e := by
  have comp : ∀ c r pre, (regionKind args.regionType = .cubic ∨ args.yuv = false) →
      ∃ e, snrCompute a c r (regionKind args.regionType) args.yuv pre = .error e := by
    intro c r pre h
    unfold snrCompute
    rw [if_pos hcol]
    cases hsel : selectRegion (if args.yuv = true then rgbToYuv a else a) (regionKind args.regionType) c r pre with
    | error e => exact ⟨e, rfl⟩
    | ok reg =>
      simp only
      rcases h with h | h
      · rw [h] at hsel
        simp only [selectRegion] at hsel
        obtain ⟨e, he⟩ := toCubic_colour (if args.yuv = true then rgbToYuv a else a) c r
          (by split <;> exact hcol) (by split <;> exact hz)
        rw [he] at hsel; cases hsel
      · rw [if_neg (by simp [h])]
        split <;> exact ⟨_, rfl⟩
  unfold snr
  simp only
  by_cases hauto : args.auto = true
  · rw [if_pos hauto]
    cases h1 : autoFind a args.lower args.upper args.iterations with
    | error e => exact ⟨e, rfl⟩
    | ok l =>
    simp only [bind, Except.bind]
    cases h2 : autoRegion a l (regionKind args.regionType) with
    | error e => exact ⟨e, rfl⟩
    | ok pre =>
    simp only
    cases h3 : snrChecks a (some (natCentre l.centre)) (.int (l.radius : Nat)) with
    | error e => exact ⟨e, rfl⟩
    | ok p =>
      rcases hk with hk | hk | hk
      · exact comp _ _ _ (Or.inl hk)
      · exact comp _ _ _ (Or.inr hk)
      · rw [hk.2] at h2
        simp only [autoRegion, hcol, if_true] at h2
        cases h2
  · rw [if_neg hauto]
    cases h3 : snrChecks a args.center args.radius with
    | error e => exact ⟨e, rfl⟩
    | ok p =>
      rcases hk with hk | hk | hk
      · exact comp _ _ _ (Or.inl hk)
      · exact comp _ _ _ (Or.inr hk)
      · exact absurd hk.1 hauto

/-- **C57 (partial).** SNR of a colour image that is not empty, with `yuv=True` and a spherical, full
or original region around a given centre of two integers at least the positive radius away from the
origin, returns three scores. Missing: the cases of `C57_cnr_refuted` and `C57_snr_refuted`. -/
theorem C57_partial (a : NDArray Rat) (args : SnrArgs) (hcol : isColour a = true) (hz : a.size ≠ 0)
    (c0 c1 r : Int) (hr : 0 < r) (h0 : r ≤ c0) (h1 : r ≤ c1)
    (hc : args.center = some [.int c0, .int c1]) (hrad : args.radius = .int r)
    (hyuv : args.yuv = true) (hauto : args.auto = false)
    (hk : regionKind args.regionType = .spherical ∨ regionKind args.regionType = .full ∨
      regionKind args.regionType = .original) :
    ∃ y u v, snr a args = .ok (.colour y u v) := by
  have hb : checkBorder [.int c0, .int c1] (.int r) = .ok () := by
    rw [C53_check_iff]
    intro x hx
    simp only [List.mem_cons, List.not_mem_nil, or_false] at hx
    rcases hx with rfl | rfl
    · exact ⟨_, rfl, by rw [abs_of_nonneg (by omega)]; omega⟩
    · exact ⟨_, rfl, by rw [abs_of_nonneg (by omega)]; omega⟩
  obtain ⟨n0, n1, hs⟩ := isColour_shape a hcol
  have hch : snrChecks a args.center args.radius = .ok ([c0, c1], r) := by
    rw [hc, hrad]
    unfold snrChecks
    simp only [hb, bind, Except.bind, checkRadius]
    rw [if_neg (by omega)]
    simp [NDArray.ndim, NDArray.lastDim, hs, centreInts]
  unfold snr
  simp only [hauto, Bool.false_eq_true, if_false, hch, bind, Except.bind]
  unfold snrCompute
  rw [if_pos hcol]
  simp only [hyuv, if_true]
  have hcol' : isColour (rgbToYuv a) = true := hcol
  have hsel : ∃ reg, selectRegion (rgbToYuv a) (regionKind args.regionType) [c0, c1] r none = .ok reg ∧
      reg.arr = rgbToYuv a := by
    rcases hk with h | h | h
    · rw [h]
      simp only [selectRegion, toSpherical]
      rw [if_pos (by simp [isPlane, hcol']), if_neg (by simp)]
      exact ⟨_, rfl, rfl⟩
    · rw [h]; exact ⟨_, rfl, rfl⟩
    · rw [h]; exact ⟨_, rfl, rfl⟩
  obtain ⟨reg, hreg, harr⟩ := hsel
  rw [hreg]
  simp only
  rw [if_neg (by rw [harr]; exact hz)]
  exact ⟨_, _, _, rfl⟩

/-- A colour image of 4 times 5 pixels. -/
def sampleColour : NDArray Rat := ⟨[4, 5, 3], fun idx => (idx.getD 0 0 * 7 + idx.getD 1 0 * 3 + idx.getD 2 0 : Nat)⟩

example : ∃ e, snr sampleColour { center := some [.int 2, .int 2], radius := .int 1 } = .error e :=
  C57_snr_refuted _ _ (by decide) (by decide) (Or.inl (by decide))
example : ∃ y u v, snr sampleColour { center := some [.int 2, .int 2], radius := .int 1, regionType := "sphere" } =
    .ok (.colour y u v) :=
  C57_partial _ _ (by decide) (by decide) 2 2 1 (by decide) (by decide) (by decide) rfl rfl rfl rfl
    (Or.inl (by decide))

end Viqa
