import Verif.Model.Ssim
import Verif.Lemmas.Sums
import Verif.Lemmas.Normalize

set_option linter.unusedSimpArgs false

/-! Lemmas about windows, filters and the three terms of the structural similarity. -/

namespace Viqa

/-! ### Offsets and weights -/

theorem mem_offsets1 (r : Nat) (o : Int) : o ∈ offsets1 r ↔ -(r : Int) ≤ o ∧ o ≤ r := by
  unfold offsets1
  rw [List.mem_map]
  constructor
  · rintro ⟨j, hj, rfl⟩
    have := List.mem_range.1 hj
    omega
  · rintro ⟨h1, h2⟩
    exact ⟨(o + r).toNat, List.mem_range.2 (by omega), by omega⟩

theorem mem_offsets (r d : Nat) (o : List Int) :
    o ∈ offsets r d ↔ o.length = d ∧ ∀ e ∈ o, -(r : Int) ≤ e ∧ e ≤ r := by
  induction d generalizing o with
  | zero => cases o <;> simp [offsets]
  | succ d ih =>
    cases o with
    | nil => simp [offsets]
    | cons e o =>
      simp only [offsets, List.mem_flatMap, List.mem_map, List.cons.injEq, exists_eq_right_right,
        mem_offsets1, ih, List.length_cons, Nat.add_right_cancel_iff, List.mem_cons, forall_eq_or_imp]
      constructor
      · rintro ⟨h1, h2, h3⟩; exact ⟨h2, h1, h3⟩
      · rintro ⟨h1, h2, h3⟩; exact ⟨h2, h1, h3⟩

theorem offsetWeight_pos (k : Int → ℝ) (r d : Nat) (hk : ∀ o ∈ offsets1 r, 0 < k o) :
    ∀ o ∈ offsets r d, 0 < offsetWeight k o := by
  intro o ho
  rw [mem_offsets] at ho
  unfold offsetWeight
  apply List.prod_pos
  intro x hx
  obtain ⟨e, he, rfl⟩ := List.mem_map.1 hx
  exact hk e ((mem_offsets1 r e).2 (ho.2 e he))

theorem sum_flatMap {α β : Type} (l : List α) (g : α → List β) (f : β → ℝ) :
    ((l.flatMap g).map f).sum = (l.map (fun a => ((g a).map f).sum)).sum := by
  induction l with
  | nil => simp
  | cons a l ih => simp [List.flatMap_cons, ih]

theorem offsetWeight_sum (k : Int → ℝ) (r d : Nat) (hk : ((offsets1 r).map k).sum = 1) :
    ((offsets r d).map (offsetWeight k)).sum = 1 := by
  induction d with
  | zero => simp [offsets, offsetWeight]
  | succ d ih =>
    rw [offsets, sum_flatMap]
    have : ∀ o, (((offsets r d).map (o :: ·)).map (offsetWeight k)).sum = k o := by
      intro o
      rw [List.map_map]
      have : (offsetWeight k ∘ fun x => o :: x) = fun x => k o * offsetWeight k x := by
        funext x; simp [offsetWeight]
      rw [this, sum_map_mul, ih, mul_one]
    rw [sum_congr _ _ k (fun o _ => this o), hk]

/-- Weights of a filter: positive on its window, sum one. -/
structure Filter.Proper (f : Filter) : Prop where
  pos : ∀ o ∈ offsets1 f.radius, 0 < f.weight o
  sum : ((offsets1 f.radius).map f.weight).sum = 1

theorem gauss_proper (σ : ℝ) (r : Nat) (m : BorderMode) (c : ℝ) : Filter.Proper ⟨r, gaussWeight σ r, m, c⟩ := by
  have hpos : 0 < ((offsets1 r).map (fun j : Int => Real.exp (-((j : ℝ) ^ 2) / (2 * σ ^ 2)))).sum := by
    apply List.sum_pos
    · intro x hx
      obtain ⟨j, -, rfl⟩ := List.mem_map.1 hx
      exact Real.exp_pos _
    · intro h
      have : (0 : Int) ∈ offsets1 r := by rw [mem_offsets1]; omega
      rw [List.map_eq_nil_iff.1 h] at this
      simp at this
  constructor
  · intro o _
    exact div_pos (Real.exp_pos _) hpos
  · show ((offsets1 r).map (fun o => gaussWeight σ r o)).sum = 1
    simp only [gaussWeight]
    have := sum_map_mul' (offsets1 r)
      (((offsets1 r).map (fun j : Int => Real.exp (-((j : ℝ) ^ 2) / (2 * σ ^ 2)))).sum)⁻¹
      (fun j : Int => Real.exp (-((j : ℝ) ^ 2) / (2 * σ ^ 2)))
    simp only [div_eq_mul_inv] at this ⊢
    rw [this, mul_inv_cancel₀]
    simpa only [div_eq_mul_inv] using hpos.ne'

theorem box_proper (r : Nat) (m : BorderMode) (c : ℝ) : Filter.Proper ⟨r, boxWeight r, m, c⟩ := by
  constructor
  · intro o _
    unfold boxWeight; positivity
  · show ((offsets1 r).map (fun o => boxWeight r o)).sum = 1
    simp only [boxWeight]
    rw [sum_const]
    simp only [offsets1, List.length_map, List.length_range]
    field_simp

theorem SsimArgs.filter_proper (a : SsimArgs) (m : BorderMode) : (a.filter m).Proper := by
  unfold SsimArgs.filter
  split
  · exact gauss_proper _ _ _ _
  · exact box_proper _ _ _

/-! ### Border handling -/

theorem extendIndex_inside (m : BorderMode) (n : Nat) (i : Int) (h0 : 0 ≤ i) (h : i < n) :
    extendIndex m n i = some i.toNat := by
  unfold extendIndex; rw [if_pos ⟨h0, h⟩]

/-- Only the mode `constant` uses the fill value; the index lies inside of the axis. -/
theorem extendIndex_spec (m : BorderMode) (n : Nat) (i : Int) (hn : 0 < n) (hm : m ≠ .constant) :
    ∃ j, extendIndex m n i = some j ∧ j < n := by
  unfold extendIndex
  split
  · rename_i h
    exact ⟨_, rfl, by omega⟩
  · rename_i h
    have hn' : (0 : Int) < n := by exact_mod_cast hn
    cases m with
    | constant => exact absurd rfl hm
    | nearest =>
      refine ⟨_, rfl, ?_⟩
      split <;> omega
    | wrap =>
      refine ⟨_, rfl, ?_⟩
      have := Int.emod_lt_of_pos i hn'
      have := Int.emod_nonneg i (show (n : Int) ≠ 0 by omega)
      omega
    | reflect =>
      refine ⟨_, rfl, ?_⟩
      have := Int.emod_lt_of_pos i (show (0 : Int) < 2 * n by omega)
      have := Int.emod_nonneg i (show (2 * n : Int) ≠ 0 by omega)
      split <;> omega
    | mirror =>
      simp only
      split
      · exact ⟨_, rfl, hn⟩
      · refine ⟨_, rfl, ?_⟩
        have := Int.emod_lt_of_pos i (show (0 : Int) < 2 * n - 2 by omega)
        have := Int.emod_nonneg i (show (2 * n - 2 : Int) ≠ 0 by omega)
        split <;> omega

theorem extendIndices_inside (m : BorderMode) (sh idx : List Nat) (h : InShape sh idx) :
    extendIndices m sh (idx.map Int.ofNat) = some idx := by
  induction sh generalizing idx with
  | nil => cases idx <;> simp_all [InShape, extendIndices]
  | cons n sh ih =>
    cases idx with
    | nil => simp [InShape] at h
    | cons i idx =>
      rw [List.map_cons, extendIndices, ih idx h.2, extendIndex_inside m n _ (by simp) (by
        have := h.1; simp; omega)]
      simp

theorem extendIndices_spec (m : BorderMode) (sh : List Nat) (p : List Int) (hl : p.length = sh.length)
    (hn : ∀ n ∈ sh, 0 < n) (hm : m ≠ .constant) :
    ∃ i, extendIndices m sh p = some i ∧ InShape sh i := by
  induction sh generalizing p with
  | nil => exact ⟨[], by simp [extendIndices, InShape]⟩
  | cons n sh ih =>
    cases p with
    | nil => simp at hl
    | cons e p =>
      obtain ⟨j, hj, hjn⟩ := extendIndex_spec m n e (hn n (by simp)) hm
      obtain ⟨js, hjs, hin⟩ := ih p (by simpa using hl) (fun n hn' => hn n (by simp [hn']))
      exact ⟨j :: js, by rw [extendIndices, hj, hjs], hjn, hin⟩

/-! ### Positions kept after cropping -/

theorem mem_cropPositions (pad : Nat) (sh p : List Nat) :
    p ∈ cropPositions pad sh ↔
      p.length = sh.length ∧ ∀ i (h : i < sh.length) (hp : i < p.length), pad ≤ p[i] ∧ p[i] + pad < sh[i] := by
  unfold cropPositions
  rw [List.mem_map]
  simp only [mem_indices]
  induction sh generalizing p with
  | nil =>
    constructor
    · rintro ⟨q, hq, rfl⟩
      cases q <;> simp_all [InShape]
    · rintro ⟨h, -⟩
      exact ⟨[], by simp [InShape], by simpa using (List.length_eq_zero_iff.1 h).symm⟩
  | cons n sh ih =>
    constructor
    · rintro ⟨q, hq, rfl⟩
      cases q with
      | nil => simp [InShape] at hq
      | cons e q =>
        have h2 := (ih (q.map (· + pad))).1 ⟨q, hq.2, rfl⟩
        refine ⟨by simpa using h2.1, ?_⟩
        intro i hi hp
        cases i with
        | zero =>
          have : e < n - pad - pad := hq.1
          simp only [List.map_cons, List.getElem_cons_zero]; omega
        | succ i => exact h2.2 i (by simpa using hi) (by simpa using hp)
    · rintro ⟨h1, h2⟩
      cases p with
      | nil => simp at h1
      | cons e p =>
        obtain ⟨q, hq, rfl⟩ := (ih p).2 ⟨by simpa using h1, fun i hi hp => by
          exact h2 (i + 1) (by simpa using hi) (by simpa using hp)⟩
        have h0 := h2 0 (by simp) (by simp)
        simp only [List.getElem_cons_zero] at h0
        refine ⟨(e - pad) :: q, ⟨by show e - pad < n - pad - pad; omega, hq⟩, ?_⟩
        rw [List.map_cons]; congr 1; omega

theorem length_cropPositions (pad : Nat) (sh : List Nat) :
    (cropPositions pad sh).length = (sh.map (fun n => n - pad - pad)).prod := by
  unfold cropPositions
  rw [List.length_map, length_indices]

theorem shiftIndex_inside (sh p : List Nat) (o : List Int) (r : Nat)
    (hp : p.length = sh.length) (hpr : ∀ i (h : i < sh.length) (hp : i < p.length), r ≤ p[i] ∧ p[i] + r < sh[i])
    (ho : o ∈ offsets r sh.length) :
    ∃ idx, InShape sh idx ∧ shiftIndex p o = idx.map Int.ofNat := by
  rw [mem_offsets] at ho
  induction sh generalizing p o with
  | nil =>
    refine ⟨[], by simp [InShape], ?_⟩
    have : p = [] := List.length_eq_zero_iff.1 hp
    subst this; simp [shiftIndex]
  | cons n sh ih =>
    cases p with
    | nil => simp at hp
    | cons e p =>
      cases o with
      | nil => simp at ho
      | cons f o =>
        obtain ⟨idx, hidx, hs⟩ := ih p o (by simpa using hp)
          (fun i hi hq => hpr (i + 1) (by simpa using hi) (by simpa using hq))
          ⟨by simpa using ho.1, fun e he => ho.2 e (by simp [he])⟩
        have h0 := hpr 0 (by simp) (by simp)
        simp only [List.getElem_cons_zero] at h0
        have hf := ho.2 f (by simp)
        refine ⟨(e + f : Int).toNat :: idx, ⟨by omega, hidx⟩, ?_⟩
        unfold shiftIndex at hs ⊢
        rw [List.zipWith_cons_cons, hs, List.map_cons]
        congr 1
        simp; omega

/-! ### Filters -/

/-- The filter treats products consistently at `p`: no fill value is used, or it equals its square. -/
def Faithful (f : Filter) (sh : List Nat) (p : List Nat) : Prop :=
  f.cval * f.cval = f.cval ∨ ∀ o ∈ offsets f.radius sh.length, ∃ i, extendIndices f.mode sh (shiftIndex p o) = some i

theorem sample_zip (f : Filter) (x y : NDArray ℝ) (hs : x.shape = y.shape) (p : List Nat)
    (h : Faithful f x.shape p) (o : List Int) (ho : o ∈ offsets f.radius x.shape.length) :
    sample f (NDArray.zip (· * ·) x y) (shiftIndex p o) =
      sample f x (shiftIndex p o) * sample f y (shiftIndex p o) := by
  unfold sample
  simp only [NDArray.zip, ← hs]
  cases he : extendIndices f.mode x.shape (shiftIndex p o) with
  | some i => rfl
  | none =>
    rcases h with h | h
    · exact h.symm
    · obtain ⟨i, hi⟩ := h o ho
      rw [he] at hi; cases hi

theorem apply_zip (f : Filter) (x y : NDArray ℝ) (hs : x.shape = y.shape) (p : List Nat)
    (h : Faithful f x.shape p) :
    f.apply (NDArray.zip (· * ·) x y) p =
      ((offsets f.radius x.ndim).map (fun o => offsetWeight f.weight o *
        (sample f x (shiftIndex p o) * sample f y (shiftIndex p o)))).sum := by
  unfold Filter.apply
  apply sum_congr
  intro o ho
  rw [sample_zip f x y hs p h o ho]

theorem faithful_of_mode (f : Filter) (sh p : List Nat) (hp : p.length = sh.length) (hn : ∀ n ∈ sh, 0 < n)
    (hm : f.mode ≠ .constant) : Faithful f sh p := by
  right
  intro o ho
  have hl := ((mem_offsets _ _ _).1 ho).1
  obtain ⟨i, hi, -⟩ := extendIndices_spec f.mode sh (shiftIndex p o)
    (by unfold shiftIndex; rw [List.length_zipWith]; omega) hn hm
  exact ⟨i, hi⟩

theorem faithful_of_pad (f : Filter) (sh p : List Nat) (pad : Nat) (hpad : f.radius ≤ pad)
    (hp : p ∈ cropPositions pad sh) : Faithful f sh p := by
  right
  intro o ho
  rw [mem_cropPositions] at hp
  obtain ⟨idx, h1, h2⟩ := shiftIndex_inside sh p o f.radius hp.1 (fun i hi hq => by
    have := hp.2 i hi hq; omega) ho
  exact ⟨idx, by rw [h2, extendIndices_inside f.mode sh idx h1]⟩

/-- Variance and covariance inequalities for the windowed statistics. -/
theorem window_stats (f : Filter) (hf : f.Proper) (x y : NDArray ℝ) (hs : x.shape = y.shape) (p : List Nat)
    (h : Faithful f x.shape p) :
    0 ≤ f.apply (NDArray.zip (· * ·) x x) p - f.apply x p * f.apply x p ∧
    |f.apply (NDArray.zip (· * ·) x y) p - f.apply x p * f.apply y p| ≤
      Real.sqrt (f.apply (NDArray.zip (· * ·) x x) p - f.apply x p * f.apply x p) *
      Real.sqrt (f.apply (NDArray.zip (· * ·) y y) p - f.apply y p * f.apply y p) := by
  have hdim : y.ndim = x.ndim := by unfold NDArray.ndim; rw [hs]
  have hwpos := offsetWeight_pos f.weight f.radius x.ndim hf.pos
  have hwsum := offsetWeight_sum f.weight f.radius x.ndim hf.sum
  have hxx := apply_zip f x x rfl p h
  have hyy := apply_zip f y y rfl p (by rw [← hs]; exact h)
  have hxy := apply_zip f x y hs p h
  rw [hdim] at hyy
  have hX : f.apply x p = ((offsets f.radius x.ndim).map (fun o => offsetWeight f.weight o *
    sample f x (shiftIndex p o))).sum := rfl
  have hY : f.apply y p = ((offsets f.radius x.ndim).map (fun o => offsetWeight f.weight o *
    sample f y (shiftIndex p o))).sum := by rw [← hdim]; rfl
  have e1 := cov_eq (offsets f.radius x.ndim) (offsetWeight f.weight) (fun o => sample f x (shiftIndex p o))
    (fun o => sample f x (shiftIndex p o)) hwsum _ _ hX hX
  have e2 := cov_eq (offsets f.radius x.ndim) (offsetWeight f.weight) (fun o => sample f y (shiftIndex p o))
    (fun o => sample f y (shiftIndex p o)) hwsum _ _ hY hY
  have e3 := cov_eq (offsets f.radius x.ndim) (offsetWeight f.weight) (fun o => sample f x (shiftIndex p o))
    (fun o => sample f y (shiftIndex p o)) hwsum _ _ hX hY
  rw [hxx, hyy, hxy, e1, e2, e3]
  constructor
  · apply sum_nonneg
    intro o ho
    exact mul_nonneg (hwpos o ho).le (mul_self_nonneg _)
  · have := cauchy_sqrt (offsets f.radius x.ndim) (offsetWeight f.weight)
      (fun o => sample f x (shiftIndex p o) - f.apply x p)
      (fun o => sample f y (shiftIndex p o) - f.apply y p) (fun o ho => (hwpos o ho).le)
    simpa only [sq] using this

/-- Filtering a constant image gives the constant. -/
theorem apply_const (f : Filter) (hf : f.Proper) (sh : List Nat) (c : ℝ) (p : List Nat)
    (h : ∀ o ∈ offsets f.radius sh.length, ∃ i, extendIndices f.mode sh (shiftIndex p o) = some i) :
    f.apply ⟨sh, fun _ => c⟩ p = c := by
  unfold Filter.apply
  have : ∀ o ∈ offsets f.radius sh.length,
      offsetWeight f.weight o * sample f ⟨sh, fun _ => c⟩ (shiftIndex p o) = offsetWeight f.weight o * c := by
    intro o ho
    obtain ⟨i, hi⟩ := h o ho
    unfold sample
    simp only [hi]
  have hn : (⟨sh, fun _ => c⟩ : NDArray ℝ).ndim = sh.length := rfl
  rw [hn, sum_congr _ _ _ this, sum_map_mul', offsetWeight_sum _ _ _ hf.sum, one_mul]

/-! ### Lists of results -/

theorem allOk_iff {α} (l : List (Py α)) (as : List α) : allOk l = .ok as ↔ l = as.map .ok := by
  induction l generalizing as with
  | nil => cases as <;> simp [allOk]
  | cons a l ih =>
    cases a with
    | error e => cases as <;> simp [allOk]
    | ok a =>
      unfold allOk
      cases h : allOk l with
      | error e =>
        cases as with
        | nil => simp
        | cons b as =>
          simp only [List.map_cons, List.cons.injEq, Except.ok.injEq, reduceCtorEq, false_iff]
          rintro ⟨-, h2⟩
          rw [(ih as).2 h2] at h; cases h
      | ok bs =>
        have hl := (ih bs).1 h
        cases as with
        | nil => simp
        | cons b as =>
          simp only [List.map_cons, List.cons.injEq, Except.ok.injEq]
          constructor
          · rintro ⟨rfl, rfl⟩; exact ⟨rfl, hl⟩
          · rintro ⟨rfl, h2⟩
            rw [hl] at h2
            exact ⟨rfl, List.map_injective_iff.2 (fun a b hab => by cases hab; rfl) h2⟩

theorem meanList_const (l : List ℝ) (c : ℝ) (h0 : l ≠ []) (h : ∀ a ∈ l, a = c) : meanList l = .ok c := by
  unfold meanList
  have hl : l.length ≠ 0 := by simpa using h0
  rw [if_neg hl]
  have : l = List.replicate l.length c := List.eq_replicate_of_mem h
  rw [this, List.sum_replicate, List.length_replicate]
  have : (l.length : ℝ) ≠ 0 := by exact_mod_cast hl
  congr 1
  rw [nsmul_eq_mul]; field_simp

theorem meanList_bounds (l : List ℝ) (lo hi v : ℝ) (h : ∀ a ∈ l, lo ≤ a ∧ a ≤ hi) (hv : meanList l = .ok v) :
    lo ≤ v ∧ v ≤ hi := by
  unfold meanList at hv
  split at hv
  · cases hv
  · rename_i hl
    cases hv
    have hpos : (0 : ℝ) < l.length := by exact_mod_cast Nat.pos_of_ne_zero hl
    rw [le_div_iff₀ hpos, div_le_iff₀ hpos]
    have h1 := sum_le l (fun _ => lo) id (fun a ha => (h a ha).1)
    have h2 := sum_le l id (fun _ => hi) (fun a ha => (h a ha).2)
    rw [sum_const] at h1 h2
    simp only [List.map_id] at h1 h2
    constructor <;> linarith

/-- If the mean equals an upper bound of all values, all values equal it. -/
theorem meanList_eq_max (l : List ℝ) (hi : ℝ) (h : ∀ a ∈ l, a ≤ hi) (hv : meanList l = .ok hi) :
    ∀ a ∈ l, a = hi := by
  unfold meanList at hv
  split at hv
  · cases hv
  · rename_i hl
    simp only [Except.ok.injEq] at hv
    have hpos : (0 : ℝ) < l.length := by exact_mod_cast Nat.pos_of_ne_zero hl
    rw [div_eq_iff hpos.ne'] at hv
    have h1 : (l.map (fun a => hi - a)).sum = 0 := by
      rw [sum_map_sub, sum_const]
      simp only [List.map_id']
      linarith
    have := (sum_eq_zero_iff l _ (fun a ha => sub_nonneg.2 (h a ha))).1 h1
    intro a ha
    have := this a ha
    linarith

end Viqa
