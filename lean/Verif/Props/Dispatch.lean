import Verif.Model.Dispatch
import Verif.Model.Images
import Verif.Props.Images
import Mathlib.Tactic.NormNum
import Mathlib.Tactic.Ring
import Mathlib.Tactic.Linarith
import Mathlib.Tactic.FieldSimp

set_option linter.unusedSimpArgs false
set_option linter.unusedVariables false

/-! Properties C34, C35, C79 and C80: what the 2D metrics score when they are given a volume, a
plane or a colour image. -/

namespace Viqa

namespace Spec

/-- `p` is the slice of the volume `a` at index `i` of axis `axis`. -/
def IsSlice {α} (a : NDArray α) (axis : Nat) (i : Nat) (p : NDArray α) : Prop :=
  match axis, a.shape with
  | 0, [n, b, c] => i < n ∧ p.shape = [b, c] ∧ ∀ u v, p.get [u, v] = a.get [i, u, v]
  | 1, [b, n, c] => i < n ∧ p.shape = [b, c] ∧ ∀ u v, p.get [u, v] = a.get [u, i, v]
  | 2, [b, c, n] => i < n ∧ p.shape = [b, c] ∧ ∀ u v, p.get [u, v] = a.get [u, v, i]
  | _, _ => False

/-- The index Python means by `i` on an axis of length `n`. -/
def Means (n : Nat) (i : Int) (j : Nat) : Prop := j < n ∧ (i = j ∨ i = (j : Int) - n)

end Spec

variable {α : Type}

theorem isSlice_planeAt (a : NDArray α) (n0 n1 n2 : Nat) (hs : a.shape = [n0, n1, n2]) (axis i : Nat)
    (hax : axis < 3) (hi : i < [n0, n1, n2].getD axis 0) : Spec.IsSlice a axis i (planeAt a axis i) := by
  obtain rfl | rfl | rfl : axis = 0 ∨ axis = 1 ∨ axis = 2 := by omega
  all_goals
    simp at hi
    simp [Spec.IsSlice, hs, planeAt, hi]

theorem takeSlice_means (a : NDArray α) (axis : Nat) (i : Int) (j : Nat)
    (h : Spec.Means (a.shape.getD axis 0) i j) : takeSlice a axis i = .ok (planeAt a axis j) := by
  obtain ⟨hj, h⟩ := h
  unfold takeSlice pyIndex
  rcases h with h | h
  · rw [if_pos (by omega)]; simp [h]
  · rw [if_neg (by omega), if_pos (by omega)]
    have : (i + ((a.shape.getD axis 0 : Nat) : Int)).toNat = j := by omega
    simp only [this]

theorem takeSlice_range (a : NDArray α) (axis : Nat) (i : Int)
    (h : ∀ j, ¬ Spec.Means (a.shape.getD axis 0) i j) : takeSlice a axis i = .error .indexError := by
  unfold takeSlice pyIndex
  generalize hn : a.shape.getD axis 0 = n at h ⊢
  rw [if_neg, if_neg]
  · rintro ⟨h1, h2⟩
    exact h (i + n).toNat ⟨by omega, Or.inr (by omega)⟩
  · rintro ⟨h1, h2⟩
    exact h i.toNat ⟨by omega, Or.inl (by omega)⟩

theorem axis_num (d : Nat) (hd : d < 3) : (DimArg.num d).axis = some d := by
  obtain rfl | rfl | rfl : d = 0 ∨ d = 1 ∨ d = 2 := by omega
  all_goals simp [DimArg.axis]

theorem shape_planeAt (a : NDArray α) (n0 n1 n2 axis j : Nat) (hs : a.shape = [n0, n1, n2]) (hax : axis < 3) :
    (planeAt a axis j).ndim = 2 := by
  obtain rfl | rfl | rfl : axis = 0 ∨ axis = 1 ∨ axis = 2 := by omega
  all_goals simp [planeAt, NDArray.ndim, hs]

theorem dispatch_plane (k : Kind) (g : List (NDArray α) → List (NDArray α) → Py ℝ)
    (f : NDArray α → NDArray α → Py ℝ) (c : Bool) (dim : DimArg) (sl : SliceArg) (x y : NDArray α)
    (h : x.ndim = 2) : dispatch k g f c dim sl x y =
      ⟨if dim.truthy || sl.truthy then ["dim and im_slice are ignored for 2D images."] else [],
        score2 k g f c x y⟩ := by
  unfold dispatch
  rw [if_neg (by omega), if_pos (Or.inl h)]

/-- **C34.** For each of the six metrics, two volumes of equal shape, `dim` 0, 1 or 2 and an integer
slice that means index `j`: the result is the result of the same metric for the two slices at
index `j` as plain 2D images, and there is no warning. -/
theorem C34_slice_partial (k : Kind) (g : List (NDArray α) → List (NDArray α) → Py ℝ)
    (f : NDArray α → NDArray α → Py ℝ) (chromatic : Bool) (x y : NDArray α) (n0 n1 n2 : Nat)
    (hx : x.shape = [n0, n1, n2]) (hy : y.shape = [n0, n1, n2]) (h3 : n2 ≠ 3)
    (d : Nat) (hd : d < 3) (i : Int) (j : Nat) (hi : Spec.Means ([n0, n1, n2].getD d 0) i j) :
    ∃ px qy, Spec.IsSlice x d j px ∧ Spec.IsSlice y d j qy ∧
      dispatch k g f chromatic (.num d) (.int i) x y = dispatch k g f chromatic .none .none px qy := by
  refine ⟨planeAt x d j, planeAt y d j, isSlice_planeAt x _ _ _ hx d j hd hi.1,
    isSlice_planeAt y _ _ _ hy d j hd hi.1, ?_⟩
  rw [dispatch_plane _ _ _ _ _ _ _ _ (shape_planeAt x _ _ _ d j hx hd)]
  unfold dispatch
  rw [if_pos ⟨by simp [NDArray.ndim, hx], fun _ => by simp [NDArray.lastDim, hx, h3]⟩]
  simp only [axis_num d hd]
  rw [takeSlice_means x d i j (by rw [hx]; exact hi), takeSlice_means y d i j (by rw [hy]; exact hi)]
  rfl

/-- **C34.** A slice outside of the volume raises IndexError. -/
theorem C34_slice_out_of_range (k : Kind) (g : List (NDArray α) → List (NDArray α) → Py ℝ)
    (f : NDArray α → NDArray α → Py ℝ) (chromatic : Bool) (x y : NDArray α) (n0 n1 n2 : Nat)
    (hx : x.shape = [n0, n1, n2]) (h3 : n2 ≠ 3)
    (d : Nat) (hd : d < 3) (i : Int) (hi : ∀ j, ¬ Spec.Means ([n0, n1, n2].getD d 0) i j) :
    (dispatch k g f chromatic (.num d) (.int i) x y).val = .error .indexError := by
  unfold dispatch
  rw [if_pos ⟨by simp [NDArray.ndim, hx], fun _ => by simp [NDArray.lastDim, hx, h3]⟩]
  simp only [axis_num d hd]
  rw [takeSlice_range x d i (by rw [hx]; exact hi)]
  rfl

/-- Slice 4 of 4. -/
example : (dispatch .gsm (fun _ _ => .ok 1) (fun _ _ => .ok 0) false (.num (1 : Nat)) (.int 4)
    (⟨[2, 4, 5], fun i => i⟩ : NDArray (List Nat)) ⟨[2, 4, 5], fun i => i⟩).val = .error .indexError :=
  C34_slice_out_of_range .gsm _ _ false _ _ 2 4 5 rfl (by omega) 1 (by omega) 4 (by
    rintro j ⟨h1, h2 | h2⟩
    · simp at h1; omega
    · simp at h1 h2; omega)

/-- **C34.** An integer slice with any other `dim`, including None, raises ValueError. -/
theorem C34_invalid_dim (k : Kind) (g : List (NDArray α) → List (NDArray α) → Py ℝ)
    (f : NDArray α → NDArray α → Py ℝ) (chromatic : Bool) (x y : NDArray α) (n0 n1 n2 : Nat)
    (hx : x.shape = [n0, n1, n2]) (h3 : n2 ≠ 3) (d : DimArg)
    (hd : d ≠ .num 0 ∧ d ≠ .num 1 ∧ d ≠ .num 2) (i : Int) :
    ∃ msg, dispatch k g f chromatic d (.int i) x y = ⟨[], .error (.valueError msg)⟩ := by
  unfold dispatch
  rw [if_pos ⟨by simp [NDArray.ndim, hx], fun _ => by simp [NDArray.lastDim, hx, h3]⟩]
  have : d.axis = Option.none := by
    cases d with
    | none => rfl
    | other b => rfl
    | num v =>
      obtain ⟨h0, h1, h2⟩ := hd
      have e0 : v ≠ 0 := fun h => h0 (by rw [h])
      have e1 : v ≠ 1 := fun h => h1 (by rw [h])
      have e2 : v ≠ 2 := fun h => h2 (by rw [h])
      simp [DimArg.axis, e0, e1, e2]
  cases d with
  | none => exact ⟨_, rfl⟩
  | other b => exact ⟨"Invalid dim value. Must be integer of 0, 1 or 2.", rfl⟩
  | num v => simp only [this]; exact ⟨_, rfl⟩

example : ∃ msg, dispatch .vif (fun _ _ => .ok 1) (fun _ _ => .ok 0) false (.num 3) (.int 0)
    (⟨[2, 4, 5], fun i => i⟩ : NDArray (List Nat)) ⟨[2, 4, 5], fun i => i⟩ = ⟨[], .error (.valueError msg)⟩ :=
  C34_invalid_dim .vif _ _ false _ _ 2 4 5 rfl (by omega) (.num 3) (by simp) 0

/-- **C34.** A volume without `dim`, or with a slice that is neither an integer nor None, raises
ValueError. -/
theorem C34_missing_arguments (k : Kind) (g : List (NDArray α) → List (NDArray α) → Py ℝ)
    (f : NDArray α → NDArray α → Py ℝ) (chromatic : Bool) (x y : NDArray α) (n0 n1 n2 : Nat)
    (hx : x.shape = [n0, n1, n2]) (h3 : n2 ≠ 3) (d : DimArg) (s : SliceArg)
    (h : d = .none ∨ ∃ b, s = .other b) :
    ∃ msg, dispatch k g f chromatic d s x y = ⟨[], .error (.valueError msg)⟩ := by
  unfold dispatch
  rw [if_pos ⟨by simp [NDArray.ndim, hx], fun _ => by simp [NDArray.lastDim, hx, h3]⟩]
  rcases h with rfl | ⟨b, rfl⟩
  · cases s with
    | none => exact ⟨_, rfl⟩
    | int i => exact ⟨_, rfl⟩
    | other b => exact ⟨_, rfl⟩
  · cases d <;> exact ⟨_, rfl⟩

example : ∃ msg, dispatch .mad (fun _ _ => .ok 1) (fun _ _ => .ok 0) false .none (.int 2)
    (⟨[2, 4, 5], fun i => i⟩ : NDArray (List Nat)) ⟨[2, 4, 5], fun i => i⟩ = ⟨[], .error (.valueError msg)⟩ :=
  C34_missing_arguments .mad _ _ false _ _ 2 4 5 rfl (by omega) .none _ (.inl rfl)

/-- **C34.** For 2D images neither `dim` nor `im_slice` influences the result, valid or not. -/
theorem C34_plane_ignores (k : Kind) (g : List (NDArray α) → List (NDArray α) → Py ℝ)
    (f : NDArray α → NDArray α → Py ℝ) (chromatic : Bool) (x y : NDArray α) (h : x.shape.length = 2)
    (d d' : DimArg) (s s' : SliceArg) :
    (dispatch k g f chromatic d s x y).val = (dispatch k g f chromatic d' s' x y).val := by
  rw [dispatch_plane _ _ _ _ _ _ _ _ h, dispatch_plane _ _ _ _ _ _ _ _ h]

example : (dispatch .gsm (fun _ _ => .ok 1) (fun _ _ => .ok 0) false (.num 7) (.int 100)
    (⟨[2, 4], fun i => i⟩ : NDArray (List Nat)) ⟨[2, 4], fun i => i⟩).val =
    (dispatch .gsm (fun _ _ => .ok 1) (fun _ _ => .ok 0) false .none .none (⟨[2, 4], fun i => i⟩ : NDArray (List Nat))
      ⟨[2, 4], fun i => i⟩).val :=
  C34_plane_ignores _ _ _ _ _ _ rfl _ _ _ _

/-! ### Loading and scoring -/

/-- A complete call of `score`: loading as in `_metrics.py` 115-140, then the dispatch. -/
noncomputable def fullScore (k : Kind) (g : List (NDArray Rat) → List (NDArray Rat) → Py ℝ)
    (f : NDArray Rat → NDArray Rat → Py ℝ) (disk : Txt → Py (Image Rat)) (args : LoadArgs)
    (chromatic : Bool) (dim : DimArg) (sl : SliceArg) (r m : Input) : PyW ℝ :=
  checkImgs disk r m args chromatic >>= fun p => dispatch k g f chromatic dim sl p.1.arr p.2.arr

theorem checkImgs_arrays (disk : Txt → Py (Image Rat)) (a b : Image Rat) (chromatic : Bool)
    (hd : a.dtype = b.dtype) (hs : a.arr.shape = b.arr.shape) (hn : a.arr.ndim = 2 ∨ a.arr.ndim = 3) :
    (checkImgs disk (.array a) (.array b) {} chromatic).val =
      if chromatic = false ∧ a.arr.lastDim = 3 then .ok (toGrayscale a, toGrayscale b)
      else if chromatic = true ∧ a.arr.lastDim ≠ 3 then .error (.valueError "Images are not chromatic.")
      else .ok (a, b) := by
  have hl : ∀ c : Image Rat, (c.arr.ndim = 2 ∨ c.arr.ndim = 3) →
      loadData disk (.array c) {} = ⟨[], .ok (.single c)⟩ := by
    intro c hc
    have hnd : ndimStep c = pure () := by
      unfold ndimStep; rw [if_neg (by omega)]
    unfold loadData
    rw [if_neg (by simp), if_neg (by simp), if_neg (by simp)]
    apply PyW.ext'
    · simp [loadBody, loadSource, PyW.bind_warns, hnd, normalizeStep, cropStep]
    · simp [loadBody, loadSource, PyW.bind_val, hnd, normalizeStep, cropStep]
  have hb : b.arr.ndim = 2 ∨ b.arr.ndim = 3 := by
    unfold NDArray.ndim at hn ⊢; rw [← hs]; exact hn
  unfold checkImgs
  rw [hl a hn, hl b hb]
  simp only [PyW.bind_val, hd, hs, ne_eq, not_true_eq_false, if_false]
  split
  · simp [PyW.bind_val]
  · split <;> rfl

/-- **C34.** A volume with three slices along the last axis is taken for a colour image: it is
converted to a gray plane and `dim` and `im_slice` are ignored. -/
theorem C34_three_slices (k : Kind) (g : List (NDArray Rat) → List (NDArray Rat) → Py ℝ)
    (f : NDArray Rat → NDArray Rat → Py ℝ) (disk : Txt → Py (Image Rat)) (a b : Image Rat) (n0 n1 : Nat)
    (hd : a.dtype = b.dtype) (ha : a.arr.shape = [n0, n1, 3]) (hb : b.arr.shape = [n0, n1, 3])
    (dim : DimArg) (sl : SliceArg) :
    (fullScore k g f disk {} false dim sl (.array a) (.array b)).val =
      (dispatch k g f false .none .none (toGrayscale a).arr (toGrayscale b).arr).val := by
  unfold fullScore
  have h := checkImgs_arrays disk a b false hd (by rw [ha, hb]) (by simp [NDArray.ndim, ha])
  rw [if_pos ⟨rfl, by simp [NDArray.lastDim, ha]⟩] at h
  rw [PyW.bind_val_ok h]
  exact C34_plane_ignores k g f false _ _ (by simp [toGrayscale, ha]) _ _ _ _

/-- Slice 1 of a volume with three slices along the last axis is not what is scored. -/
example : (fullScore .gsm (fun _ _ => .ok 1) (fun p _ => .ok ((p.get [0, 0] : ℚ) : ℝ)) (fun _ => .error .fileNotFound) {} false (.num (2 : Nat)) (.int 1)
    (.array ⟨.f64, ⟨[8, 8, 3], fun i => if i.getLast? = some 1 then 100 else 0⟩⟩)
    (.array ⟨.f64, ⟨[8, 8, 3], fun i => if i.getLast? = some 1 then 100 else 0⟩⟩)).val =
    (dispatch .gsm (fun _ _ => .ok 1) (fun p _ => .ok ((p.get [0, 0] : ℚ) : ℝ)) false .none .none
      (toGrayscale ⟨.f64, ⟨[8, 8, 3], fun i => if i.getLast? = some 1 then 100 else 0⟩⟩).arr
      (toGrayscale ⟨.f64, ⟨[8, 8, 3], fun i => if i.getLast? = some 1 then 100 else 0⟩⟩).arr).val :=
  C34_three_slices _ _ _ _ _ _ 8 8 rfl rfl rfl _ _

/-- **C34, refuted** for volumes with three slices along the last axis: for every metric the score
of slice 0 along axis 0 need not be returned. The witness metric returns the number of columns. -/
theorem C34_refuted (k : Kind) : ¬ ∀ (g : List (NDArray Rat) → List (NDArray Rat) → Py ℝ)
    (f : NDArray Rat → NDArray Rat → Py ℝ) (disk : Txt → Py (Image Rat)) (a b : Image Rat) (n0 n1 n2 : Nat),
    a.dtype = b.dtype → a.arr.shape = [n0, n1, n2] → b.arr.shape = [n0, n1, n2] →
    ∀ (d : Nat), d < 3 → ∀ (i : Int) (j : Nat), Spec.Means ([n0, n1, n2].getD d 0) i j →
    ∃ px qy, Spec.IsSlice a.arr d j px ∧ Spec.IsSlice b.arr d j qy ∧
      (fullScore k g f disk {} false (.num d) (.int i) (.array a) (.array b)).val =
        (dispatch k g f false .none .none px qy).val := by
  intro h
  let z : Image Rat := ⟨.f64, ⟨[2, 2, 3], fun _ => 0⟩⟩
  obtain ⟨px, qy, hp, hq, he⟩ := h (fun l _ => match l with | p :: _ => .ok p.lastDim | [] => .ok 0)
    (fun p _ => .ok p.lastDim) (fun _ => .error .fileNotFound) z z 2 2 3 rfl rfl rfl 0 (by omega) 0 0
    ⟨by simp, Or.inl rfl⟩
  rw [C34_three_slices k _ _ _ z z 2 2 rfl rfl rfl] at he
  have hp2 : px.shape = [2, 3] := hp.2.1
  have hq2 : qy.shape = [2, 3] := hq.2.1
  rw [dispatch_plane _ _ _ _ _ _ _ _ (by rfl), dispatch_plane _ _ _ _ _ _ _ _ (by simp [NDArray.ndim, hp2])] at he
  cases hk : k.isPiq
  · simp [score2, hk, NDArray.lastDim, hp2, toGrayscale, z] at he
  · simp [score2, hk, NDArray.lastDim, NDArray.ndim, hp2, hq2, toGrayscale, z, piqScore, checkChromatic,
      collect, meanOf] at he

example : ∃ px qy, Spec.IsSlice (⟨[2, 2, 4], fun i => i⟩ : NDArray (List Nat)) 1 1 px ∧
    Spec.IsSlice (⟨[2, 2, 4], fun i => i⟩ : NDArray (List Nat)) 1 1 qy ∧
    dispatch .vif (fun _ _ => .ok 1) (fun _ _ => .ok 0) false (.num (1 : Nat)) (.int (-1))
      (⟨[2, 2, 4], fun i => i⟩ : NDArray (List Nat)) ⟨[2, 2, 4], fun i => i⟩ =
      dispatch .vif (fun _ _ => .ok 1) (fun _ _ => .ok 0) false .none .none px qy :=
  C34_slice_partial .vif _ _ false _ _ 2 2 4 rfl rfl (by omega) 1 (by omega) (-1) 1 ⟨by simp, Or.inr rfl⟩

/-! ### Full volumes -/

theorem collect_ok {β} (l : List β) : collect (l.map .ok) = .ok l := by
  induction l with
  | nil => rfl
  | cons a l ih => simp [collect, ih]

theorem zipWith_slices (f : NDArray α → NDArray α → Py ℝ) (x y : NDArray α) (axis : Nat)
    (h : x.shape.getD axis 0 = y.shape.getD axis 0) :
    List.zipWith f (slicesAlong x axis) (slicesAlong y axis) =
      (List.range (x.shape.getD axis 0)).map (fun i => f (planeAt x axis i) (planeAt y axis i)) := by
  unfold slicesAlong
  rw [← h, List.zipWith_map, List.zipWith_self]

theorem dispatch_full (k : Kind) (g : List (NDArray α) → List (NDArray α) → Py ℝ)
    (f : NDArray α → NDArray α → Py ℝ) (c : Bool) (x y : NDArray α) (n0 n1 n2 : Nat)
    (hx : x.shape = [n0, n1, n2]) (h3 : n2 ≠ 3) (d : DimArg) (hd : d ≠ .none) :
    dispatch k g f c d .none x y = ⟨["im_slice is not given. Calculating for full volume."],
        if k.isPiq then piqScore g c x y else score3 f d x y⟩ := by
  unfold dispatch
  rw [if_pos ⟨by simp [NDArray.ndim, hx], fun _ => by simp [NDArray.lastDim, hx, h3]⟩]
  cases d with
  | none => exact absurd rfl hd
  | num v => rfl
  | other b => rfl

/-- The mean of the scores `s i` of the slices of an axis of length `n`. -/
noncomputable def Spec.meanScore (n : Nat) (s : Nat → ℝ) : ℝ := ((List.range n).map s).sum / n

theorem meanOf_map (n : Nat) (hn : 0 < n) (s : Nat → ℝ) :
    meanOf (collect ((List.range n).map (fun i => (.ok (s i) : Py ℝ)))) = .ok (Spec.meanScore n s) := by
  have : (List.range n).map (fun i => (.ok (s i) : Py ℝ)) = ((List.range n).map s).map .ok := by
    simp
  rw [this, collect_ok]
  obtain ⟨m, rfl⟩ : ∃ m, n = m + 1 := ⟨n - 1, by omega⟩
  rw [List.range_succ_eq_map]
  simp only [List.map_cons, meanOf, Spec.meanScore, List.range_succ_eq_map, List.length_cons, List.length_map, List.length_range]

/-- **C35** for GSM and MAD. If the slices at index `i` along axis `dim` score `s i`, the volume
scores the mean of all `s i`, and a warning is issued. -/
theorem C35_mean_over_slices_partial (k : Kind) (hk : k = .gsm ∨ k = .mad)
    (g : List (NDArray α) → List (NDArray α) → Py ℝ)
    (f : NDArray α → NDArray α → Py ℝ) (chromatic : Bool) (x y : NDArray α) (n0 n1 n2 : Nat)
    (hx : x.shape = [n0, n1, n2]) (hy : y.shape = [n0, n1, n2]) (h3 : n2 ≠ 3)
    (d : Nat) (hd : d < 3) (hn : 0 < [n0, n1, n2].getD d 0) (s : Nat → ℝ)
    (hs : ∀ i px qy, Spec.IsSlice x d i px → Spec.IsSlice y d i qy →
      (dispatch k g f chromatic .none .none px qy).val = .ok (s i)) :
    (dispatch k g f chromatic (.num d) .none x y).val = .ok (Spec.meanScore ([n0, n1, n2].getD d 0) s) ∧
      (dispatch k g f chromatic (.num d) .none x y).warns ≠ [] := by
  rw [dispatch_full k g f chromatic x y n0 n1 n2 hx h3 _ (by simp)]
  refine ⟨?_, by simp⟩
  have hp : k.isPiq = false := by rcases hk with rfl | rfl <;> rfl
  have hs' : ∀ i, i < [n0, n1, n2].getD d 0 → f (planeAt x d i) (planeAt y d i) = .ok (s i) := by
    intro i hi
    have := hs i _ _ (isSlice_planeAt x _ _ _ hx d i hd hi) (isSlice_planeAt y _ _ _ hy d i hd hi)
    rw [dispatch_plane _ _ _ _ _ _ _ _ (shape_planeAt x _ _ _ d i hx hd)] at this
    simpa [score2, hp] using this
  simp only [hp, Bool.false_eq_true, if_false, score3, axis_num d hd]
  rw [zipWith_slices f x y d (by rw [hx, hy]), hx, ← meanOf_map _ hn]
  congr 2
  apply List.map_congr_left
  intro i hi
  exact hs' i (List.mem_range.1 hi)

/-- **C35** for GSM and MAD: any other `dim` raises ValueError. -/
theorem C35_invalid_dim_partial (k : Kind) (hk : k = .gsm ∨ k = .mad)
    (g : List (NDArray α) → List (NDArray α) → Py ℝ)
    (f : NDArray α → NDArray α → Py ℝ) (chromatic : Bool) (x y : NDArray α) (n0 n1 n2 : Nat)
    (hx : x.shape = [n0, n1, n2]) (h3 : n2 ≠ 3) (d : DimArg)
    (hd : d ≠ .num 0 ∧ d ≠ .num 1 ∧ d ≠ .num 2) :
    ∃ msg, (dispatch k g f chromatic d .none x y).val = .error (.valueError msg) := by
  by_cases h0 : d = .none
  · obtain ⟨msg, h⟩ := C34_missing_arguments k g f chromatic x y n0 n1 n2 hx h3 d .none (Or.inl h0)
    exact ⟨msg, by rw [h]⟩
  rw [dispatch_full k g f chromatic x y n0 n1 n2 hx h3 _ h0]
  have hp : k.isPiq = false := by rcases hk with rfl | rfl <;> rfl
  have ha : d.axis = Option.none := by
    cases d with
    | none => rfl
    | other b => rfl
    | num v =>
      obtain ⟨h0, h1, h2⟩ := hd
      have e0 : v ≠ 0 := fun h => h0 (by rw [h])
      have e1 : v ≠ 1 := fun h => h1 (by rw [h])
      have e2 : v ≠ 2 := fun h => h2 (by rw [h])
      simp [DimArg.axis, e0, e1, e2]
  simp only [hp, Bool.false_eq_true, if_false, score3, ha]
  exact ⟨_, rfl⟩

example : ∃ msg, (dispatch .gsm (fun _ _ => .ok 1) (fun _ _ => .ok 0) false (.num 3) .none
    (⟨[2, 4, 5], fun i => i⟩ : NDArray (List Nat)) ⟨[2, 4, 5], fun i => i⟩).val = .error (.valueError msg) :=
  C35_invalid_dim_partial .gsm (.inl rfl) _ _ false _ _ 2 4 5 rfl (by omega) (.num 3) (by simp)

/-- **C35** for MS-SSIM, VIF, FSIM and VSI: whatever `dim` is (even an invalid one), the volume
scores the mean over the slices along the last axis. -/
theorem C35_piq_last_axis (k : Kind) (hk : k = .msssim ∨ k = .vif ∨ k = .fsim ∨ k = .vsi)
    (g : List (NDArray α) → List (NDArray α) → Py ℝ)
    (f : NDArray α → NDArray α → Py ℝ) (x y : NDArray α) (n0 n1 n2 : Nat)
    (hx : x.shape = [n0, n1, n2]) (hy : y.shape = [n0, n1, n2]) (h3 : n2 ≠ 3) (hn : 0 < n2)
    (d : DimArg) (hd : d ≠ .none) (s : Nat → ℝ)
    (hs : ∀ i px qy, Spec.IsSlice x 2 i px → Spec.IsSlice y 2 i qy →
      (dispatch k g f false .none .none px qy).val = .ok (s i)) :
    (dispatch k g f false d .none x y).val = .ok (Spec.meanScore n2 s) := by
  rw [dispatch_full k g f false x y n0 n1 n2 hx h3 _ hd]
  have hp : k.isPiq = true := by rcases hk with rfl | rfl | rfl | rfl <;> rfl
  have hs' : ∀ i, i < n2 → g [planeAt x 2 i] [planeAt y 2 i] = .ok (s i) := by
    intro i hi
    have := hs i _ _ (isSlice_planeAt x _ _ _ hx 2 i (by omega) hi) (isSlice_planeAt y _ _ _ hy 2 i (by omega) hi)
    have hxn := shape_planeAt x _ _ _ 2 i hx (by omega)
    have hyn := shape_planeAt y _ _ _ 2 i hy (by omega)
    rw [dispatch_plane _ _ _ _ _ _ _ _ hxn] at this
    simp only [score2, hp, if_true, piqScore, checkChromatic, hxn, hyn, Bool.false_eq_true, if_false] at this
    revert this
    simp only [Nat.reduceEqDiff, if_false, if_true, List.zipWith_cons_cons, List.zipWith_nil_left]
    cases g [planeAt x 2 i] [planeAt y 2 i] with
    | error e => simp [collect, meanOf]
    | ok v => simp [collect, meanOf]
  have hxn : x.ndim = 3 := by simp [NDArray.ndim, hx]
  have hyn : y.ndim = 3 := by simp [NDArray.ndim, hy]
  simp only [hp, if_true, piqScore, checkChromatic, hxn, hyn, Bool.false_eq_true, if_false]
  rw [List.zipWith_map, zipWith_slices (fun a b => g [a] [b]) x y 2 (by rw [hx, hy]), hx, ← meanOf_map _ hn]
  congr 2
  apply List.map_congr_left
  intro i hi
  exact hs' i (List.mem_range.1 hi)

/-- The first axis is asked for, the last one is used: its four slices have the scores 0 to 3. -/
example : (dispatch .vif (fun p _ => match p with | [a] => .ok (a.get [0, 0]) | _ => .error .indexError) (fun _ _ => .ok 1) false
    (.num (0 : Nat)) .none (⟨[2, 2, 4], fun i => i.sum⟩ : NDArray ℝ) ⟨[2, 2, 4], fun i => i.sum⟩).val = .ok (3 / 2) := by
  rw [C35_piq_last_axis .vif (Or.inr (Or.inl rfl)) _ _ _ _ 2 2 4 rfl rfl (by omega) (by omega) _ (by simp) (fun i => i) (by
      rintro i px qy ⟨_, hps, hpv⟩ ⟨_, hqs, _⟩
      rw [dispatch_plane _ _ _ _ _ _ _ _ (by simp [NDArray.ndim, hps])]
      simp [score2, Kind.isPiq, hpv, hps, hqs, piqScore, checkChromatic, NDArray.ndim, collect, meanOf])]
  norm_num [Spec.meanScore, List.range_succ]

/-- **C35.** Along the last axis all six metrics do what is documented. -/
theorem C35_last_axis_partial (k : Kind) (g : List (NDArray α) → List (NDArray α) → Py ℝ)
    (f : NDArray α → NDArray α → Py ℝ) (x y : NDArray α) (n0 n1 n2 : Nat)
    (hx : x.shape = [n0, n1, n2]) (hy : y.shape = [n0, n1, n2]) (h3 : n2 ≠ 3) (hn : 0 < n2) (s : Nat → ℝ)
    (hs : ∀ i px qy, Spec.IsSlice x 2 i px → Spec.IsSlice y 2 i qy →
      (dispatch k g f false .none .none px qy).val = .ok (s i)) :
    (dispatch k g f false (.num (2 : Nat)) .none x y).val = .ok (Spec.meanScore n2 s) := by
  cases k with
  | gsm => exact (C35_mean_over_slices_partial .gsm (Or.inl rfl) g f false x y n0 n1 n2 hx hy h3 2 (by omega) hn s hs).1
  | mad => exact (C35_mean_over_slices_partial .mad (Or.inr rfl) g f false x y n0 n1 n2 hx hy h3 2 (by omega) hn s hs).1
  | msssim => exact C35_piq_last_axis .msssim (by simp) g f x y n0 n1 n2 hx hy h3 hn _ (by simp) s hs
  | vif => exact C35_piq_last_axis .vif (by simp) g f x y n0 n1 n2 hx hy h3 hn _ (by simp) s hs
  | fsim => exact C35_piq_last_axis .fsim (by simp) g f x y n0 n1 n2 hx hy h3 hn _ (by simp) s hs
  | vsi => exact C35_piq_last_axis .vsi (by simp) g f x y n0 n1 n2 hx hy h3 hn _ (by simp) s hs

example : (dispatch .gsm (fun _ _ => .ok 1) (fun p _ => .ok (p.get [0, 0])) false (.num (2 : Nat)) .none
    (⟨[4, 2, 5], fun i => i.sum⟩ : NDArray ℝ) ⟨[4, 2, 5], fun i => i.sum⟩).val = .ok 2 := by
  rw [C35_last_axis_partial .gsm _ _ _ _ 4 2 5 rfl rfl (by omega) (by omega) (fun i => i) (by
      rintro i px qy ⟨_, hps, hpv⟩ ⟨_, hqs, _⟩
      rw [dispatch_plane _ _ _ _ _ _ _ _ (by simp [NDArray.ndim, hps])]
      simp [score2, Kind.isPiq, hpv])]
  norm_num [Spec.meanScore, List.range_succ]

/-- **C35, refuted** for the four piq metrics with `dim = 0`. The witness scores every pair of
planes by the number of its rows. -/
theorem C35_refuted (k : Kind) (hk : k = .msssim ∨ k = .vif ∨ k = .fsim ∨ k = .vsi) :
    ¬ ∀ (g : List (NDArray ℝ) → List (NDArray ℝ) → Py ℝ) (f : NDArray ℝ → NDArray ℝ → Py ℝ)
      (x y : NDArray ℝ) (n0 n1 n2 : Nat), x.shape = [n0, n1, n2] → y.shape = [n0, n1, n2] → n2 ≠ 3 → 0 < n0 →
      ∀ s : Nat → ℝ, (∀ i px qy, Spec.IsSlice x 0 i px → Spec.IsSlice y 0 i qy →
        (dispatch k g f false .none .none px qy).val = .ok (s i)) →
      (dispatch k g f false (.num (0 : Nat)) .none x y).val = .ok (Spec.meanScore n0 s) := by
  intro h
  let x : NDArray ℝ := ⟨[2, 5, 4], fun _ => 0⟩
  let g : List (NDArray ℝ) → List (NDArray ℝ) → Py ℝ := fun l _ => .ok ((l.head?.map (fun p => p.shape.headD 0)).getD 0 : Nat)
  have hp : k.isPiq = true := by rcases hk with rfl | rfl | rfl | rfl <;> rfl
  have h1 := h g (fun _ _ => .ok 0) x x 2 5 4 rfl rfl (by omega) (by omega) (fun _ => 5) (by
    rintro i px qy ⟨_, hps, _⟩ ⟨_, hqs, _⟩
    rw [dispatch_plane _ _ _ _ _ _ _ _ (by simp [NDArray.ndim, hps])]
    simp [score2, hp, piqScore, checkChromatic, NDArray.ndim, hps, hqs, g, collect, meanOf])
  have h2 := C35_piq_last_axis k hk g (fun _ _ => .ok 0) x x 2 5 4 rfl rfl (by omega) (by omega)
    (.num (0 : Nat)) (by simp) (fun _ => 2) (by
    rintro i px qy ⟨_, hps, _⟩ ⟨_, hqs, _⟩
    rw [dispatch_plane _ _ _ _ _ _ _ _ (by simp [NDArray.ndim, hps])]
    simp [score2, hp, piqScore, checkChromatic, NDArray.ndim, hps, hqs, g, collect, meanOf])
  rw [h1] at h2
  have := Except.ok.inj h2
  norm_num [Spec.meanScore, List.range_succ] at this

/-! ### Colour images -/

/-- **C79** for MS-SSIM, VIF and FSIM: a colour image is scored from its three channels, `dim` and
`im_slice` do not matter. -/
theorem C79_colour_partial (k : Kind) (hk : k = .msssim ∨ k = .vif ∨ k = .fsim)
    (g : List (NDArray Rat) → List (NDArray Rat) → Py ℝ) (f : NDArray Rat → NDArray Rat → Py ℝ)
    (disk : Txt → Py (Image Rat)) (a b : Image Rat) (n0 n1 : Nat) (hd : a.dtype = b.dtype)
    (ha : a.arr.shape = [n0, n1, 3]) (hb : b.arr.shape = [n0, n1, 3]) (dim : DimArg) (sl : SliceArg) :
    ∃ a0 a1 a2 b0 b1 b2, Spec.IsSlice a.arr 2 0 a0 ∧ Spec.IsSlice a.arr 2 1 a1 ∧ Spec.IsSlice a.arr 2 2 a2 ∧
      Spec.IsSlice b.arr 2 0 b0 ∧ Spec.IsSlice b.arr 2 1 b1 ∧ Spec.IsSlice b.arr 2 2 b2 ∧
      (fullScore k g f disk {} true dim sl (.array a) (.array b)).val = g [a0, a1, a2] [b0, b1, b2] := by
  refine ⟨planeAt a.arr 2 0, planeAt a.arr 2 1, planeAt a.arr 2 2, planeAt b.arr 2 0, planeAt b.arr 2 1,
    planeAt b.arr 2 2, isSlice_planeAt _ _ _ _ ha _ _ (by omega) (by simp),
    isSlice_planeAt _ _ _ _ ha _ _ (by omega) (by simp), isSlice_planeAt _ _ _ _ ha _ _ (by omega) (by simp),
    isSlice_planeAt _ _ _ _ hb _ _ (by omega) (by simp), isSlice_planeAt _ _ _ _ hb _ _ (by omega) (by simp),
    isSlice_planeAt _ _ _ _ hb _ _ (by omega) (by simp), ?_⟩
  have hp : k.isPiq = true := by rcases hk with rfl | rfl | rfl <;> rfl
  have hc : k.seesColour = true := by rcases hk with rfl | rfl | rfl <;> rfl
  have han : a.arr.ndim = 3 := by simp [NDArray.ndim, ha]
  have hbn : b.arr.ndim = 3 := by simp [NDArray.ndim, hb]
  have hal : a.arr.lastDim = 3 := by simp [NDArray.lastDim, ha]
  have h := checkImgs_arrays disk a b true hd (by rw [ha, hb]) (Or.inr han)
  rw [if_neg (by simp), if_neg (by simp [hal])] at h
  unfold fullScore
  rw [PyW.bind_val_ok h]
  unfold dispatch
  rw [if_neg (by simp [hc, hal]), if_pos (Or.inr ⟨hc, han, hal⟩)]
  simp only [score2, hp, if_true, piqScore, checkChromatic, han, hbn, slicesAlong, ha, hb]
  simp only [List.getD_cons_succ, List.getD_cons_zero, List.range_succ, List.range_zero, List.nil_append,
    List.map_append, List.map_cons, List.map_nil, List.cons_append, List.zipWith_cons_cons, List.zipWith_nil_left]
  cases g [planeAt a.arr 2 0, planeAt a.arr 2 1, planeAt a.arr 2 2]
    [planeAt b.arr 2 0, planeAt b.arr 2 1, planeAt b.arr 2 2] with
  | error e => simp [collect, meanOf]
  | ok v => simp [collect, meanOf]

/-- The function gets three channels of each image. -/
example : (fullScore .vif (fun p q => .ok (p.length + q.length : ℝ)) (fun _ _ => .ok 0) (fun _ => .error .fileNotFound) {} true .none .none
    (.array ⟨.u8, ⟨[8, 8, 3], fun _ => 1⟩⟩) (.array ⟨.u8, ⟨[8, 8, 3], fun _ => 2⟩⟩)).val = .ok 6 := by
  obtain ⟨a0, a1, a2, b0, b1, b2, -, -, -, -, -, -, h⟩ := C79_colour_partial .vif (Or.inr (Or.inl rfl))
    (fun p q => .ok (p.length + q.length : ℝ)) (fun _ _ => .ok 0) (fun _ => .error .fileNotFound)
    ⟨.u8, ⟨[8, 8, 3], fun _ => 1⟩⟩ ⟨.u8, ⟨[8, 8, 3], fun _ => 2⟩⟩ 8 8 rfl rfl rfl .none .none
  rw [h]
  norm_num

/-- **C79, refuted** for VSI, GSM and MAD: no colour image can be scored without `dim`, whatever the
underlying computation does. -/
theorem C79_refuted (k : Kind) (hk : k = .vsi ∨ k = .gsm ∨ k = .mad)
    (g : List (NDArray Rat) → List (NDArray Rat) → Py ℝ) (f : NDArray Rat → NDArray Rat → Py ℝ)
    (disk : Txt → Py (Image Rat)) (a b : Image Rat) (n0 n1 : Nat) (hd : a.dtype = b.dtype)
    (ha : a.arr.shape = [n0, n1, 3]) (hb : b.arr.shape = [n0, n1, 3]) :
    ∃ msg, (fullScore k g f disk {} true .none .none (.array a) (.array b)).val = .error (.valueError msg) := by
  have hc : k.seesColour = false := by rcases hk with rfl | rfl | rfl <;> rfl
  have han : a.arr.ndim = 3 := by simp [NDArray.ndim, ha]
  have hal : a.arr.lastDim = 3 := by simp [NDArray.lastDim, ha]
  have h := checkImgs_arrays disk a b true hd (by rw [ha, hb]) (Or.inr han)
  rw [if_neg (by simp), if_neg (by simp [hal])] at h
  unfold fullScore
  rw [PyW.bind_val_ok h]
  unfold dispatch
  rw [if_pos ⟨han, by simp [hc]⟩]
  exact ⟨_, rfl⟩

/-- **C79.** GSM of a colour image with `dim = 2` is the mean over the three channels, so colour
images can be scored by GSM and MAD, but only with `dim` given. -/
theorem C79_gsm_mad_need_dim (k : Kind) (hk : k = .gsm ∨ k = .mad)
    (g : List (NDArray Rat) → List (NDArray Rat) → Py ℝ) (f : NDArray Rat → NDArray Rat → Py ℝ)
    (disk : Txt → Py (Image Rat)) (a b : Image Rat) (n0 n1 : Nat) (hd : a.dtype = b.dtype)
    (ha : a.arr.shape = [n0, n1, 3]) (hb : b.arr.shape = [n0, n1, 3]) (s : Nat → ℝ)
    (hs : ∀ i px qy, Spec.IsSlice a.arr 2 i px → Spec.IsSlice b.arr 2 i qy → f px qy = .ok (s i)) :
    (fullScore k g f disk {} true (.num (2 : Nat)) .none (.array a) (.array b)).val =
      .ok ((s 0 + s 1 + s 2) / 3) := by
  have hc : k.seesColour = false := by rcases hk with rfl | rfl <;> rfl
  have hp : k.isPiq = false := by rcases hk with rfl | rfl <;> rfl
  have han : a.arr.ndim = 3 := by simp [NDArray.ndim, ha]
  have hal : a.arr.lastDim = 3 := by simp [NDArray.lastDim, ha]
  have h := checkImgs_arrays disk a b true hd (by rw [ha, hb]) (Or.inr han)
  rw [if_neg (by simp), if_neg (by simp [hal])] at h
  unfold fullScore
  rw [PyW.bind_val_ok h]
  unfold dispatch
  rw [if_pos ⟨han, by simp [hc]⟩]
  simp only [hp, Bool.false_eq_true, if_false, score3, axis_num 2 (by omega)]
  rw [zipWith_slices f a.arr b.arr 2 (by rw [ha, hb]), ha]
  have e : (List.range ([n0, n1, 3].getD 2 0)).map (fun i => f (planeAt a.arr 2 i) (planeAt b.arr 2 i)) =
      (List.range 3).map (fun i => (.ok (s i) : Py ℝ)) := by
    apply List.map_congr_left
    intro i hi
    have hi := List.mem_range.1 hi
    exact hs i _ _ (isSlice_planeAt _ _ _ _ ha _ _ (by omega) hi) (isSlice_planeAt _ _ _ _ hb _ _ (by omega) hi)
  rw [e, meanOf_map 3 (by omega)]
  simp [Spec.meanScore, List.range_succ, add_assoc]

example : (fullScore .gsm (fun _ _ => .ok 1) (fun p q => .ok ((p.get [0, 0] + q.get [0, 0] : ℚ) : ℝ)) (fun _ => .error .fileNotFound) {}
    true (.num (2 : Nat)) .none (.array ⟨.u8, ⟨[8, 8, 3], fun _ => 1⟩⟩) (.array ⟨.u8, ⟨[8, 8, 3], fun _ => 2⟩⟩)).val =
    .ok ((3 + 3 + 3) / 3) :=
  C79_gsm_mad_need_dim .gsm (.inl rfl) _ _ _ ⟨.u8, ⟨[8, 8, 3], fun _ => 1⟩⟩ ⟨.u8, ⟨[8, 8, 3], fun _ => 2⟩⟩ 8 8 rfl rfl rfl (fun _ => 3) (by
    rintro i px qy ⟨_, -, hp⟩ ⟨_, -, hq⟩
    rw [hp 0 0, hq 0 0]
    norm_num)

/-! ### Warning about ignored arguments -/

/-- **C80.** For 2D images the warning appears exactly if `dim` or `im_slice` is truthy. -/
theorem C80_warning_iff (k : Kind) (g : List (NDArray α) → List (NDArray α) → Py ℝ)
    (f : NDArray α → NDArray α → Py ℝ) (chromatic : Bool) (x y : NDArray α) (h : x.shape.length = 2)
    (d : DimArg) (s : SliceArg) :
    "dim and im_slice are ignored for 2D images." ∈ (dispatch k g f chromatic d s x y).warns ↔
      d.truthy = true ∨ s.truthy = true := by
  rw [dispatch_plane _ _ _ _ _ _ _ _ h]
  cases d.truthy <;> cases s.truthy <;> simp

/-- Axis 0 and slice 0 are ignored without a warning. -/
example : "dim and im_slice are ignored for 2D images." ∉ (dispatch .gsm (fun _ _ => .ok 1) (fun _ _ => .ok 0) false (.num 0) (.int 0)
    (⟨[2, 4], fun i => i⟩ : NDArray (List Nat)) ⟨[2, 4], fun i => i⟩).warns := by
  rw [C80_warning_iff _ _ _ _ _ _ rfl]
  simp [DimArg.truthy, SliceArg.truthy]

/-- **C80** for the values other than zero. -/
theorem C80_nonzero_partial (k : Kind) (g : List (NDArray α) → List (NDArray α) → Py ℝ)
    (f : NDArray α → NDArray α → Py ℝ) (chromatic : Bool) (x y : NDArray α) (h : x.shape.length = 2) :
    (∀ v s, v ≠ 0 → (dispatch k g f chromatic (.num v) s x y).warns ≠ []) ∧
    (∀ i d, i ≠ 0 → (dispatch k g f chromatic d (.int i) x y).warns ≠ []) := by
  constructor
  · intro v s hv hw
    have := (C80_warning_iff k g f chromatic x y h (.num v) s).2 (Or.inl (by simp [DimArg.truthy, hv]))
    rw [hw] at this; cases this
  · intro i d hi hw
    have := (C80_warning_iff k g f chromatic x y h d (.int i)).2 (Or.inr (by simp [SliceArg.truthy, hi]))
    rw [hw] at this; cases this

example : (dispatch .gsm (fun _ _ => .ok 1) (fun _ _ => .ok 0) false .none (.int 3)
    (⟨[2, 4], fun i => i⟩ : NDArray (List Nat)) ⟨[2, 4], fun i => i⟩).warns ≠ [] :=
  (C80_nonzero_partial _ _ _ _ _ _ rfl).2 3 .none (by decide)

/-- **C80, refuted**: `dim=0, im_slice=0` is ignored without a warning, for every metric and
every pair of 2D images. -/
theorem C80_refuted (k : Kind) (g : List (NDArray α) → List (NDArray α) → Py ℝ)
    (f : NDArray α → NDArray α → Py ℝ) (chromatic : Bool) (x y : NDArray α) (h : x.shape.length = 2) :
    (dispatch k g f chromatic (.num 0) (.int 0) x y).warns = [] := by
  rw [dispatch_plane _ _ _ _ _ _ _ _ h]
  rfl

example : (dispatch .gsm (fun _ _ => .ok 1) (fun p _ => .ok (p.get [0, 0])) false (.num (1 : Nat)) .none
    (⟨[4, 2, 5], fun i => i.sum⟩ : NDArray ℝ) ⟨[4, 2, 5], fun i => i.sum⟩).val = .ok (1 / 2) := by
  rw [(C35_mean_over_slices_partial .gsm (Or.inl rfl) _ _ false _ _ 4 2 5 rfl rfl (by omega) 1 (by omega)
    (by simp) (fun i => i) (by
      rintro i px qy ⟨_, hps, hpv⟩ ⟨_, hqs, _⟩
      rw [dispatch_plane _ _ _ _ _ _ _ _ (by simp [NDArray.ndim, hps])]
      simp [score2, Kind.isPiq, hpv])).1]
  norm_num [Spec.meanScore, List.range_succ]

end Viqa
