import Verif.Model.Ssim
import Verif.Model.Distance
import Verif.Lemmas.Orientation
import Verif.Props.Ssim

/-!
C127: RMSE, PSNR, SSIM and UQI do not depend on how the two images are oriented, as long as both
are turned in the same way.
-/

namespace Viqa

/-- `(x', y')` comes from `(x, y)` by flipping axes and exchanging axes, the same for both images. -/
inductive Spec.TurnedAlike (x y : NDArray ℝ) : NDArray ℝ → NDArray ℝ → Prop
  | start : TurnedAlike x y x y
  | flip (x' y' : NDArray ℝ) (a : Nat) : TurnedAlike x y x' y' → a < x'.ndim →
      TurnedAlike x y (flipAxis x' a) (flipAxis y' a)
  | swap (x' y' : NDArray ℝ) (a b : Nat) : TurnedAlike x y x' y' → a < x'.ndim → b < x'.ndim →
      TurnedAlike x y (swapAxes x' a b) (swapAxes y' a b)

/-- The pixels of `x'` are those of `x`, moved by `T`. -/
structure MovedBy (T : List Nat → List Nat) (sh' : List Nat) (x x' : NDArray ℝ) : Prop where
  shape : x'.shape = sh'
  get : ∀ i, InShape x.shape i → x'.get (T i) = x.get i

theorem movedBy_zip (T : List Nat → List Nat) (sh' : List Nat) (f : ℝ → ℝ → ℝ) (x y x' y' : NDArray ℝ)
    (hs : x.shape = y.shape) (hx : MovedBy T sh' x x') (hy : MovedBy T sh' y y') :
    MovedBy T sh' (NDArray.zip f x y) (NDArray.zip f x' y') where
  shape := hx.shape
  get i h := by
    show f (x'.get (T i)) (y'.get (T i)) = f (x.get i) (y.get i)
    have h' : InShape x.shape i := h
    rw [hx.get i h', hy.get i (by rw [← hs]; exact h')]

theorem filter_turn (f : Filter) (hf : ∀ o, f.weight (-o) = f.weight o) (sh' : List Nat) (T : List Nat → List Nat)
    (O : List Int → List Int) (x x' : NDArray ℝ) (ht : Turn x.shape sh' T O) (hx : MovedBy T sh' x x') (p : List Nat)
    (hp : InShape x.shape p) : f.apply x' (T p) = f.apply x p := by
  unfold Filter.apply
  have hnd : x'.ndim = x.shape.length := by unfold NDArray.ndim; rw [hx.shape, ht.len]
  rw [hnd]
  have hperm := (ht.offs f.radius).symm
  rw [(hperm.map _).sum_eq, List.map_map]
  show _ = ((offsets f.radius x.shape.length).map _).sum
  congr 1
  refine List.map_congr_left (fun o ho => ?_)
  have hol : o.length = x.shape.length := ((mem_offsets _ _ _).1 ho).1
  simp only [Function.comp_apply]
  rw [ht.weight f.weight hf o hol]
  congr 1
  unfold sample
  rw [hx.shape, ht.ext f.mode p o hp hol]
  have hpl : p.length = x.shape.length := ((inShape_iff _ _).1 hp).1
  cases he : extendIndices f.mode x.shape (shiftIndex p o) with
  | none => rfl
  | some js =>
    simp only [Option.map_some]
    refine hx.get js ?_
    rw [extendIndices_iff _ _ _ _ (by rw [length_shiftIndex _ _ (by omega), hpl])] at he
    rw [inShape_iff]
    refine ⟨he.1, fun k j n h1 h2 => ?_⟩
    have hk : k < (shiftIndex p o).length := by
      rw [length_shiftIndex _ _ (by omega), hpl]; exact (List.getElem?_eq_some_iff.1 h2).1
    have := he.2 k n (shiftIndex p o)[k] j h2 (List.getElem?_eq_getElem hk) h1
    exact extendIndex_lt f.mode n _ j (inShape_pos _ _ hp n (List.mem_of_getElem? h2)) this

theorem gaussWeight_even (σ : ℝ) (r : Nat) (o : Int) : gaussWeight σ r (-o) = gaussWeight σ r o := by
  unfold gaussWeight
  push_cast
  rw [neg_sq]

theorem ssimFilter_even (a : SsimArgs) (m : BorderMode) (o : Int) : (a.filter m).weight (-o) = (a.filter m).weight o := by
  unfold SsimArgs.filter
  split
  · exact gaussWeight_even _ _ o
  · rfl

theorem ssimAt_turn (big : ℝ) (f : Filter) (hf : ∀ o, f.weight (-o) = f.weight o) (norm dr : ℝ) (a : SsimArgs)
    (sh' : List Nat) (T : List Nat → List Nat) (O : List Int → List Int) (x y x' y' : NDArray ℝ)
    (hs : x.shape = y.shape) (ht : Turn x.shape sh' T O) (hx : MovedBy T sh' x x') (hy : MovedBy T sh' y y')
    (p : List Nat) (hp : InShape x.shape p) : ssimAt big f norm dr a x' y' (T p) = ssimAt big f norm dr a x y p := by
  unfold ssimAt
  have hty : Turn y.shape sh' T O := hs ▸ ht
  rw [filter_turn f hf sh' T O x x' ht hx p hp, filter_turn f hf sh' T O y y' hty hy p (hs ▸ hp),
    filter_turn f hf sh' T O (NDArray.zip (· * ·) x x) _ ht (movedBy_zip T sh' _ x x x' x' rfl hx hx) p hp,
    filter_turn f hf sh' T O (NDArray.zip (· * ·) y y) _ hty (movedBy_zip T sh' _ y y y' y' rfl hy hy) p (hs ▸ hp),
    filter_turn f hf sh' T O (NDArray.zip (· * ·) x y) _ ht (movedBy_zip T sh' _ x y x' y' hs hx hy) p hp]

/-! ### Order does not matter for the mean -/

theorem allOk_ok_iff {α : Type} (l : List (Py α)) (v : List α) : allOk l = .ok v ↔ l = v.map .ok := by
  induction l generalizing v with
  | nil => cases v <;> simp [allOk]
  | cons a l ih =>
    cases a with
    | error e => cases v <;> simp [allOk]
    | ok a =>
      unfold allOk
      cases h : allOk l with
      | error e =>
        cases v with
        | nil => simp
        | cons b v =>
          simp only [reduceCtorEq, List.map_cons, List.cons.injEq, Except.ok.injEq, false_iff, not_and]
          intro _ h2
          rw [(ih v).2 h2] at h
          cases h
      | ok as =>
        cases v with
        | nil => simp
        | cons b v =>
          simp only [Except.ok.injEq, List.cons.injEq, List.map_cons]
          refine and_congr_right (fun _ => ?_)
          rw [← ih v, h]
          simp

theorem meanList_perm (l l' : List ℝ) (h : l.Perm l') : meanList l = meanList l' := by
  unfold meanList
  rw [h.length_eq, h.sum_eq]

theorem allOk_perm_error (l l' : List (Py ℝ)) (h : l.Perm l') (he : ∀ a ∈ l, ∀ e, a = .error e → e = .notANumber)
    (e : Exc) (hl : allOk l = .error e) : allOk l' = .error .notANumber := by
  cases h' : allOk l' with
  | ok v =>
    exfalso
    rw [allOk_ok_iff] at h'
    subst h'
    have hall : ∀ a ∈ l, ∃ b, a = .ok b := by
      intro a ha
      obtain ⟨b, -, rfl⟩ := List.mem_map.1 ((h.mem_iff).1 ha)
      exact ⟨b, rfl⟩
    have : ∃ v, l = List.map Except.ok v := by
      clear h he hl
      induction l with
      | nil => exact ⟨[], rfl⟩
      | cons a l ih =>
        obtain ⟨b, hb⟩ := hall a (by simp)
        obtain ⟨w, hw⟩ := ih (fun c hc => hall c (by simp [hc]))
        exact ⟨b :: w, by simp [hb, hw]⟩
    obtain ⟨w, hw⟩ := this
    rw [(allOk_ok_iff l w).2 hw] at hl
    cases hl
  | error e' =>
    have := allOk_error_of_all l' (fun e => e = .notANumber) (fun a ha e hae => he a ((h.mem_iff).2 ha) e hae) e' h'
    rw [this]

theorem meanOk_perm (l l' : List (Py ℝ)) (h : l.Perm l') (he : ∀ a ∈ l, ∀ e, a = .error e → e = .notANumber) :
    ((match allOk l with | .error e => .error e | .ok v => meanList v) : Py ℝ) =
      (match allOk l' with | .error e => .error e | .ok v => meanList v) := by
  cases hl : allOk l with
  | error e =>
    have h1 := allOk_perm_error l l' h he e hl
    have h2 := allOk_error_of_all l (fun e => e = .notANumber) he e hl
    rw [h1, h2]
  | ok v =>
    cases hl' : allOk l' with
    | error e =>
      have := allOk_perm_error l' l h.symm (fun a ha => he a ((h.mem_iff).2 ha)) e hl'
      rw [this] at hl
      cases hl
    | ok v' =>
      rw [allOk_ok_iff] at hl hl'
      subst hl hl'
      refine meanList_perm v v' ?_
      have h3 := h.map (fun a : Py ℝ => match a with | .ok b => b | .error _ => 0)
      simpa [List.map_map, Function.comp_def] using h3

theorem ssim_turn (big dr : ℝ) (a : SsimArgs) (sh' : List Nat) (T : List Nat → List Nat) (O : List Int → List Int)
    (x y x' y' : NDArray ℝ) (hs : x.shape = y.shape) (ht : Turn x.shape sh' T O) (hx : MovedBy T sh' x x')
    (hy : MovedBy T sh' y y') : structuralSimilarity big a dr x' y' = structuralSimilarity big a dr x y := by
  unfold structuralSimilarity
  have hnd : x'.ndim = x.ndim := by unfold NDArray.ndim; rw [hx.shape, ht.len]
  rw [hx.shape, hnd, ht.any]
  split
  · rfl
  split
  · rfl
  split
  · rfl
  split
  · rfl
  split
  · rfl
  cases covNorm a x.ndim with
  | error e => rfl
  | ok norm =>
    simp only
    generalize (if a.gaussian ∧ a.sigma = 0 then (Except.ok BorderMode.reflect : Py BorderMode) else borderMode a.mode) = bm
    cases bm with
    | error e => rfl
    | ok m =>
      simp only
      symm
      refine meanOk_perm _ _ ?_ ?_
      · have h1 := (ht.crop ((a.window - 1) / 2)).map (ssimAt big (a.filter m) norm dr a x' y')
        refine List.Perm.trans (List.Perm.of_eq ?_) h1
        rw [List.map_map]
        refine List.map_congr_left (fun p hp => ?_)
        exact (ssimAt_turn big (a.filter m) (ssimFilter_even a m) norm dr a sh' T O x y x' y' hs ht hx hy p
          (crop_inShape _ _ p hp)).symm
      · intro b hb e he
        obtain ⟨p, -, rfl⟩ := List.mem_map.1 hb
        exact ssimAt_error big _ norm dr a x y p e he

theorem mse_turn (sh' : List Nat) (T : List Nat → List Nat) (O : List Int → List Int) (x y x' y' : NDArray ℝ)
    (hs : x.shape = y.shape) (ht : Turn x.shape sh' T O) (hx : MovedBy T sh' x x') (hy : MovedBy T sh' y y') :
    meanSquaredError x' y' = meanSquaredError x y ∧ (arrayEqual x' y' ↔ arrayEqual x y) := by
  constructor
  · unfold meanSquaredError
    have hsz : x'.size = x.size := by unfold NDArray.size; rw [hx.shape, ht.size]
    rw [hx.shape, hy.shape, hsz, if_neg (fun h => h rfl), if_neg (c := x.shape ≠ y.shape) (fun h => h hs)]
    have : ((indices sh').map (fun i => (x'.get i - y'.get i) ^ 2)).sum =
        ((indices x.shape).map (fun i => (x.get i - y.get i) ^ 2)).sum := by
      rw [← (ht.all.map (fun i => (x'.get i - y'.get i) ^ 2)).sum_eq, List.map_map]
      congr 1
      refine List.map_congr_left (fun i hi => ?_)
      have hi' := (mem_indices _ _).1 hi
      simp only [Function.comp_apply]
      rw [hx.get i hi', hy.get i (hs ▸ hi')]
    rw [this]
  · unfold arrayEqual
    rw [hx.shape, hy.shape]
    refine and_congr (by simp [hs]) ?_
    constructor
    · intro h i hi
      have hi' := (mem_indices _ _).1 hi
      have := h (T i) ((ht.all.mem_iff).1 (List.mem_map_of_mem hi))
      rwa [hx.get i hi', hy.get i (hs ▸ hi')] at this
    · intro h i hi
      obtain ⟨j, hj, rfl⟩ := List.mem_map.1 ((ht.all.mem_iff).2 hi)
      have hj' := (mem_indices _ _).1 hj
      rw [hx.get j hj', hy.get j (hs ▸ hj')]
      exact h j hj

theorem flip_moved (x : NDArray ℝ) (a : Nat) : MovedBy (flipIndex x.shape a) x.shape x (flipAxis x a) where
  shape := rfl
  get i h := by
    show x.get (flipIndex x.shape a (flipIndex x.shape a i)) = x.get i
    rw [flipIndex_invol _ _ _ h]

theorem swap_moved (x : NDArray ℝ) (a b : Nat) (ha : a < x.ndim) (hb : b < x.ndim) :
    MovedBy (swapAt · a b) (swapAt x.shape a b) x (swapAxes x a b) where
  shape := rfl
  get i h := by
    have hl := ((inShape_iff _ _).1 h).1
    have ha' : a < x.shape.length := ha
    have hb' : b < x.shape.length := hb
    show x.get (swapAt (swapAt i a b) a b) = x.get i
    rw [swapAt_invol _ _ _ (by omega) (by omega)]

/-- Everything that is invariant under single turns is invariant. -/
theorem turned_invariant {β : Type} (F : NDArray ℝ → NDArray ℝ → β)
    (hF : ∀ sh' T O x y x' y', x.shape = y.shape → Turn x.shape sh' T O → MovedBy T sh' x x' → MovedBy T sh' y y' →
      F x' y' = F x y) (x y x' y' : NDArray ℝ) (hs : x.shape = y.shape) (h : Spec.TurnedAlike x y x' y') :
    x'.shape = y'.shape ∧ F x' y' = F x y := by
  induction h with
  | start => exact ⟨hs, rfl⟩
  | flip x1 y1 a _ ha ih =>
    obtain ⟨h1, h2⟩ := ih
    refine ⟨h1, ?_⟩
    rw [← h2]
    refine hF x1.shape _ _ x1 y1 _ _ h1 (flip_turn x1.shape a) (flip_moved x1 a) ?_
    have := flip_moved y1 a
    rwa [← h1] at this
  | swap x1 y1 a b _ ha hb ih =>
    obtain ⟨h1, h2⟩ := ih
    have hnd : y1.ndim = x1.ndim := by unfold NDArray.ndim; rw [h1]
    refine ⟨by show swapAt x1.shape a b = swapAt y1.shape a b; rw [h1], ?_⟩
    rw [← h2]
    refine hF _ _ _ x1 y1 _ _ h1 (swap_turn x1.shape a b ha hb) (swap_moved x1 a b ha hb) ?_
    have := swap_moved y1 a b (hnd ▸ ha) (hnd ▸ hb)
    rwa [← h1] at this

/-! ### C127 -/

/-- SSIM, for every parameter set, every number of dimensions and every border rule. -/
theorem C127_ssim (big dr : ℝ) (a : SsimArgs) (x y x' y' : NDArray ℝ) (hs : x.shape = y.shape)
    (h : Spec.TurnedAlike x y x' y') : structuralSimilarity big a dr x' y' = structuralSimilarity big a dr x y :=
  (turned_invariant (structuralSimilarity big a dr)
    (fun sh' T O x y x' y' hs ht hx hy => ssim_turn big dr a sh' T O x y x' y' hs ht hx hy) x y x' y' hs h).2

theorem C127_uqi (big dr : ℝ) (w : Option Nat) (x y x' y' : NDArray ℝ) (hs : x.shape = y.shape)
    (h : Spec.TurnedAlike x y x' y') : uqi big dr w x' y' = uqi big dr w x y :=
  C127_ssim big dr _ x y x' y' hs h

theorem C127_rmse (x y x' y' : NDArray ℝ) (hs : x.shape = y.shape) (h : Spec.TurnedAlike x y x' y') :
    rmse x' y' = rmse x y := by
  refine (turned_invariant rmse (fun sh' T O x y x' y' hs ht hx hy => ?_) x y x' y' hs h).2
  unfold rmse
  rw [(mse_turn sh' T O x y x' y' hs ht hx hy).1]

theorem C127_psnr (dr : ℝ) (x y x' y' : NDArray ℝ) (hs : x.shape = y.shape) (h : Spec.TurnedAlike x y x' y') :
    psnr dr x' y' = psnr dr x y := by
  refine (turned_invariant (psnr dr) (fun sh' T O x y x' y' hs ht hx hy => ?_) x y x' y' hs h).2
  have := mse_turn sh' T O x y x' y' hs ht hx hy
  unfold psnr
  rw [this.1]
  by_cases h : arrayEqual x y
  · rw [if_pos h, if_pos (this.2.2 h)]
  · rw [if_neg h, if_neg (fun h' => h (this.2.1 h'))]

/-- `np.rot90` is such a turn: rotating both images by any number of quarter turns in any plane changes
no score. -/
theorem C127_rotated (k a b : Nat) (x y x' y' : NDArray ℝ) (hs : x.shape = y.shape) (hx : rot90 x k a b = .ok x')
    (hy : rot90 y k a b = .ok y') : Spec.TurnedAlike x y x' y' := by
  have hnd : y.ndim = x.ndim := by unfold NDArray.ndim; rw [hs]
  unfold rot90 at hx hy
  rw [hnd] at hy
  by_cases h1 : a = b ∨ max a b - min a b = x.ndim
  · rw [if_pos h1] at hx; cases hx
  rw [if_neg h1] at hx hy
  by_cases h2 : x.ndim ≤ a ∨ x.ndim ≤ b
  · rw [if_pos h2] at hx; cases hx
  rw [if_neg h2] at hx hy
  push Not at h2
  have hlen : (swapAxes x a b).ndim = x.ndim := length_swapAt _ _ _
  have : k % 4 = 0 ∨ k % 4 = 1 ∨ k % 4 = 2 ∨ k % 4 = 3 := by omega
  rcases this with h | h | h | h <;> rw [h] at hx hy <;> simp only [Except.ok.injEq] at hx hy <;> subst hx hy
  · exact .start
  · exact .swap _ _ a b (.flip _ _ b .start h2.2) h2.1 h2.2
  · exact .flip _ _ b (.flip _ _ a .start h2.1) h2.2
  · exact .flip _ _ b (.swap _ _ a b .start h2.1 h2.2) (by rw [hlen]; exact h2.2)

/-- A scan that was exported with another orientation than its reference is another matter: turning one
image only changes the score. -/
theorem C127_both (x y : NDArray ℝ) (hx : x = ⟨[2], fun i => (i.getD 0 0 : ℝ)⟩) (hy : y = x) :
    rmse x y = .ok 0 ∧ rmse (flipAxis x 0) y = .ok 1 := by
  subst hy hx
  have hi : indices [2] = [[0], [1]] := by decide +kernel
  have hz : ([2] : List Nat).prod = 2 := by simp
  constructor
  · simp [rmse, meanSquaredError, NDArray.size, hi, hz]
  · simp [rmse, meanSquaredError, NDArray.size, flipAxis, hi, hz]

/-- Non-trivial instance: a volume of 2 × 3 × 4 pixels turned in the plane of its first and last axis. -/
example : ∃ x' y', rot90 (⟨[2, 3, 4], fun i => (i.getD 0 0 + i.getD 2 0 : Nat)⟩ : NDArray ℝ) 1 0 2 = .ok x' ∧
    rot90 (⟨[2, 3, 4], fun i => (i.getD 1 0 : Nat)⟩ : NDArray ℝ) 1 0 2 = .ok y' ∧ x'.shape = [4, 3, 2] ∧
    x'.get [0, 0, 0] = 3 ∧
    rmse x' y' = rmse ⟨[2, 3, 4], fun i => (i.getD 0 0 + i.getD 2 0 : Nat)⟩ ⟨[2, 3, 4], fun i => (i.getD 1 0 : Nat)⟩ := by
  refine ⟨_, _, rfl, rfl, rfl, ?_, ?_⟩
  · show (((0 : Nat) + 3 : Nat) : ℝ) = 3
    norm_num
  · exact C127_rmse _ _ _ _ rfl (C127_rotated 1 0 2 _ _ _ _ rfl rfl rfl)

/-! ### Colour images -/

/-- `(x', y')` comes from `(x, y)` by the same flips and exchanges of the axes before the last one, which
holds the colours. -/
inductive Spec.TurnedInPlane (x y : NDArray ℝ) : NDArray ℝ → NDArray ℝ → Prop
  | start : TurnedInPlane x y x y
  | flip (x' y' : NDArray ℝ) (a : Nat) : TurnedInPlane x y x' y' → a + 1 < x'.ndim →
      TurnedInPlane x y (flipAxis x' a) (flipAxis y' a)
  | swap (x' y' : NDArray ℝ) (a b : Nat) : TurnedInPlane x y x' y' → a + 1 < x'.ndim → b + 1 < x'.ndim →
      TurnedInPlane x y (swapAxes x' a b) (swapAxes y' a b)

theorem getD_dropLast (sh : List Nat) (a : Nat) (h : a + 1 < sh.length) : sh.dropLast.getD a 0 = sh.getD a 0 := by
  rw [List.getD_eq_getElem?_getD, List.getD_eq_getElem?_getD, List.getElem?_dropLast, if_pos (by omega)]

theorem swapAt_dropLast (sh : List Nat) (a b : Nat) (ha : a + 1 < sh.length) (hb : b + 1 < sh.length) :
    (swapAt sh a b).dropLast = swapAt sh.dropLast a b := by
  apply List.ext_getElem?
  intro k
  rw [swapAt_getElem? _ _ _ _ (by simp; omega) (by simp; omega), List.getElem?_dropLast, List.getElem?_dropLast,
    swapAt_getElem? _ _ _ _ (by omega) (by omega), length_swapAt]
  have : k < sh.length - 1 ↔ swapPos a b k < sh.length - 1 := by
    unfold swapPos
    split
    · omega
    · split <;> omega
  by_cases h : k < sh.length - 1
  · rw [if_pos h, if_pos (this.1 h)]
  · rw [if_neg h, if_neg (fun h' => h (this.2 h'))]

theorem swapAt_append (l : List Nat) (c a b : Nat) (ha : a < l.length) (hb : b < l.length) :
    swapAt (l ++ [c]) a b = swapAt l a b ++ [c] := by
  unfold swapAt
  rw [List.set_append_left _ _ ha, List.set_append_left _ _ (by simpa using hb)]
  simp [List.getElem?_append_left ha, List.getElem?_append_left hb]

theorem flip_channel_moved (x : NDArray ℝ) (a c : Nat) (ha : a + 1 < x.ndim) :
    MovedBy (flipIndex x.shape.dropLast a) x.shape.dropLast (channel x c) (channel (flipAxis x a) c) where
  shape := rfl
  get i h := by
    have h' : InShape x.shape.dropLast i := h
    have hl := ((inShape_iff _ _).1 h').1
    have ha' : a + 1 < x.shape.length := ha
    show x.get ((flipIndex x.shape.dropLast a i ++ [c]).modify a (fun j => x.shape.getD a 0 - 1 - j)) = x.get (i ++ [c])
    have hil : a < (flipIndex x.shape.dropLast a i).length := by rw [length_flipIndex, hl]; simp; omega
    have e : (flipIndex x.shape.dropLast a i ++ [c]).modify a (fun j => x.shape.getD a 0 - 1 - j) =
        flipIndex x.shape.dropLast a (flipIndex x.shape.dropLast a i) ++ [c] := by
      conv_rhs => rw [flipIndex]
      rw [getD_dropLast _ _ ha']
      apply List.ext_getElem?
      intro k
      rw [List.getElem?_modify]
      by_cases hk : k < (flipIndex x.shape.dropLast a i).length
      · rw [List.getElem?_append_left hk, List.getElem?_append_left (by simpa using hk), List.getElem?_modify]
      · rw [List.getElem?_append_right (by omega), List.getElem?_append_right (by simpa using hk), List.length_modify]
        have hne : a ≠ k := by omega
        simp [hne]
    rw [e, flipIndex_invol _ _ _ h']

theorem swap_channel_moved (x : NDArray ℝ) (a b c : Nat) (ha : a + 1 < x.ndim) (hb : b + 1 < x.ndim) :
    MovedBy (swapAt · a b) (swapAt x.shape.dropLast a b) (channel x c) (channel (swapAxes x a b) c) where
  shape := swapAt_dropLast x.shape a b ha hb
  get i h := by
    have h' : InShape x.shape.dropLast i := h
    have hl := ((inShape_iff _ _).1 h').1
    have ha' : a + 1 < x.shape.length := ha
    have hb' : b + 1 < x.shape.length := hb
    rw [List.length_dropLast] at hl
    show x.get (swapAt (swapAt i a b ++ [c]) a b) = x.get (i ++ [c])
    rw [swapAt_append _ _ _ _ (by rw [length_swapAt]; omega) (by rw [length_swapAt]; omega),
      swapAt_invol _ _ _ (by omega) (by omega)]

theorem lastDim_flip (x : NDArray ℝ) (a : Nat) : (flipAxis x a).lastDim = x.lastDim := rfl

theorem lastDim_swap (x : NDArray ℝ) (a b : Nat) (ha : a + 1 < x.ndim) (hb : b + 1 < x.ndim) :
    (swapAxes x a b).lastDim = x.lastDim := by
  have ha' : a + 1 < x.shape.length := ha
  have hb' : b + 1 < x.shape.length := hb
  unfold NDArray.lastDim
  show (swapAt x.shape a b).getLast?.getD 0 = x.shape.getLast?.getD 0
  rw [List.getLast?_eq_getElem?, List.getLast?_eq_getElem?, swapAt_getElem? _ _ _ _ (by omega) (by omega), length_swapAt]
  unfold swapPos
  rw [if_neg (by omega), if_neg (by omega)]

theorem ssimScore_channels (big dr : ℝ) (a : SsimArgs) (w : Option (List ℝ)) (x y x' y' : NDArray ℝ)
    (hd : x'.lastDim = x.lastDim)
    (h : ∀ c, structuralSimilarity big a dr (channel x' c) (channel y' c) =
      structuralSimilarity big a dr (channel x c) (channel y c)) :
    ssimScore big a dr true w x' y' = ssimScore big a dr true w x y := by
  unfold ssimScore
  simp only [hd, h, if_true]

/-- Colour images, turned in the plane (or the volume) but with the same colours. -/
theorem C127_colour (big dr : ℝ) (a : SsimArgs) (w : Option (List ℝ)) (x y x' y' : NDArray ℝ) (hs : x.shape = y.shape)
    (h : Spec.TurnedInPlane x y x' y') : ssimScore big a dr true w x' y' = ssimScore big a dr true w x y := by
  suffices x'.shape = y'.shape ∧ ssimScore big a dr true w x' y' = ssimScore big a dr true w x y from this.2
  induction h with
  | start => exact ⟨hs, rfl⟩
  | flip x1 y1 k _ hk ih =>
    obtain ⟨h1, h2⟩ := ih
    have hnd : y1.ndim = x1.ndim := by unfold NDArray.ndim; rw [h1]
    refine ⟨h1, ?_⟩
    rw [← h2]
    refine ssimScore_channels big dr a w x1 y1 _ _ (lastDim_flip x1 k) (fun c => ?_)
    refine ssim_turn big dr a _ _ _ _ _ _ _ (by show x1.shape.dropLast = y1.shape.dropLast; rw [h1])
      (flip_turn x1.shape.dropLast k) (flip_channel_moved x1 k c hk) ?_
    have := flip_channel_moved y1 k c (hnd ▸ hk)
    rwa [← h1] at this
  | swap x1 y1 k l _ hk hl ih =>
    obtain ⟨h1, h2⟩ := ih
    have hnd : y1.ndim = x1.ndim := by unfold NDArray.ndim; rw [h1]
    refine ⟨by show swapAt x1.shape k l = swapAt y1.shape k l; rw [h1], ?_⟩
    rw [← h2]
    refine ssimScore_channels big dr a w x1 y1 _ _ (lastDim_swap x1 k l hk hl) (fun c => ?_)
    have hk' : k + 1 < x1.shape.length := hk
    have hl' : l + 1 < x1.shape.length := hl
    refine ssim_turn big dr a _ _ _ _ _ _ _ (by show x1.shape.dropLast = y1.shape.dropLast; rw [h1])
      (swap_turn x1.shape.dropLast k l (by simp; omega) (by simp; omega)) (swap_channel_moved x1 k l c hk hl) ?_
    have := swap_channel_moved y1 k l c (hnd ▸ hk) (hnd ▸ hl)
    rwa [← h1] at this

/-- Mirrored along the first axis, then transposed. -/
theorem turnedExample (x y : NDArray ℝ) (hx : x.ndim = 2) :
    Spec.TurnedAlike x y (swapAxes (flipAxis x 0) 0 1) (swapAxes (flipAxis y 0) 0 1) :=
  .swap _ _ 0 1 (.flip _ _ 0 .start (by omega)) (by show 0 < x.ndim; omega) (by show 1 < x.ndim; omega)

example : structuralSimilarity 1e308 {} 255 (swapAxes (flipAxis ⟨[11, 12], fun i => i.sum⟩ 0) 0 1) (swapAxes (flipAxis ⟨[11, 12], fun i => i.length⟩ 0) 0 1) =
    structuralSimilarity 1e308 {} 255 ⟨[11, 12], fun i => i.sum⟩ ⟨[11, 12], fun i => i.length⟩ :=
  C127_ssim _ _ _ _ _ _ _ rfl (turnedExample _ _ rfl)

example : uqi 1e308 255 none (swapAxes (flipAxis ⟨[11, 12], fun i => i.sum⟩ 0) 0 1) (swapAxes (flipAxis ⟨[11, 12], fun i => i.length⟩ 0) 0 1) =
    uqi 1e308 255 none ⟨[11, 12], fun i => i.sum⟩ ⟨[11, 12], fun i => i.length⟩ := C127_uqi _ _ _ _ _ _ _ rfl (turnedExample _ _ rfl)

example : psnr 255 (swapAxes (flipAxis ⟨[11, 12], fun i => i.sum⟩ 0) 0 1) (swapAxes (flipAxis ⟨[11, 12], fun i => i.length⟩ 0) 0 1) =
    psnr 255 ⟨[11, 12], fun i => i.sum⟩ ⟨[11, 12], fun i => i.length⟩ := C127_psnr _ _ _ _ _ rfl (turnedExample _ _ rfl)

end Viqa
