import Verif.Model.NoiseSession
import Verif.Props.Noise
import Verif.Props.Workflow

/-!
C178: scores and earlier calls.
-/

namespace Viqa

/-- The keywords that concern the loading of images. -/
def Spec.loadingKeys : List String := ["data_range", "normalize", "roi"]

theorem noiseLoad_congr (disk : Txt → Py (Image Rat)) (x : Input) (d e : Dict NoiseVal) (h : ∀ k ∈ Spec.loadingKeys, d k = e k) :
    noiseLoad disk x d = noiseLoad disk x e := by
  have h1 := h "data_range" (by simp [Spec.loadingKeys])
  have h2 := h "normalize" (by simp [Spec.loadingKeys])
  have h3 := h "roi" (by simp [Spec.loadingKeys])
  unfold noiseLoad loadArgsOf
  rw [h1, h2, h3]

theorem regionKwargs_given {V} (keys : List String) (p kw : Dict V) (h : ∀ k ∈ keys, (kw k).isSome) :
    regionKwargs keys p kw = .ok (p.update kw, kw) := by
  have : kw.has keys = true := by simpa [Dict.has] using h
  unfold regionKwargs
  rw [if_pos this]

theorem noiseCall_given {S : Type} (keys : List String) (sig : Signature) (finish : Dict NoiseVal → NDArray Rat → Py S)
    (disk : Txt → Py (Image Rat)) (x : Input) (kw : Dict NoiseVal) (m : NoiseObject S) (h : ∀ k ∈ keys, (kw k).isSome) :
    (noiseCall keys sig finish disk x kw m).2 = (noiseLoad disk x m.params >>= noiseCompute sig finish disk kw) := by
  unfold noiseCall
  cases hl : noiseLoad disk x m.params with
  | error e => rfl
  | ok img =>
    rw [regionKwargs_given keys m.params kw h]
    simp only
    show _ = noiseCompute sig finish disk kw img
    cases noiseCompute sig finish disk kw img <;> rfl

/-- A parameter that is neither part of a region nor passed stays as it is. -/
theorem noiseCall_param {S : Type} (keys : List String) (sig : Signature) (finish : Dict NoiseVal → NDArray Rat → Py S)
    (disk : Txt → Py (Image Rat)) (x : Input) (kw : Dict NoiseVal) (m : NoiseObject S) (k : String) (hk : k ∉ keys) (hn : kw k = none) :
    (noiseCall keys sig finish disk x kw m).1.params k = m.params k := by
  unfold noiseCall
  cases hl : noiseLoad disk x m.params with
  | error e => rfl
  | ok img =>
    simp only
    cases hr : regionKwargs keys m.params kw with
    | error e => rfl
    | ok q =>
      obtain ⟨p, kw'⟩ := q
      have hp : p k = m.params k := by
        unfold regionKwargs at hr
        split at hr
        · cases hr
          simp [Dict.update, hn]
        · split at hr
          · cases hr
            simp [Dict.update, hk, hn]
          · cases hr
      simp only
      cases noiseCompute sig finish disk kw' img <;> exact hp

/-- **C178 (partial).** CNR and SNR: the score of a call that gives its regions does not depend on earlier calls, whether they
failed or not, as long as these did not pass keywords for the loading of the image. Missing: earlier calls with such
keywords, see the refutations. -/
theorem C178_partial {S : Type} (keys : List String) (hkeys : keys = cnrKeys ∨ keys = snrKeys) (sig : Signature)
    (finish : Dict NoiseVal → NDArray Rat → Py S) (disk : Txt → Py (Image Rat)) (m : NoiseObject S)
    (earlier : List (Input × Dict NoiseVal)) (hearlier : ∀ c ∈ earlier, ∀ k ∈ Spec.loadingKeys, c.2 k = none)
    (x : Input) (kw : Dict NoiseVal) (h : ∀ k ∈ keys, (kw k).isSome) :
    (noiseCall keys sig finish disk x kw (noiseAfter keys sig finish disk m earlier)).2 = (noiseCall keys sig finish disk x kw m).2 := by
  have hnot : ∀ k ∈ Spec.loadingKeys, k ∉ keys := by
    rcases hkeys with rfl | rfl <;> decide
  have hp : ∀ k ∈ Spec.loadingKeys, (noiseAfter keys sig finish disk m earlier).params k = m.params k := by
    intro k hk
    unfold noiseAfter
    induction earlier generalizing m with
    | nil => rfl
    | cons c cs ih =>
      rw [List.foldl_cons, ih _ (fun c' hc' => hearlier c' (by simp [hc']))]
      exact noiseCall_param keys sig finish disk c.1 c.2 m k (hnot k hk) (hearlier c (by simp) k hk)
  rw [noiseCall_given _ _ _ _ _ _ _ h, noiseCall_given _ _ _ _ _ _ _ h, noiseLoad_congr disk x _ _ hp]

/-- **C178** for the full-reference metrics and the Q-measure: no call has an influence on later ones. -/
theorem C178_full {S I J K : Type} (load : Params → I → Py J) (compute : Params → K → J → Py S) (m : MetricObj S)
    (earlier : List (I × K)) (x : I) (kw : K) :
    (fullCall load compute x kw (fullAfter load compute m earlier)).2 = (fullCall load compute x kw m).2 ∧
    ∀ v, (fullCall load compute x kw m).2 = .ok v → (fullCall load compute x kw (fullAfter load compute m earlier)).1.score = .num v := by
  have hp : (fullAfter load compute m earlier).params = m.params := by
    unfold fullAfter
    induction earlier generalizing m with
    | nil => rfl
    | cons c cs ih =>
      rw [List.foldl_cons, ih]
      unfold fullCall scoreCall
      cases load m.params c.1 with
      | error e => rfl
      | ok j =>
        simp only
        cases compute m.params c.2 j <;> rfl
  have e : (fullCall load compute x kw (fullAfter load compute m earlier)).2 = (fullCall load compute x kw m).2 := by
    unfold fullCall scoreCall
    rw [hp]
    cases load m.params x with
    | error e => rfl
    | ok j =>
      simp only
      cases compute m.params kw j <;> rfl
  refine ⟨e, fun v hv => ?_⟩
  rw [← e] at hv
  unfold fullCall scoreCall at hv ⊢
  split at hv
  · cases hv
  · split at hv
    · cases hv
    · cases hv; rfl

/-- Loading with and without a region. -/
theorem noiseLoad_roi (disk : Txt → Py (Image Rat)) (x : Input) (p q : Dict NoiseVal) (a : Image Rat) (b : NDArray Rat) (r : Roi)
    (hn : q "normalize" = p "normalize") (hd : q "data_range" = p "data_range") (hp : p "roi" = some .none) (hq : q "roi" = some (.roi r))
    (h : noiseLoad disk x p = .ok a) (hb : (cropImage a.arr r.x r.y r.z).val = .ok b) : noiseLoad disk x q = .ok ⟨a.dtype, b⟩ := by
  have hargs : loadArgsOf q = { loadArgsOf p with roi := some r } := by
    unfold loadArgsOf
    rw [hn, hd, hq]
  have hroi : (loadArgsOf p).roi = none := by
    unfold loadArgsOf
    rw [hp]
  unfold noiseLoad at h ⊢
  rw [hargs]
  by_cases hg : (loadArgsOf p).normalize = true ∧ (loadArgsOf p).dataRange = none
  · unfold loadData at h
    rw [if_neg (by simp [loadArgsOf]), if_pos hg] at h
    cases h
  rw [loadData_val disk x _ rfl hg] at h
  rw [loadData_val disk x { loadArgsOf p with roi := some r } rfl hg]
  cases hx : (loadBody disk x (loadArgsOf p)).val with
  | error e => rw [hx] at h; cases h
  | ok l =>
    rw [hx] at h
    cases l with
    | list a' => cases h
    | single a' =>
      cases h
      unfold loadBody at hx
      rw [PyW.bind_val_ok_iff] at hx
      obtain ⟨⟨isList, img⟩, hsrc, hx⟩ := hx
      simp only at hx
      rw [PyW.bind_val_ok_iff] at hx
      obtain ⟨_, hnd, hx⟩ := hx
      rw [PyW.bind_val_ok_iff] at hx
      obtain ⟨c, hc, hx⟩ := hx
      rw [PyW.bind_val_ok_iff] at hx
      obtain ⟨d, hdd, hx⟩ := hx
      have hcd : d = c := by
        unfold cropStep at hdd
        rw [hroi] at hdd
        cases hdd; rfl
      subst hcd
      have hl : isList = false ∧ d = a := by
        cases isList with
        | false => cases hx; exact ⟨rfl, rfl⟩
        | true => cases hx
      obtain ⟨rfl, rfl⟩ := hl
      have : (loadBody disk x { loadArgsOf p with roi := some r }).val = .ok (.single ⟨d.dtype, b⟩) := by
        unfold loadBody
        rw [PyW.bind_val_ok hsrc]
        simp only
        rw [PyW.bind_val_ok hnd]
        have hc' : (normalizeStep { loadArgsOf p with roi := some r } img).val = .ok d := hc
        rw [PyW.bind_val_ok hc']
        have hcr : (cropStep { loadArgsOf p with roi := some r } d).val = .ok ⟨d.dtype, b⟩ := by
          unfold cropStep
          simp only
          rw [PyW.bind_val_ok hb]
          rfl
        rw [PyW.bind_val_ok hcr]
        rfl
      rw [this]

/-- Loading an array without normalization. -/
theorem noiseLoad_array (disk : Txt → Py (Image Rat)) (a c : Image Rat) (q : Dict NoiseVal) (hn : q "normalize" = none)
    (hnd : a.arr.shape.length = 2 ∨ a.arr.shape.length = 3) (hc : (cropStep (loadArgsOf q) a).val = .ok c) :
    noiseLoad disk (.array a) q = .ok c := by
  have h1 : (loadArgsOf q).normalize = false := by
    unfold loadArgsOf
    rw [hn]
  unfold noiseLoad
  rw [loadData_val disk _ _ rfl (by simp [h1])]
  have : (loadBody disk (.array a) (loadArgsOf q)).val = .ok (.single c) := by
    unfold loadBody loadSource
    rw [PyW.bind_val_ok (PyW.pure_val _)]
    simp only
    have hd : (ndimStep a).val = .ok () := by
      unfold ndimStep NDArray.ndim
      rw [if_neg (by omega)]
      rfl
    rw [PyW.bind_val_ok hd]
    have hs : (normalizeStep (loadArgsOf q) a).val = .ok a := by
      unfold normalizeStep
      split
      · rw [if_neg (by simp [h1])]; rfl
      · rfl
    rw [PyW.bind_val_ok hs, PyW.bind_val_ok hc]
    rfl
  rw [this]

/-- Only known keywords. -/
def Spec.KnownNames (sig : Signature) (kw : Dict NoiseVal) : Prop := ∀ k, (kw k).isSome → k ∈ sig.params ++ loadSignature.params

theorem noiseCompute_known {S : Type} (sig : Signature) (finish : Dict NoiseVal → NDArray Rat → Py S) (disk : Txt → Py (Image Rat))
    (kw : Dict NoiseVal) (img b : Image Rat) (h : Spec.KnownNames sig kw) (hb : noiseLoad disk (.array img) kw = .ok b) :
    noiseCompute sig finish disk kw img = finish kw b.arr := by
  unfold noiseCompute
  rw [if_neg (by
    rintro ⟨k, h1, h2⟩
    exact h2 (h k h1)), hb]

/-- **C178, refuted** for keywords that concern the loading: after a call with a region of interest `r` every call of CNR or SNR is
computed on this region, if it passes no region of interest of its own, and also if it passes another one of the same size
(for example, to compare two parts of an image). -/
theorem C178_region_refuted {S : Type} (keys : List String) (sig : Signature)
    (finish : Dict NoiseVal → NDArray Rat → Py S) (disk : Txt → Py (Image Rat)) (m : NoiseObject S) (x : Input)
    (hm : m.params "roi" = some .none) (a : Image Rat) (ha : noiseLoad disk x m.params = .ok a)
    (kw kw' : Dict NoiseVal) (h : ∀ k ∈ keys, (kw k).isSome ∧ (kw' k).isSome) (hk : Spec.KnownNames sig kw) (hk' : Spec.KnownNames sig kw')
    (hn : kw "normalize" = none ∧ kw "data_range" = none) (hn' : kw' "normalize" = none ∧ kw' "data_range" = none)
    (r : Roi) (hr : kw "roi" = some (.roi r)) (b : NDArray Rat) (hb : (cropImage a.arr r.x r.y r.z).val = .ok b)
    (hr' : kw' "roi" = none ∨ ∃ r', kw' "roi" = some (.roi r') ∧ Spec.HasSizeOf (some r') b.shape) :
    (noiseCall keys sig finish disk x kw m).2 = finish kw b ∧
    (noiseCall keys sig finish disk x kw' (noiseCall keys sig finish disk x kw m).1).2 = finish kw' b := by
  have hnd := cropImage_ndim _ _ _ _ _ hb
  have hnda : a.arr.shape.length = 2 ∨ a.arr.shape.length = 3 := by
    unfold noiseLoad at ha
    split at ha
    · cases ha
    · rename_i a' hx
      cases ha
      exact loadData_ndim disk _ _ _ hx
    · cases ha
  have first : (noiseCall keys sig finish disk x kw m).2 = finish kw b := by
    rw [noiseCall_given _ _ _ _ _ _ _ (fun k hk => (h k hk).1), ha]
    refine noiseCompute_known sig finish disk kw a ⟨a.dtype, b⟩ hk (noiseLoad_array disk a _ kw hn.1 hnda ?_)
    unfold cropStep
    have : (loadArgsOf kw).roi = some r := by unfold loadArgsOf; rw [hr]
    rw [this]
    simp only
    rw [PyW.bind_val_ok hb]
    rfl
  refine ⟨first, ?_⟩
  have hp : (noiseCall keys sig finish disk x kw m).1.params = m.params.update kw := by
    unfold noiseCall
    rw [ha]
    simp only
    rw [regionKwargs_given keys m.params kw (fun k hk => (h k hk).1)]
    simp only
    cases noiseCompute sig finish disk kw a <;> rfl
  have hload : noiseLoad disk x (noiseCall keys sig finish disk x kw m).1.params = .ok ⟨a.dtype, b⟩ := by
    rw [hp]
    refine noiseLoad_roi disk x m.params _ a b r ?_ ?_ hm ?_ ha hb
    · simp [Dict.update, hn.1]
    · simp [Dict.update, hn.2]
    · simp [Dict.update, hr]
  rw [noiseCall_given _ _ _ _ _ _ _ (fun k hk => (h k hk).2), hload]
  refine noiseCompute_known sig finish disk kw' ⟨a.dtype, b⟩ ⟨a.dtype, b⟩ hk' (noiseLoad_array disk _ _ kw' hn'.1 hnd ?_)
  apply cropStep_again
  rcases hr' with hr' | ⟨r', hr', hs⟩
  · have : (loadArgsOf kw').roi = none := by unfold loadArgsOf; rw [hr']
    rw [this]
    trivial
  · have : (loadArgsOf kw').roi = some r' := by unfold loadArgsOf; rw [hr']
    rw [this]
    exact hs

/-- Gray values that grow downwards in the right half of the image, a black left half. -/
def halves : Image Rat := ⟨.f64, ⟨[6, 8], fun i => if i.getD 1 0 < 4 then 0 else i.getD 0 0⟩⟩

/-- The keywords of a call with the region of interest `r`. -/
def partCall (r : Roi) : Dict NoiseVal := fun k =>
  if k = "signal_center" then some (.centre [.int 3, .int 3]) else if k = "background_center" then some (.centre [.int 1, .int 1])
  else if k = "radius" then some (.num (.int 1)) else if k = "roi" then some (.roi r) else none

def leftPart : Roi := ⟨(0, 4), (0, 4), none⟩
def rightPart : Roi := ⟨(0, 4), (4, 8), none⟩

theorem partCall_given (r : Roi) : ∀ k ∈ cnrKeys, (partCall r k).isSome := by
  intro k hk
  simp only [cnrKeys, List.mem_cons, List.not_mem_nil, or_false] at hk
  rcases hk with rfl | rfl | rfl <;> rfl

theorem partCall_known (r : Roi) : Spec.KnownNames cnrSignature (partCall r) := by
  intro k hk
  unfold partCall at hk
  split at hk
  · subst_vars; decide
  · split at hk
    · subst_vars; decide
    · split at hk
      · subst_vars; decide
      · split at hk
        · subst_vars; decide
        · simp at hk

theorem left_cnr : cnr (sliceArray halves.arr [(0, 4), (0, 4)]) (cnrArgsOf (partCall rightPart)) = .ok 0 :=
  C54_zero _ _ ⟨sliceArray halves.arr [(0, 4), (0, 4)], boxMask [4, 4] [3, 3] 1⟩
    ⟨sliceArray halves.arr [(0, 4), (0, 4)], boxMask [4, 4] [1, 1] 1⟩ rfl (by decide +kernel) (by decide +kernel)
    (.inl ⟨0, by decide +kernel⟩)

theorem right_cnr : cnr (sliceArray halves.arr [(0, 4), (4, 8)]) (cnrArgsOf (partCall rightPart)) = .ok 4 := by
  have hsig : (⟨sliceArray halves.arr [(0, 4), (4, 8)], boxMask [4, 4] [3, 3] 1⟩ : Region Rat).values = [2, 2, 3, 3] := by decide +kernel
  have hbg : (⟨sliceArray halves.arr [(0, 4), (4, 8)], boxMask [4, 4] [1, 1] 1⟩ : Region Rat).values = [0, 0, 1, 1] := by decide +kernel
  rw [C54_value _ _ ⟨sliceArray halves.arr [(0, 4), (4, 8)], boxMask [4, 4] [3, 3] 1⟩
    ⟨sliceArray halves.arr [(0, 4), (4, 8)], boxMask [4, 4] [1, 1] 1⟩ rfl (by
    rw [hbg]
    rintro ⟨v, h⟩
    have h0 := h 0 (by simp)
    have h1 := h 1 (by simp)
    rw [← h0] at h1
    norm_num at h1) (by rw [hsig]; simp), hsig, hbg]
  norm_num
  rw [show (4 : ℝ) = 2 ^ 2 by norm_num, Real.sqrt_sq (by norm_num)]
  norm_num

theorem halves_loaded (disk : Txt → Py (Image Rat)) : noiseLoad disk (.array halves) (noiseInit (S := ℝ)).params = .ok halves := rfl

/-- **C178, refuted**, with numbers: the CNR of the right part of an image is 4, but 0 if the left part (of the same size) has
been scored before with the same object. -/
theorem C178_parts_refuted (disk : Txt → Py (Image Rat)) :
    (cnrCall disk (.array halves) (partCall rightPart) noiseInit).2 = .ok 4 ∧
    (cnrCall disk (.array halves) (partCall rightPart) (cnrCall disk (.array halves) (partCall leftPart) noiseInit).1).2 = .ok 0 := by
  constructor
  · rw [← right_cnr]
    exact (C178_region_refuted cnrKeys cnrSignature _ disk noiseInit _ rfl halves (halves_loaded disk) (partCall rightPart) (partCall rightPart)
      (fun k hk => ⟨partCall_given _ k hk, partCall_given _ k hk⟩) (partCall_known _) (partCall_known _) ⟨rfl, rfl⟩ ⟨rfl, rfl⟩ rightPart rfl
      (sliceArray halves.arr [(0, 4), (4, 8)]) rfl (.inr ⟨rightPart, rfl, .inl rfl⟩)).1
  · rw [← left_cnr]
    exact (C178_region_refuted cnrKeys cnrSignature _ disk noiseInit _ rfl halves (halves_loaded disk) (partCall leftPart) (partCall rightPart)
      (fun k hk => ⟨partCall_given _ k hk, partCall_given _ k hk⟩) (partCall_known _) (partCall_known _) ⟨rfl, rfl⟩ ⟨rfl, rfl⟩ leftPart rfl
      (sliceArray halves.arr [(0, 4), (0, 4)]) rfl (.inr ⟨rightPart, rfl, .inl rfl⟩)).2

/-- Two calls with the same region of interest give the same score (with a warning). -/
example (disk : Txt → Py (Image Rat)) :
    (cnrCall disk (.array halves) (partCall rightPart) (cnrCall disk (.array halves) (partCall rightPart) noiseInit).1).2 = .ok 4 := by
  rw [← right_cnr]
  exact (C178_region_refuted cnrKeys cnrSignature _ disk noiseInit _ rfl halves (halves_loaded disk) (partCall rightPart) (partCall rightPart)
      (fun k hk => ⟨partCall_given _ k hk, partCall_given _ k hk⟩) (partCall_known _) (partCall_known _) ⟨rfl, rfl⟩ ⟨rfl, rfl⟩ rightPart rfl
      (sliceArray halves.arr [(0, 4), (4, 8)]) rfl (.inr ⟨rightPart, rfl, .inl rfl⟩)).2

/-- An earlier call without keywords for loading has no influence, here one that fails as it passes no regions. -/
example (disk : Txt → Py (Image Rat)) :
    (cnrCall disk (.array halves) (partCall rightPart) (noiseAfter cnrKeys cnrSignature (fun kw a => cnr a (cnrArgsOf kw)) disk noiseInit
      [(.array halves, fun _ => none), (.other, fun _ => none)])).2 = .ok 4 := by
  refine (C178_partial cnrKeys (.inl rfl) cnrSignature _ disk noiseInit _ ?_ _ _ (partCall_given _)).trans (C178_parts_refuted disk).1
  intro c hc k hk
  simp only [List.mem_cons, List.not_mem_nil, or_false] at hc
  rcases hc with rfl | rfl <;> rfl

/-- A failing call of a metric that compares numbers, followed by a successful one. -/
example : (fullCall (fun _ (x : Nat) => if x = 0 then .error .indexError else .ok x) (fun _ (k : Nat) j => .ok (j + k)) 2 3
    (fullAfter (fun _ (x : Nat) => if x = 0 then .error .indexError else .ok x) (fun _ (k : Nat) j => .ok (j + k)) ⟨"RMSE", [], .unset⟩
      [(0, 1), (5, 1)])).1.score = .num 5 :=
  (C178_full (fun _ (x : Nat) => if x = 0 then .error .indexError else .ok x) (fun _ (k : Nat) j => .ok (j + k)) ⟨"RMSE", [], .unset⟩
    [(0, 1), (5, 1)] 2 3).2 5 rfl

end Viqa
