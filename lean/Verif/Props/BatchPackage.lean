import Verif.Props.Batch
import Verif.Props.Dispatch
import Verif.Model.Noise
import Mathlib.Tactic.NormNum

/-!
Batches with the loading functions and metrics of the package: C63 and C66 continued, C95 and C96.
-/

namespace Viqa

open Spec

variable {S : Type} (resize : NDArray Rat → List Nat → NDArray Rat) (cast : DType → Rat → Rat)
  (disk : Txt → Py (Image Rat)) (args : LoadArgs)

/-! ### Preparation of a pair -/

/-- Data type after normalisation to `data_range`. -/
def loadedType (args : LoadArgs) (dt : DType) : DType :=
  match args.dataRange with
  | some r =>
    if args.normalize ∧ r ≠ 0 then
      if alreadyNormalized args.ident dt (0, r) then dt
      else if r = 2 ^ 8 - 1 then .u8 else if r = 2 ^ 16 - 1 then .u16 else .f32
    else dt
  | none => dt

theorem castOutput_type (r : Int) (a : NDArray Rat) (b : Image Rat) (h : castOutput (0, r) a = .ok b) :
    b.arr.shape = a.shape ∧ b.dtype = if r = 2 ^ 8 - 1 then .u8 else if r = 2 ^ 16 - 1 then .u16 else .f32 := by
  unfold castOutput at h
  simp only [and_true] at h
  by_cases h1 : r = 2 ^ 8 - 1
  · rw [if_pos h1] at h ⊢
    cases h
    exact ⟨rfl, rfl⟩
  · rw [if_neg h1] at h ⊢
    by_cases h2 : r = 2 ^ 16 - 1
    · rw [if_pos h2] at h ⊢
      cases h
      exact ⟨rfl, rfl⟩
    · rw [if_neg h2] at h ⊢
      by_cases h3 : r = 1
      · rw [if_pos h3] at h
        cases h
        exact ⟨rfl, rfl⟩
      · rw [if_neg h3] at h; cases h

theorem rescale_shape (a b : NDArray Rat) (t : Option DType) (x y : Rat) (out : Int × Int)
    (h : rescale a t x y out = .ok b) : b.shape = a.shape := by
  unfold rescale at h
  simp only at h
  by_cases hy : y = 0
  · rw [if_pos hy] at h
    unfold nanOutput at h
    split at h <;> cases h
  · rw [if_neg hy] at h
    cases h
    rfl

theorem normalizeStep_type (args : LoadArgs) (img b : Image Rat) (h : (normalizeStep args img).val = .ok b) :
    b.arr.shape = img.arr.shape ∧ b.dtype = loadedType args img.dtype := by
  unfold normalizeStep at h
  unfold loadedType
  cases hd : args.dataRange with
  | none => rw [hd] at h; cases h; exact ⟨rfl, rfl⟩
  | some r =>
    rw [hd] at h
    simp only at h ⊢
    by_cases hn : args.normalize = true ∧ r ≠ 0
    · rw [if_pos hn] at h ⊢
      unfold normalizeData at h
      by_cases h1 : ¬ (img.dtype.isInteger || img.dtype.isFloating) = true
      · rw [if_pos h1] at h; cases h
      · rw [if_neg h1] at h
        by_cases h2 : alreadyNormalized args.ident img.dtype (0, r) = true
        · rw [if_pos h2] at h ⊢
          rw [PyW.bind_val_ok (PyW.warn_val _)] at h
          cases h
          exact ⟨rfl, rfl⟩
        · rw [if_neg h2] at h ⊢
          rw [PyW.lift_val] at h
          simp only [bind, Except.bind, if_pos] at h
          split at h
          · cases h
          · split at h
            · cases h
            · split at h
              · unfold nanOutput at h
                split at h <;> cases h
              · split at h
                · cases h
                · rename_i c hc
                  obtain ⟨e1, e2⟩ := castOutput_type r c b h
                  exact ⟨e1.trans (rescale_shape _ _ _ _ _ _ hc), e2⟩
    · rw [if_neg hn] at h ⊢
      cases h
      exact ⟨rfl, rfl⟩

theorem loadData_array_single (img : Image Rat) (l : Loaded) (h : (loadData disk (.array img) args).val = .ok l) :
    ∃ b, l = .single b := by
  have hb : (loadBody disk (.array img) args).val = .ok l := by
    unfold loadData at h
    split at h
    · cases h
    · split at h
      · cases h
      · split at h
        · rwa [PyW.bind_val_ok (PyW.warn_val _)] at h
        · exact h
  unfold loadBody loadSource at hb
  rw [PyW.bind_val_ok (PyW.pure_val _)] at hb
  simp only at hb
  rw [PyW.bind_val_ok_iff] at hb
  obtain ⟨_, -, hb⟩ := hb
  rw [PyW.bind_val_ok_iff] at hb
  obtain ⟨_, -, hb⟩ := hb
  rw [PyW.bind_val_ok_iff] at hb
  obtain ⟨b, -, hb⟩ := hb
  cases hb
  exact ⟨b, rfl⟩

theorem loadData_array_type (hroi : args.roi = none) (img b : Image Rat)
    (h : (loadData disk (.array img) args).val = .ok (.single b)) :
    b.arr.shape = img.arr.shape ∧ b.dtype = loadedType args img.dtype := by
  have hb : (loadBody disk (.array img) args).val = .ok (.single b) := by
    unfold loadData at h
    split at h
    · cases h
    · split at h
      · cases h
      · split at h
        · rwa [PyW.bind_val_ok (PyW.warn_val _)] at h
        · exact h
  unfold loadBody loadSource at hb
  rw [PyW.bind_val_ok (PyW.pure_val _)] at hb
  simp only at hb
  rw [PyW.bind_val_ok_iff] at hb
  obtain ⟨_, -, hb⟩ := hb
  rw [PyW.bind_val_ok_iff] at hb
  obtain ⟨c, hc, hb⟩ := hb
  rw [PyW.bind_val_ok_iff] at hb
  obtain ⟨d, hd, hb⟩ := hb
  unfold cropStep at hd
  rw [hroi] at hd
  cases hd
  cases hb
  exact normalizeStep_type args img b hc

/-- What becomes of one image of a pair. -/
def prepOne (disk : Txt → Py (Image Rat)) (args : LoadArgs) (img : Image Rat) (roi : Option Roi) :
    PyW (Image Rat) := do
  let a ← (match roi with
    | none => pure img
    | some q => do
      let ar ← cropImage img.arr q.x q.y q.z
      pure (⟨img.dtype, ar⟩ : Image Rat))
  let l ← loadData disk (.array a) args
  match l with
  | .single b => pure (if b.arr.lastDim = 3 then toGrayscale b else b)
  | .list b => pure b

theorem checkImgs_each (r m a b : Image Rat)
    (h : (checkImgs disk (.array r) (.array m) args false).val = .ok (a, b)) :
    (∃ l, (loadData disk (.array r) args).val = .ok (.single l) ∧
      a = if l.arr.lastDim = 3 then toGrayscale l else l) ∧
    (∃ l, (loadData disk (.array m) args).val = .ok (.single l) ∧
      b = if l.arr.lastDim = 3 then toGrayscale l else l) := by
  unfold checkImgs at h
  rw [PyW.bind_val_ok_iff] at h
  obtain ⟨lr, hr, h⟩ := h
  rw [PyW.bind_val_ok_iff] at h
  obtain ⟨lm, hm, h⟩ := h
  obtain ⟨x, rfl⟩ := loadData_array_single disk args r lr hr
  obtain ⟨y, rfl⟩ := loadData_array_single disk args m lm hm
  simp only at h
  by_cases h1 : x.dtype ≠ y.dtype
  · rw [if_pos h1] at h; cases h
  · rw [if_neg h1] at h
    by_cases h2 : x.arr.shape ≠ y.arr.shape
    · rw [if_pos h2] at h; cases h
    · rw [if_neg h2] at h
      simp only [ne_eq, Decidable.not_not] at h2
      have hl : y.arr.lastDim = x.arr.lastDim := by unfold NDArray.lastDim; rw [h2]
      by_cases h3 : x.arr.lastDim = 3
      · rw [if_pos ⟨trivial, h3⟩, PyW.bind_val_ok (PyW.warn_val _)] at h
        cases h
        exact ⟨⟨x, hr, by rw [if_pos h3]⟩, ⟨y, hm, by rw [if_pos (hl.trans h3)]⟩⟩
      · rw [if_neg (by simp [h3]), if_neg (by simp)] at h
        cases h
        exact ⟨⟨a, hr, by rw [if_neg h3]⟩, ⟨b, hm, by rw [if_neg (fun e => h3 (hl.symm.trans e))]⟩⟩

theorem prepImages_each (r m a b : Image Rat) (roi : Option Roi)
    (h : (prepImages resize cast disk args r m roi).val = .ok (a, b)) :
    ∃ lr lm, (loadData disk (.array r) args).val = .ok (.single lr) ∧
      (loadData disk (.array m) args).val = .ok (.single lm) ∧
      (prepOne disk args lr roi).val = .ok a ∧
      (prepOne disk args (resizeImage resize cast lr lm) roi).val = .ok b := by
  unfold prepImages at h
  rw [PyW.bind_val_ok_iff] at h
  obtain ⟨lr, hr, h⟩ := h
  rw [PyW.bind_val_ok_iff] at h
  obtain ⟨lm, hm, h⟩ := h
  obtain ⟨x, rfl⟩ := loadData_array_single disk args r lr hr
  obtain ⟨y, rfl⟩ := loadData_array_single disk args m lm hm
  refine ⟨x, y, hr, hm, ?_⟩
  simp only at h
  cases roi with
  | none =>
    obtain ⟨⟨p, hp1, hp2⟩, ⟨q, hq1, hq2⟩⟩ := checkImgs_each disk args _ _ _ _ h
    constructor
    · unfold prepOne
      rw [PyW.bind_val_ok (PyW.pure_val _), PyW.bind_val_ok hp1, hp2]
      rfl
    · unfold prepOne
      rw [PyW.bind_val_ok (PyW.pure_val _), PyW.bind_val_ok hq1, hq2]
      rfl
  | some w =>
    simp only at h
    rw [PyW.bind_val_ok_iff] at h
    obtain ⟨ar, har, h⟩ := h
    rw [PyW.bind_val_ok_iff] at h
    obtain ⟨am, ham, h⟩ := h
    obtain ⟨⟨p, hp1, hp2⟩, ⟨q, hq1, hq2⟩⟩ := checkImgs_each disk args _ _ _ _ h
    constructor
    · unfold prepOne
      rw [PyW.bind_val_ok (a := ⟨x.dtype, ar⟩) (by
        simp only
        rw [PyW.bind_val_ok har]; rfl), PyW.bind_val_ok hp1, hp2]
      rfl
    · unfold prepOne
      rw [PyW.bind_val_ok (a := ⟨(resizeImage resize cast x y).dtype, am⟩) (by
        simp only
        rw [PyW.bind_val_ok ham]; rfl), PyW.bind_val_ok hq1, hq2]
      rfl

theorem resizeImage_congr (r r' m : Image Rat) (hs : r.arr.shape = r'.arr.shape) (hd : r.dtype = r'.dtype) :
    resizeImage resize cast r m = resizeImage resize cast r' m := by
  unfold resizeImage
  rw [hs, hd]

/-- **C63, partial**, with the loading functions of the package (`roi` is never among the arguments for
loading): the batch gives the results of the pairs alone if result names are distinct, consecutive pairs
sharing an image have the same region, and those sharing the modified image have references of equal
shape and data type. Missing: other regions or shapes, see `C63_region_refuted` and `C63_shape_refuted`. -/
theorem C63_package_partial (hload : args.roi = none) (metrics : List (BMetric (Image Rat) S)) (g : Option Roi)
    (rois : Option (List (Option Roi))) (hnd : (metrics.flatMap metricKeys).Nodup)
    (work : List (Pair × Option Roi)) (hroi : ∀ (i : Nat) x, work[i]? = some x → pairRoi g rois i = .ok x.2)
    (hchain : work.IsChain (fun x y =>
      (x.1.reference = y.1.reference ∨ x.1.modified = y.1.modified → x.2 = y.2) ∧
      (x.1.modified = y.1.modified → ∀ r r', loadImage disk args x.1.reference = .ok r →
        loadImage disk args y.1.reference = .ok r' → r.arr.shape = r'.arr.shape ∧ r.dtype = r'.dtype)))
    (results : ODict Txt (ODict Key S)) :
    ((∃ st, batchCalculate (packageEnv resize cast disk args) metrics g rois (work.map Prod.fst) results = .ok st) ↔
      ∀ x ∈ work, ∃ d, soloResult (packageEnv resize cast disk args) metrics x.1 x.2 = .ok d) ∧
    ∀ st, batchCalculate (packageEnv resize cast disk args) metrics g rois (work.map Prod.fst) results = .ok st →
      ∀ (i : Nat) x, work[i]? = some x →
        ODict.get st.results (decimal i) = soloResult (packageEnv resize cast disk args) metrics x.1 x.2 := by
  apply C63_individual_partial _ _ _ _ hnd work hroi
  refine hchain.imp ?_
  intro x y hxy
  refine ⟨fun h => hxy.1 (Or.inl (by rw [h])), ?_, ?_⟩
  · intro h r m m' u v _ _ _ hu hv
    obtain ⟨lr, lm, h1, h2, h3, -⟩ := prepImages_each resize cast disk args r m u.1 u.2 x.2 hu
    obtain ⟨lr', lm', h1', h2', h3', -⟩ := prepImages_each resize cast disk args r m' v.1 v.2 y.2 hv
    rw [h1] at h1'
    cases h1'
    rw [hxy.1 (Or.inl h), h3'] at h3
    exact (Except.ok.inj h3).symm
  · intro h r r' m u v hr hr' _ hu hv
    obtain ⟨lr, lm, h1, h2, -, h3⟩ := prepImages_each resize cast disk args r m u.1 u.2 x.2 hu
    obtain ⟨lr', lm', h1', h2', -, h3'⟩ := prepImages_each resize cast disk args r' m v.1 v.2 y.2 hv
    rw [h2] at h2'
    cases h2'
    have ht := hxy.2 h r r' hr hr'
    have e1 := loadData_array_type disk args hload r lr h1
    have e2 := loadData_array_type disk args hload r' lr' h1'
    rw [resizeImage_congr resize cast lr lr' lm (by rw [e1.1, e2.1, ht.1]) (by rw [e1.2, e2.2, ht.2]),
      hxy.1 (Or.inr h), h3'] at h3
    exact (Except.ok.inj h3).symm

/-! ### Refutations of C63 -/

namespace BatchWitness

/-- Sum of all pixels, as a no-reference metric. -/
def total : BMetric (Image Rat) Rat := ⟨some "T", .inl (fun img => .ok (.num (img.arr.toList.foldl (· + ·) 0)))⟩

/-- Files: `b` has another shape. -/
def files : Txt → Py (Image Rat)
  | ['a'] => .ok ⟨.f64, ⟨[2, 4], fun i => ((i.getD 1 0 : Nat) : Rat)⟩⟩
  | ['b'] => .ok ⟨.f64, ⟨[2, 2], fun _ => 1⟩⟩
  | ['m'] => .ok ⟨.f64, ⟨[2, 4], fun _ => 1⟩⟩
  | ['n'] => .ok ⟨.f64, ⟨[2, 4], fun _ => 1⟩⟩
  | _ => .error .fileNotFound

/-- A stand-in for `skimage.transform.resize`: nearest pixel. -/
def nearest (a : NDArray Rat) (sh : List Nat) : NDArray Rat := ⟨sh, fun i => a.get i⟩

def env : BatchEnv (Image Rat) (Image Rat) Roi := packageEnv nearest (fun _ v => v) files {}

def left : Option Roi := some ⟨(0, 1), (0, 2), none⟩
def right : Option Roi := some ⟨(0, 1), (2, 4), none⟩

def pairsSame : List Pair := [⟨['a'], ['m']⟩, ⟨['a'], ['m']⟩]
def pairsShape : List Pair := [⟨['a'], ['m']⟩, ⟨['b'], ['m']⟩]

/-- Values of a result. -/
def values (x : Py (ODict Key Rat)) : Option (List Rat) := match x with
  | .ok d => some (d.map Prod.snd)
  | .error _ => none

/-- Values of the result of a pair in a batch. -/
def valuesAt (x : Py (BatchState (Image Rat) Rat)) (i : Nat) : Option (List Rat) := match x with
  | .ok st => values (ODict.get st.results (decimal i))
  | .error _ => none

theorem region_batch : valuesAt (batchCalculate env [total] none (some [left, right]) pairsSame []) 1 = some [1, 2] := by
  decide +kernel

theorem region_solo : values (soloResult env [total] ⟨['a'], ['m']⟩ right) = some [5, 2] := by
  decide +kernel

theorem shape_batch : valuesAt (batchCalculate env [total] none none pairsShape []) 1 = some [4, 8] := by
  decide +kernel

theorem shape_solo : values (soloResult env [total] ⟨['b'], ['m']⟩ none) = some [4, 4] := by
  decide +kernel

end BatchWitness

/-- The claim: results of a batch are those of the pairs alone with their regions. -/
def BatchIndividual (env : BatchEnv (Image Rat) (Image Rat) Roi) : Prop :=
  ∀ (metrics : List (BMetric (Image Rat) Rat)), (metrics.flatMap metricKeys).Nodup →
  ∀ (g : Option Roi) (rois : Option (List (Option Roi))) (pairs : List Pair) st,
    batchCalculate env metrics g rois pairs [] = .ok st →
    ∀ (i : Nat) p roi, pairs[i]? = some p → pairRoi g rois i = .ok roi →
      ODict.get st.results (decimal i) = soloResult env metrics p roi

theorem BatchWitness.contradiction (metrics : List (BMetric (Image Rat) Rat))
    (hnd : (metrics.flatMap metricKeys).Nodup) (rois : Option (List (Option Roi)))
    (pairs : List Pair) (i : Nat) (p : Pair) (roi : Option Roi) (u v : List Rat) (hp : pairs[i]? = some p)
    (hr : pairRoi none rois i = .ok roi) (h1 : valuesAt (batchCalculate env metrics none rois pairs []) i = some u)
    (h2 : values (soloResult env metrics p roi) = some v) (hne : u ≠ v) : ¬ BatchIndividual env := by
  intro h
  cases hb : batchCalculate env metrics none rois pairs [] with
  | error e => rw [hb] at h1; cases h1
  | ok st =>
    have := h metrics hnd none rois pairs st hb i p roi hp hr
    rw [hb] at h1
    simp only [valuesAt] at h1
    rw [this, h2] at h1
    exact hne (Option.some.inj h1).symm

/-- **C63, refuted** for regions: an identical pair with another region, or a pair with the same reference
and another region, keeps the results of the first region. -/
theorem C63_region_refuted : ¬ ∀ resize cast disk args, BatchIndividual (packageEnv resize cast disk args) := by
  intro h
  exact BatchWitness.contradiction [BatchWitness.total] (by decide) (some [BatchWitness.left, BatchWitness.right])
    BatchWitness.pairsSame 1 ⟨['a'], ['m']⟩ BatchWitness.right [1, 2] [5, 2] rfl rfl BatchWitness.region_batch
    BatchWitness.region_solo (by decide) (h _ _ _ _)

/-- The same for a pair that shares only the reference. -/
theorem BatchWitness.reference_batch : valuesAt (batchCalculate env [total] none (some [left, right])
    [⟨['a'], ['m']⟩, ⟨['a'], ['n']⟩] []) 1 = some [1, 2] := by decide +kernel

theorem BatchWitness.reference_solo : values (soloResult env [total] ⟨['a'], ['n']⟩ right) = some [5, 2] := by
  decide +kernel

/-- **C63, refuted** for regions: the second pair shares only the reference with the first. -/
theorem C63_reference_region_refuted :
    ¬ ∀ resize cast disk args, BatchIndividual (packageEnv resize cast disk args) := by
  intro h
  exact BatchWitness.contradiction [BatchWitness.total] (by decide) (some [BatchWitness.left, BatchWitness.right])
    [⟨['a'], ['m']⟩, ⟨['a'], ['n']⟩] 1 ⟨['a'], ['n']⟩ BatchWitness.right [1, 2] [5, 2] rfl rfl
    BatchWitness.reference_batch BatchWitness.reference_solo (by decide) (h _ _ _ _)

/-- **C63, refuted** for shapes: the value of the modified image is kept although it is resized to the
shape of another reference. -/
theorem C63_shape_refuted : ¬ ∀ resize cast disk args, BatchIndividual (packageEnv resize cast disk args) := by
  intro h
  exact BatchWitness.contradiction [BatchWitness.total] (by decide) none
    BatchWitness.pairsShape 1 ⟨['b'], ['m']⟩ none [4, 8] [4, 4] rfl rfl BatchWitness.shape_batch
    BatchWitness.shape_solo (by decide) (h _ _ _ _)

/-! ### C66: metrics that cannot be used -/

/-- SNR in a batch: `_name` is `None` (`snr.py` 104-108 does not set it) and `score` returns a tuple. -/
noncomputable def snrMetric (args : SnrArgs) : BMetric (Image Rat) ℝ :=
  ⟨none, .inl (fun img => match snr img.arr args with
    | .error e => .error e
    | .ok _ => .ok .tuple)⟩

/-- **C66, refuted** for SNR: a list of metrics containing it fails for all images. -/
theorem C66_snr_refuted (args : SnrArgs) (bs : List (BMetric (Image Rat) ℝ)) (h : snrMetric args ∈ bs)
    (r m : Image Rat) (pR pM : Option (ODict Key ℝ)) (acc : ODict Key ℝ) :
    ∃ e, metricLoop r m pR pM bs acc = .error e :=
  metricLoop_nameless r m pR pM bs (snrMetric args) h _ rfl rfl acc

/-- **C66, refuted** for two metrics of one class: only the score of the second is kept. -/
theorem C66_same_name_refuted (n : String) (f g : Image Rat → Image Rat → Py (Score S)) (r m : Image Rat) (u v : S)
    (hf : f r m = .ok (.num u)) (hg : g r m = .ok (.num v)) :
    metricLoop r m none none [⟨some n, .inr f⟩, ⟨some n, .inr g⟩] [] = .ok [(some n, v)] := by
  simp [metricLoop, metricStep, hf, hg, bind, Except.bind, Score.toFloat, ODict.set]

example : metricLoop (S := Rat) () () none none [⟨some "PSNR", .inr (fun _ _ => .ok (.num 1))⟩,
    ⟨some "PSNR", .inr (fun _ _ => .ok (.num 2))⟩] [] = .ok [(some "PSNR", 2)] := by rfl

/-- **C66, refuted** for chromatic metrics: colour images arrive as gray images, which are rejected. -/
theorem C66_colour_refuted (r m : Image Rat) (h w : Nat) (hw : w ≠ 3) (hr : r.arr.shape = [h, w, 3])
    (hm : m.arr.shape = [h, w, 3]) (hd : r.dtype = m.dtype) :
    ∃ a b, (packageEnv resize cast disk {}).prep r m none = .ok (a, b) ∧
      (checkImgs disk (.array a) (.array b) {} true).val = .error (.valueError "Images are not chromatic.") := by
  have hl : ∀ c : Image Rat, c.arr.shape = [h, w, 3] → (loadData disk (.array c) {}).val = .ok (.single c) := by
    intro c hc
    have hnd : ndimStep c = pure () := by
      unfold ndimStep; rw [if_neg (by simp [NDArray.ndim, hc])]
    unfold loadData
    rw [if_neg (by simp), if_neg (by simp), if_neg (by simp)]
    simp [loadBody, loadSource, PyW.bind_val, hnd, normalizeStep, cropStep]
  refine ⟨toGrayscale r, toGrayscale m, ?_, ?_⟩
  · show (prepImages resize cast disk {} r m none).val = _
    unfold prepImages
    rw [PyW.bind_val_ok (hl r hr), PyW.bind_val_ok (hl m hm)]
    simp only
    have : resizeImage resize cast r m = m := by
      unfold resizeImage; rw [if_neg (by simp [hr, hm])]
    rw [this]
    rw [checkImgs_arrays disk r m false hd (by rw [hr, hm]) (by simp [NDArray.ndim, hr]),
      if_pos ⟨rfl, by simp [NDArray.lastDim, hr]⟩]
  · rw [checkImgs_arrays disk _ _ true (by simp [toGrayscale, hd]) (by simp [toGrayscale, hr, hm])
      (by simp [NDArray.ndim, toGrayscale, hr]), if_neg (by simp),
      if_pos ⟨rfl, by simp [NDArray.lastDim, toGrayscale, hr, hw]⟩]

/-! ### C95 -/

/-- **C95, partial.** Without an empty list of regions, a batch that can be created finds a region (or none)
for every pair. Missing: an empty list, see `C95_empty_refuted`. -/
theorem C95_region_found_partial {R : Type} (metrics : List MetricArg) (params : List ParamArg) (n : Nat)
    (g : Option R) (rois : Option (List (Option R))) (hne : rois ≠ some [])
    (h : batchInit metrics params (.ok n) (rois.map List.length) = .ok ()) (i : Nat) (hi : i < n) :
    ∃ roi, pairRoi g rois i = .ok roi := by
  obtain ⟨-, k, hk, hlen⟩ := ((C61_created_iff metrics params).2 (.ok n) (rois.map List.length)).1 h
  cases hk
  unfold pairRoi
  cases g with
  | some r => exact ⟨_, rfl⟩
  | none =>
    cases rois with
    | none => exact ⟨_, rfl⟩
    | some l =>
      simp only
      rcases hlen l.length rfl with h0 | h0
      · exact absurd (by rw [List.length_eq_zero_iff.1 h0]) hne
      · rw [List.getElem?_eq_getElem (by omega)]
        exact ⟨_, rfl⟩

/-- **C95, refuted** for an empty list of regions: the batch is created, and the calculation fails for every
list of pairs whose first images can be loaded. -/
theorem C95_empty_refuted {L I R : Type} (env : BatchEnv L I R) (bs : List (BMetric I S)) (metrics : List MetricArg)
    (params : List ParamArg) (p : Pair) (ps : List Pair) (r m : L) (results : ODict Txt (ODict Key S))
    (hl : env.load p.reference = .ok r) (hm : env.load p.modified = .ok m)
    (hok : multipleInit metrics params = .ok ()) :
    batchInit metrics params (.ok (ps.length + 1)) (some 0) = .ok () ∧
    ∃ e, batchCalculate env bs none (some []) (p :: ps) results = .error e ∧ e = .indexError := by
  constructor
  · simp [batchInit, hok]
  · simp [batchCalculate, batchLoop, batchStep, loadOnce, hl, hm, pairRoi]

/-! ### C96 -/

theorem loadData_plain (hroi : args.roi = none) (hn : args.normalize = false) (img b : Image Rat)
    (h : (loadData disk (.array img) args).val = .ok (.single b)) : b = img := by
  have hb : (loadBody disk (.array img) args).val = .ok (.single b) := by
    unfold loadData at h
    split at h
    · cases h
    · split at h
      · cases h
      · split at h
        · rwa [PyW.bind_val_ok (PyW.warn_val _)] at h
        · exact h
  unfold loadBody loadSource at hb
  rw [PyW.bind_val_ok (PyW.pure_val _)] at hb
  simp only at hb
  rw [PyW.bind_val_ok_iff] at hb
  obtain ⟨_, -, hb⟩ := hb
  rw [PyW.bind_val_ok_iff] at hb
  obtain ⟨c, hc, hb⟩ := hb
  rw [PyW.bind_val_ok_iff] at hb
  obtain ⟨d, hd, hb⟩ := hb
  unfold cropStep at hd
  rw [hroi] at hd
  unfold normalizeStep at hc
  rw [hn] at hc
  cases hd
  cases hb
  split at hc
  · rw [if_neg (by simp)] at hc
    exact (Except.ok.inj hc).symm
  · exact (Except.ok.inj hc).symm

theorem prepOne_plain (hroi : args.roi = none) (hn : args.normalize = false) (img a : Image Rat) (q : Roi)
    (h : (prepOne disk args img (some q)).val = .ok a) :
    ∃ c, (cropImage img.arr q.x q.y q.z).val = .ok c ∧
      a = if c.lastDim = 3 then toGrayscale ⟨img.dtype, c⟩ else ⟨img.dtype, c⟩ := by
  unfold prepOne at h
  rw [PyW.bind_val_ok_iff] at h
  obtain ⟨x, hx, h⟩ := h
  simp only at hx
  rw [PyW.bind_val_ok_iff] at hx
  obtain ⟨c, hc, hx⟩ := hx
  cases hx
  rw [PyW.bind_val_ok_iff] at h
  obtain ⟨l, hl, h⟩ := h
  obtain ⟨b, rfl⟩ := loadData_array_single disk args _ l hl
  have := loadData_plain disk args hroi hn _ _ hl
  subst this
  exact ⟨c, hc, (Except.ok.inj h).symm⟩

/-- **C96, partial.** Without normalisation, every metric of a batch receives the pixels of the images
inside of the region, unchanged, if the region is strictly smaller than the image along every axis and has
not exactly three columns. Missing: normalisation and three columns, see `C96_normalized_refuted` and
`C96_three_columns_refuted`. -/
theorem C96_region_2d_partial (hload : args.roi = none) (hn : args.normalize = false) (r m a b : Image Rat) (n0 n1 : Nat)
    (hr : r.arr.shape = [n0, n1]) (hm : m.arr.shape = [n0, n1]) (q : Roi) (hx : InsideAxis n0 q.x)
    (hy : InsideAxis n1 q.y) (h0 : q.x.2 - q.x.1 < n0) (h1 : q.y.2 - q.y.1 < n1) (h3 : q.y.2 - q.y.1 ≠ 3)
    (h : (packageEnv resize cast disk args).prep r m (some q) = .ok (a, b)) :
    IsRegion2 r.arr a.arr q.x q.y ∧ IsRegion2 m.arr b.arr q.x q.y := by
  obtain ⟨lr, lm, h1', h2', h3', h4'⟩ := prepImages_each resize cast disk args r m a b (some q) h
  have e1 := loadData_plain disk args hload hn _ _ h1'
  have e2 := loadData_plain disk args hload hn _ _ h2'
  subst e1 e2
  have : resizeImage resize cast lr lm = lm := by
    unfold resizeImage; rw [if_neg (by simp [hr, hm])]
  rw [this] at h4'
  have key : ∀ (img c : Image Rat), img.arr.shape = [n0, n1] → (prepOne disk args img (some q)).val = .ok c →
      IsRegion2 img.arr c.arr q.x q.y := by
    intro img c hs hp
    obtain ⟨w, hw1, hw2⟩ := prepOne_plain disk args hload hn img c q hp
    have hreg : IsRegion2 img.arr w q.x q.y := by
      have hlen : ∃ ws, cropImage img.arr q.x q.y q.z = ⟨ws, .ok (sliceArray img.arr [q.x, q.y])⟩ := by
        unfold cropImage
        rw [hs]
        simp only
        rw [if_pos ⟨by unfold Range.len; exact h0, by unfold Range.len; exact h1⟩]
        cases q.z with
        | none => exact ⟨_, rfl⟩
        | some z => exact ⟨_, rfl⟩
      obtain ⟨ws, hws⟩ := hlen
      rw [hws] at hw1
      cases hw1
      exact sliceArray_two img.arr n0 n1 hs q.x q.y hx hy
    have hld : w.lastDim ≠ 3 := by
      unfold NDArray.lastDim
      rw [hreg.1]
      simp only [List.getLast?_cons_cons, List.getLast?_singleton, Option.getD_some]
      intro he
      obtain ⟨_, _, _⟩ := hy
      omega
    rw [hw2, if_neg hld]
    exact hreg
  exact ⟨key _ _ hr h3', key _ _ hm h4'⟩

/-- **C96, partial**, for volumes that are not mistaken for colour images, and regions with other than
three slices along the last axis. -/
theorem C96_region_3d_partial (hload : args.roi = none) (hn : args.normalize = false) (r m a b : Image Rat)
    (n0 n1 n2 : Nat) (hr : r.arr.shape = [n0, n1, n2]) (hm : m.arr.shape = [n0, n1, n2]) (hn2 : n2 ≠ 3)
    (x y z : Range) (hx : InsideAxis n0 x) (hy : InsideAxis n1 y) (hz : InsideAxis n2 z) (h0 : x.2 - x.1 < n0)
    (h1 : y.2 - y.1 < n1) (h2 : z.2 - z.1 < n2) (h3 : z.2 - z.1 ≠ 3)
    (h : (packageEnv resize cast disk args).prep r m (some ⟨x, y, some z⟩) = .ok (a, b)) :
    IsRegion3 r.arr a.arr x y z ∧ IsRegion3 m.arr b.arr x y z := by
  obtain ⟨lr, lm, h1', h2', h3', h4'⟩ := prepImages_each resize cast disk args r m a b _ h
  have e1 := loadData_plain disk args hload hn _ _ h1'
  have e2 := loadData_plain disk args hload hn _ _ h2'
  subst e1 e2
  have : resizeImage resize cast lr lm = lm := by
    unfold resizeImage; rw [if_neg (by simp [hr, hm])]
  rw [this] at h4'
  have key : ∀ (img c : Image Rat), img.arr.shape = [n0, n1, n2] →
      (prepOne disk args img (some ⟨x, y, some z⟩)).val = .ok c → IsRegion3 img.arr c.arr x y z := by
    intro img c hs hp
    obtain ⟨w, hw1, hw2⟩ := prepOne_plain disk args hload hn img c _ hp
    have hreg : IsRegion3 img.arr w x y z := by
      unfold cropImage at hw1
      simp only [hs] at hw1
      rw [if_neg hn2, if_pos ⟨h0, h1, h2⟩] at hw1
      cases hw1
      exact sliceArray_three img.arr n0 n1 n2 hs x y z hx hy hz
    have hld : w.lastDim ≠ 3 := by
      unfold NDArray.lastDim
      rw [hreg.1]
      simp only [List.getLast?_cons_cons, List.getLast?_singleton, Option.getD_some]
      intro he
      obtain ⟨_, _, _⟩ := hz
      omega
    rw [hw2, if_neg hld]
    exact hreg
  exact ⟨key _ _ hr h3', key _ _ hm h4'⟩

/-- The claim: the prepared reference is the region of the loaded reference. -/
def RegionOfLoaded (args : LoadArgs) : Prop :=
  ∀ resize cast disk (r m a b lr : Image Rat) (n0 n1 : Nat) (q : Roi),
    r.arr.shape = [n0, n1] → m.arr.shape = [n0, n1] → InsideAxis n0 q.x → InsideAxis n1 q.y →
    q.x.2 - q.x.1 < n0 → q.y.2 - q.y.1 < n1 → (loadData disk (.array r) args).val = .ok (.single lr) →
    (packageEnv resize cast disk args).prep r m (some q) = .ok (a, b) → IsRegion2 lr.arr a.arr q.x q.y

namespace BatchWitness

def unitArgs : LoadArgs := { normalize := true, dataRange := some 1 }

def ramp : Image Rat := ⟨.f64, ⟨[2, 5], fun i => ((i.getD 1 0 : Nat) : Rat)⟩⟩

def q2 : Roi := ⟨(0, 1), (0, 2), none⟩
def q3 : Roi := ⟨(0, 1), (0, 3), none⟩

/-- Pixel of the prepared reference. -/
def pixel (args : LoadArgs) (q : Roi) (idx : List Nat) : Option (List Nat × Rat) :=
  match (packageEnv nearest (fun _ v => v) files args).prep ramp ramp (some q) with
  | .ok (a, _) => some (a.arr.shape, a.arr.get idx)
  | .error _ => none

/-- Pixel of the loaded reference. -/
def loadedPixel (args : LoadArgs) (idx : List Nat) : Option Rat :=
  match (loadData files (.array ramp) args).val with
  | .ok (.single a) => some (a.arr.get idx)
  | _ => none

theorem unit_pixel : pixel unitArgs q2 [0, 1] = some ([1, 2], 1) := by decide +kernel
theorem unit_loaded : loadedPixel unitArgs [0, 1] = some (1 / 4) := by decide +kernel
theorem three_shape : pixel {} q3 [0] = some ([1], 3 / 100 * 0 + 7154 / 10000 * 1 + 721 / 10000 * 2) := by
  decide +kernel

end BatchWitness

/-- **C96, refuted** with normalisation: the region is normalised again on its own. -/
theorem C96_normalized_refuted : ¬ RegionOfLoaded BatchWitness.unitArgs := by
  intro h
  have hp := BatchWitness.unit_pixel
  have hl := BatchWitness.unit_loaded
  unfold BatchWitness.pixel at hp
  unfold BatchWitness.loadedPixel at hl
  split at hp
  · rename_i a b hab
    split at hl
    · rename_i lr hlr
      have := (h BatchWitness.nearest (fun _ v => v) BatchWitness.files BatchWitness.ramp BatchWitness.ramp a b lr 2 5
        BatchWitness.q2 rfl rfl ⟨by decide, by decide, by decide⟩ ⟨by decide, by decide, by decide⟩ (by decide) (by decide)
        hlr hab).2 0 1 (by decide) (by decide)
      simp only [Option.some.injEq, Prod.mk.injEq] at hp hl
      rw [hp.2] at this
      have h2 : lr.arr.get [0, 1] = 1 := by
        rw [this]; rfl
      rw [hl] at h2
      exact absurd h2 (by norm_num)
    · cases hl
  · cases hp

/-- **C96, refuted** for regions of three columns: they are taken for a colour image, and the metrics get an
image with one dimension. -/
theorem C96_three_columns_refuted : ¬ RegionOfLoaded {} := by
  intro h
  have hp := BatchWitness.three_shape
  unfold BatchWitness.pixel at hp
  split at hp
  · rename_i a b hab
    have := (h BatchWitness.nearest (fun _ v => v) BatchWitness.files BatchWitness.ramp BatchWitness.ramp a b
      BatchWitness.ramp 2 5
      BatchWitness.q3 rfl rfl ⟨by decide, by decide, by decide⟩ ⟨by decide, by decide, by decide⟩ (by decide) (by decide)
      (by rfl) hab).1
    simp only [Option.some.injEq, Prod.mk.injEq] at hp
    rw [hp.1] at this
    simp at this
  · cases hp

/-- Two metrics and the pairs of the witness. -/
example : BatchWitness.valuesAt (batchCalculate BatchWitness.env [BatchWitness.total,
    ⟨some "D", .inr (fun a b => .ok (.num (a.arr.get [0, 3] - b.arr.get [0, 3])))⟩] none none
    [⟨['a'], ['m']⟩, ⟨['a'], ['n']⟩, ⟨['a'], ['n']⟩] []) 2 = some [12, 8, 2] := by decide +kernel

/-- Files read for four pairs. -/
example : (match batchCalculate BatchWitness.env [BatchWitness.total] none none
    [⟨['a'], ['m']⟩, ⟨['a'], ['n']⟩, ⟨['a'], ['n']⟩, ⟨['m'], ['n']⟩] [] with
    | .ok st => some (st.refLoads, st.modLoads)
    | .error _ => none) = some ([['a'], ['m']], [['m'], ['n']]) := by decide +kernel

/-- Two pairs with the same reference and the same region. -/
example (st : BatchState (Image Rat) Rat)
    (h : batchCalculate BatchWitness.env [BatchWitness.total] none none [⟨['a'], ['m']⟩, ⟨['a'], ['n']⟩] [] = .ok st) :
    ODict.get st.results (decimal 1) = soloResult BatchWitness.env [BatchWitness.total] ⟨['a'], ['n']⟩ none :=
  (C63_package_partial BatchWitness.nearest (fun _ v => v) BatchWitness.files {} rfl [BatchWitness.total] none none (by decide)
    [(⟨['a'], ['m']⟩, none), (⟨['a'], ['n']⟩, none)] (by
      intro i x hx
      have := List.mem_of_getElem? hx
      simp only [List.mem_cons, List.not_mem_nil, or_false] at this
      rcases this with rfl | rfl <;> rfl)
    (List.IsChain.cons_cons ⟨(fun _ => rfl), (fun h => by cases h)⟩ (List.isChain_singleton _)) []).2 st h 1 _ rfl

example : ∃ roi, pairRoi (none : Option Nat) (some [some 1, none, some 2]) 1 = .ok roi :=
  C95_region_found_partial [.metric] [.dict] 3 none (some [some 1, none, some 2]) (by decide) (by decide) 1 (by decide)

example (a b : Image Rat) (h : BatchWitness.env.prep BatchWitness.ramp BatchWitness.ramp (some BatchWitness.q2) = .ok (a, b)) :
    a.arr.shape = [1, 2] ∧ a.arr.get [0, 1] = 1 := by
  have := (C96_region_2d_partial BatchWitness.nearest (fun _ v => v) BatchWitness.files {} rfl rfl BatchWitness.ramp BatchWitness.ramp
    a b 2 5 rfl rfl BatchWitness.q2 ⟨by decide, by decide, by decide⟩ ⟨by decide, by decide, by decide⟩ (by decide) (by decide)
    (by decide) h).1
  exact ⟨this.1, by rw [this.2 0 1 (by decide) (by decide)]; rfl⟩

/-- A part of a volume. -/
example (a b : Image Rat) (h : BatchWitness.env.prep ⟨.f64, ⟨[4, 4, 4], fun i => i.sum⟩⟩ ⟨.f64, ⟨[4, 4, 4], fun _ => 1⟩⟩
    (some ⟨(1, 3), (0, 2), some (2, 4)⟩) = .ok (a, b)) : a.arr.get [1, 1, 1] = 6 := by
  have := (C96_region_3d_partial BatchWitness.nearest (fun _ v => v) BatchWitness.files {} rfl rfl ⟨.f64, ⟨[4, 4, 4], fun i => i.sum⟩⟩
    ⟨.f64, ⟨[4, 4, 4], fun _ => 1⟩⟩ a b 4 4 4 rfl rfl (by decide) (1, 3) (0, 2) (2, 4) ⟨by decide, by decide, by decide⟩
    ⟨by decide, by decide, by decide⟩ ⟨by decide, by decide, by decide⟩ (by decide) (by decide) (by decide) (by decide) h).1
  rw [this.2 1 1 1 (by decide) (by decide) (by decide)]
  decide +kernel

end Viqa
