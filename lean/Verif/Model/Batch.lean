import Verif.Model.Images
import Verif.Spec.Text
import Mathlib.Data.List.Basic

/-!
Model of `src/viqa/multiple.py`: constructors, calculation of several metrics for a pair of images,
batches of pairs, result files. Scores and images are parameters: `env` holds the functions for
loading and preparing images, a metric is a name, a type and its score as a function of the images
(with the parameters of the call). That a score does not depend on earlier calls is C25 and C56.
-/

namespace Viqa

/-! ### Dictionaries -/

/-- A dictionary in the order of insertion. -/
abbrev ODict (K V : Type) := List (K × V)

/-- `d[k] = v`: an existing key keeps its place. -/
def ODict.set {K V} [DecidableEq K] (d : ODict K V) (k : K) (v : V) : ODict K V :=
  if k ∈ d.map Prod.fst then d.map (fun e => if e.1 = k then (k, v) else e) else d ++ [(k, v)]

/-- `d[k]` -/
def ODict.get {K V} [DecidableEq K] (d : ODict K V) (k : K) : Py V :=
  match d.find? (fun e => e.1 = k) with
  | some e => .ok e.2
  | none => .error (.keyError "")

/-! ### Constructors -/

/-- An element of the list of metrics. -/
inductive MetricArg where
  | metric | other
  deriving DecidableEq

/-- An element of the list of parameters. -/
inductive ParamArg where
  | dict | other
  deriving DecidableEq

/-- `multiple.py` 68-79 `_MultipleInterface.__init__`. -/
def multipleInit (metrics : List MetricArg) (params : List ParamArg) : Py Unit :=
  if metrics.length ≠ params.length then
    .error (.valueError "The number of metrics and metric parameters must be equal.")
  else if ¬ metrics.all (fun m => m = .metric) then
    .error (.valueError "Metric list contains non-metric objects.")
  else if ¬ params.all (fun p => p = .dict) then
    .error (.valueError "Parameters list contains non-dictionary objects.")
  else .ok ()

/-- `multiple.py` 201-213 `BatchMetrics.__init__`: `pairs` is the result of `_read_pairs`, `rois` the
number of regions. -/
def batchInit (metrics : List MetricArg) (params : List ParamArg) (pairs : Py Nat) (rois : Option Nat) :
    Py Unit :=
  match multipleInit metrics params with
  | .error e => .error e
  | .ok _ => match pairs with
    | .error e => .error e
    | .ok n => match rois with
      | some k =>
        if k ≠ 0 ∧ n ≠ k then .error (.valueError "The number of pairs and ROIs must be equal.")
        else .ok ()
      | none => .ok ()

/-! ### Metrics -/

/-- What `score` returns: a number, or a tuple (SNR). -/
inductive Score (S : Type) where
  | num (v : S)
  | tuple

/-- `float(result)` -/
def Score.toFloat {S} : Score S → Py S
  | .num v => .ok v
  | .tuple => .error (.typeError "float() argument must be a string or a real number, not 'tuple'")

/-- A metric with its parameters. `_name` is `None` for SNR. -/
structure BMetric (I S : Type) where
  name : Option String
  run : (I → Py (Score S)) ⊕ (I → I → Py (Score S))

/-- Names of results: `metric._name`, with the suffix for a no-reference metric. -/
abbrev Key := Option String

/-- `metric._name + suffix` -/
def suffixed (name : Option String) (suffix : String) : Py Key :=
  match name with
  | some n => .ok (some (n ++ suffix))
  | none => .error (.typeError "unsupported operand type(s) for +: 'NoneType' and 'str'")

/-- One half of `multiple.py` 690-707: the score of one image, or the value of the previous pair. -/
def halfStep {I S} (name : Option String) (suffix : String) (score : I → Py (Score S)) (img : I)
    (prev : Option (ODict Key S)) (acc : ODict Key S) : Py (ODict Key S) :=
  match prev with
  | some d => do
    let k ← suffixed name suffix
    let v ← ODict.get d k
    .ok (ODict.set acc k v)
  | none => do
    let s ← score img
    let v ← s.toFloat
    let k ← suffixed name suffix
    .ok (ODict.set acc k v)

/-- `multiple.py` 686-710: one turn of the loop. -/
def metricStep {I S} (r m : I) (prevR prevM : Option (ODict Key S)) (acc : ODict Key S) (b : BMetric I S) :
    Py (ODict Key S) :=
  match b.run with
  | .inl nr => do
    let acc ← halfStep b.name "_r" nr r prevR acc
    halfStep b.name "_m" nr m prevM acc
  | .inr fr => do
    let s ← fr r m
    let v ← s.toFloat
    .ok (ODict.set acc b.name v)

/-- The loop. -/
def metricLoop {I S} (r m : I) (prevR prevM : Option (ODict Key S)) :
    List (BMetric I S) → ODict Key S → Py (ODict Key S)
  | [], acc => .ok acc
  | b :: bs, acc => match metricStep r m prevR prevM acc b with
    | .error e => .error e
    | .ok acc' => metricLoop r m prevR prevM bs acc'

/-- Functions on images. `L`: a loaded image, `I`: an image as passed to a metric, `R`: a region. -/
structure BatchEnv (L I R : Type) where
  /-- `load_data(path, **kwargs)` -/
  load : Txt → Py L
  /-- `multiple.py` 676-684: loading again, resizing, cropping, checks -/
  prep : L → L → Option R → Py (I × I)

/-- `multiple.py` 669-711 `_calc`. -/
def calcPair {L I R S} (env : BatchEnv L I R) (metrics : List (BMetric I S)) (r m : L) (roi : Option R)
    (prevR prevM : Option (ODict Key S)) : Py (ODict Key S) :=
  match env.prep r m roi with
  | .error e => .error e
  | .ok (a, b) => metricLoop a b prevR prevM metrics []

/-! ### Batch -/

/-- A row of the pairs file. -/
structure Pair where
  reference : Txt
  modified : Txt
  deriving DecidableEq, Repr

/-- Local variables of `BatchMetrics.calculate`, the attribute `results`, the files read and the
number of warnings about identical pairs. -/
structure BatchState (L S : Type) where
  /-- `prev_ref_path`, `reference_img` -/
  ref : Option (Txt × L)
  /-- `prev_mod_path`, `modified_img` -/
  mod : Option (Txt × L)
  /-- `metric_results` -/
  last : Option (ODict Key S)
  results : ODict Txt (ODict Key S)
  refLoads : List Txt
  modLoads : List Txt
  skipped : Nat

/-- `multiple.py` 276-277: the region for a pair. -/
def pairRoi {R} (globalRoi : Option R) (rois : Option (List (Option R))) (num : Nat) : Py (Option R) :=
  match globalRoi, rois with
  | none, some l => match l[num]? with
    | some r => .ok r
    | none => .error .indexError
  | g, _ => .ok g

/-- `multiple.py` 263-268 (269-274): the image, and the results that may be used again. -/
def loadOnce {L S} (load : Txt → Py L) (path : Txt) (prev : Option (Txt × L)) (last : Option (ODict Key S)) :
    Py (L × Option (ODict Key S) × Bool) :=
  match prev with
  | some (p, img) =>
    if path = p then .ok (img, last, false)
    else match load path with
      | .error e => .error e
      | .ok img => .ok (img, none, true)
  | none => match load path with
    | .error e => .error e
    | .ok img => .ok (img, none, true)

/-- `multiple.py` 254-294: one turn of the loop. Pairs hold the joined paths; the value `None` of
`metric_results` occurs before the first pair only. -/
def batchStep {L I R S} (env : BatchEnv L I R) (metrics : List (BMetric I S)) (globalRoi : Option R)
    (rois : Option (List (Option R))) (st : BatchState L S) (num : Nat) (pair : Pair) : Py (BatchState L S) :=
  if st.ref.map Prod.fst = some pair.reference ∧ st.mod.map Prod.fst = some pair.modified then
    .ok { st with results := ODict.set st.results (Spec.decimal num) (st.last.getD []),
                  skipped := st.skipped + 1 }
  else
    match loadOnce env.load pair.reference st.ref st.last with
    | .error e => .error e
    | .ok (r, prevR, newR) =>
      match loadOnce env.load pair.modified st.mod st.last with
      | .error e => .error e
      | .ok (m, prevM, newM) =>
        match pairRoi globalRoi rois num with
        | .error e => .error e
        | .ok roi =>
          match calcPair env metrics r m roi prevR prevM with
          | .error e => .error e
          | .ok d => .ok
            { ref := some (pair.reference, r), mod := some (pair.modified, m), last := some d,
              results := ODict.set st.results (Spec.decimal num) d,
              refLoads := if newR then st.refLoads ++ [pair.reference] else st.refLoads,
              modLoads := if newM then st.modLoads ++ [pair.modified] else st.modLoads,
              skipped := st.skipped }

/-- The loop over the pairs, starting with number `num`. -/
def batchLoop {L I R S} (env : BatchEnv L I R) (metrics : List (BMetric I S)) (globalRoi : Option R)
    (rois : Option (List (Option R))) : List Pair → Nat → BatchState L S → Py (BatchState L S)
  | [], _, st => .ok st
  | p :: ps, num, st => match batchStep env metrics globalRoi rois st num p with
    | .error e => .error e
    | .ok st' => batchLoop env metrics globalRoi rois ps (num + 1) st'

/-- `multiple.py` 215-295 `BatchMetrics.calculate`; `results` is the attribute before the call. -/
def batchCalculate {L I R S} (env : BatchEnv L I R) (metrics : List (BMetric I S)) (globalRoi : Option R)
    (rois : Option (List (Option R))) (pairs : List Pair) (results : ODict Txt (ODict Key S)) :
    Py (BatchState L S) :=
  batchLoop env metrics globalRoi rois pairs 0 ⟨none, none, none, results, [], [], 0⟩

/-! ### Result file -/

/-- A cell of the file. -/
inductive Cell (S : Type) where
  | text (s : Txt)
  | key (k : Key)
  | value (v : S)

/-- One row below the header: `self.pairs[int(pair_num)]`. -/
def resultRow {S} (pairs : List Pair) (e : Txt × ODict Key S) : Py (List (Cell S)) :=
  match pairs[digitsVal e.1]? with
  | some p => .ok ([.text e.1, .text p.reference, .text p.modified] ++ e.2.map (fun kv => .value kv.2))
  | none => .error .indexError

/-- `multiple.py` 379-416 `BatchMetrics.export_results` after the check of the name: header and rows. -/
def exportBatch {S} (pairs : List Pair) (results : ODict Txt (ODict Key S)) :
    Py (List (Cell S) × List (List (Cell S))) :=
  match ODict.get results ['0'] with
  | .error e => .error e
  | .ok d0 => match results.mapM (resultRow pairs) with
    | .error e => .error e
    | .ok rows => .ok ([.text "pair_num".toList, .text "reference_image".toList, .text "modified_image".toList]
        ++ d0.map (fun kv => .key kv.1), rows)

/-! ### The functions of the package -/

/-- Lines 676-684 of `_calc` with the model of loading: both images are arrays here. `crop_image` gets
the ranges of the region. -/
def prepImages (resize : NDArray Rat → List Nat → NDArray Rat) (cast : DType → Rat → Rat)
    (disk : Txt → Py (Image Rat)) (args : LoadArgs) (r m : Image Rat) (roi : Option Roi) :
    PyW (Image Rat × Image Rat) := do
  let lr ← loadData disk (.array r) args
  let lm ← loadData disk (.array m) args
  match lr, lm with
  | .single r, .single m => do
    let m := resizeImage resize cast r m
    match roi with
    | none => checkImgs disk (.array r) (.array m) args false
    | some q => do
      let ar ← cropImage r.arr q.x q.y q.z
      let am ← cropImage m.arr q.x q.y q.z
      checkImgs disk (.array ⟨r.dtype, ar⟩) (.array ⟨m.dtype, am⟩) args false
  | _, _ => PyW.raise (.typeError "unreachable")

/-- `load_data(path, **kwargs)` of one image. -/
def loadImage (disk : Txt → Py (Image Rat)) (args : LoadArgs) (path : Txt) : Py (Image Rat) :=
  match (loadData disk (.path path) args).val with
  | .error e => .error e
  | .ok (.single img) => .ok img
  | .ok (.list img) => .ok img

/-- The environment of a batch. -/
def packageEnv (resize : NDArray Rat → List Nat → NDArray Rat) (cast : DType → Rat → Rat)
    (disk : Txt → Py (Image Rat)) (args : LoadArgs) : BatchEnv (Image Rat) (Image Rat) Roi where
  load := loadImage disk args
  prep := fun r m roi => (prepImages resize cast disk args r m roi).val

end Viqa
