import Verif.Model.Text
import Mathlib.Order.Defs.LinearOrder

/-!
Model of `src/viqa/_metrics.py` (metric objects), of the way `score` methods store their
result, of `src/viqa/fusion.py` and of `export_results` (`src/viqa/utils/export.py`).
-/

namespace Viqa

/-! ### Constructor -/

/-- Values of parameters, as far as their truth value matters. -/
inductive PVal where
  | none
  | bool (b : Bool)
  | int (n : Int)
  | other (s : String)
  deriving DecidableEq, Repr

/-- Python truth value (`other`: objects that are true). -/
def PVal.truthy : PVal → Bool
  | .none => false
  | .bool b => b
  | .int n => n ≠ 0
  | .other _ => true

/-- A dictionary: later entries win. -/
abbrev Params := List (String × PVal)

def Params.get (p : Params) (key : String) : Option PVal :=
  (p.reverse.find? (fun e => e.1 = key)).map Prod.snd

/-- Value of the attribute `score_val`: `None`, the text "n/a" (set by `export_results`) or a
number. -/
inductive ScoreVal (S : Type) where
  | unset
  | na
  | num (v : S)
  deriving DecidableEq, Repr

/-- A metric object. -/
structure MetricObj (S : Type) where
  name : String
  params : Params
  score : ScoreVal S

/-- `_metrics.py` 27-38 `Metric.__init__`. `data_range` and `normalize` are named parameters, so
they cannot occur in `kwargs`. -/
def metricInit {S} (name : String) (dataRange normalize : PVal) (kwargs : Params) : Py (MetricObj S) :=
  let params : Params := [("data_range", dataRange), ("normalize", normalize),
    ("chromatic", .bool false), ("roi", .none)] ++ kwargs
  let dr := (params.get "data_range").getD .none
  let nm := (params.get "normalize").getD .none
  if nm.truthy && !dr.truthy then
    .error (.valueError "If normalize is True, data_range must be specified")
  else .ok ⟨name, params, .unset⟩

/-! ### Comparisons -/

/-- Right operand of a comparison: another metric or a plain number. -/
inductive Operand (S : Type) where
  | metric (m : MetricObj S)
  | number (v : S)

/-- `other.score_val` or `other` (`_metrics.py` 66-100). -/
def Operand.val {S} : Operand S → ScoreVal S
  | .metric m => m.score
  | .number v => .num v

/-- Python `<` on score values: numbers and texts are comparable among themselves only. -/
def ScoreVal.lt {S} [LinearOrder S] : ScoreVal S → ScoreVal S → Py Bool
  | .num a, .num b => .ok (decide (a < b))
  | .na, .na => .ok false
  | _, _ => .error (.typeError "'<' not supported")

/-- Python `<=` on score values. -/
def ScoreVal.le {S} [LinearOrder S] : ScoreVal S → ScoreVal S → Py Bool
  | .num a, .num b => .ok (decide (a ≤ b))
  | .na, .na => .ok true
  | _, _ => .error (.typeError "'<=' not supported")

/-- Python `==` on score values: never raises. -/
def ScoreVal.eq {S} [LinearOrder S] : ScoreVal S → ScoreVal S → Bool
  | .num a, .num b => decide (a = b)
  | .na, .na => true
  | .unset, .unset => true
  | _, _ => false

variable {S : Type} [LinearOrder S]

/-- `_metrics.py` 72-76 -/
def metricLt (m : MetricObj S) (o : Operand S) : Py Bool := m.score.lt o.val
/-- `_metrics.py` 78-82: `a > b` is `b < a`. -/
def metricGt (m : MetricObj S) (o : Operand S) : Py Bool := o.val.lt m.score
/-- `_metrics.py` 84-88 -/
def metricLe (m : MetricObj S) (o : Operand S) : Py Bool := m.score.le o.val
/-- `_metrics.py` 90-94 -/
def metricGe (m : MetricObj S) (o : Operand S) : Py Bool := o.val.le m.score
/-- `_metrics.py` 66-70 -/
def metricEq (m : MetricObj S) (o : Operand S) : Bool := m.score.eq o.val
/-- `_metrics.py` 96-100 -/
def metricNe (m : MetricObj S) (o : Operand S) : Bool := !(m.score.eq o.val)

/-! ### Scoring -/

/-- The shape of every `score` method (e.g. `rmse.py` 84-107, `psnr.py` 95-121): load the images,
compute, assign `self.score_val`, return the value. An exception in the first two steps leaves
the object as it is. -/
def scoreCall {S I} (load : Py I) (compute : I → Py S) (m : MetricObj S) : MetricObj S × Py S :=
  match load with
  | .error e => (m, .error e)
  | .ok imgs =>
    match compute imgs with
    | .error e => (m, .error e)
    | .ok v => ({ m with score := .num v }, .ok v)

/-- A call of `score` on the metric with number `obj`. -/
structure ScoreCall (S I : Type) where
  obj : Nat
  load : Py I
  compute : I → Py S

/-- Effect of a sequence of calls on a list of metric objects. -/
def runCalls {S I} (ms : List (MetricObj S)) (calls : List (ScoreCall S I)) : List (MetricObj S) :=
  calls.foldl (fun ms c => ms.modify c.obj (fun m => (scoreCall c.load c.compute m).1)) ms

/-! ### Fusion -/

/-- `fusion.py` 31: `sum(m.score_val * w for m, w in zip(metrics, weights, strict=True))`;
a missing score raises TypeError when it is reached, different lengths raise ValueError at the
end of the shorter list. -/
def fuseAux [Add S] [Mul S] : S → List (ScoreVal S) → List S → Py S
  | acc, [], [] => .ok acc
  | acc, .num v :: ms, w :: ws => fuseAux (acc + v * w) ms ws
  | _, _ :: _, _ :: _ => .error (.typeError "unsupported operand type(s) for *")
  | _, _, _ => .error (.valueError "zip() argument 2 is shorter or longer than argument 1")

def fuse [Add S] [Mul S] [Zero S] (ms : List (MetricObj S)) (ws : List S) : Py S :=
  fuseAux 0 (ms.map (·.score)) ws

/-! ### Export -/

/-- A line of the csv file: name and value, or "n/a". -/
structure CsvRow (S : Type) where
  name : String
  value : ScoreVal S
  deriving DecidableEq, Repr

/-- `export.py` 53-103 `export_results`: rows below the header, the metrics afterwards, and the
dictionary of results (in the order of insertion, before duplicate names are merged). -/
def exportResults (ms : List (MetricObj S)) :
    List (CsvRow S) × List (MetricObj S) × List (String × ScoreVal S) :=
  ms.foldr (fun m acc =>
    match m.score with
    | .unset => (acc.1, { m with score := .na } :: acc.2.1, (m.name, .na) :: acc.2.2)
    | v => (⟨m.name, v⟩ :: acc.1, m :: acc.2.1, (m.name, v) :: acc.2.2)) ([], [], [])

/-- `export.py` 85-87 and `loading.py` 273-275: the extension is added unless the name ends with
it in any case. -/
def csvName (filename : Txt) : Txt :=
  if endsWith (lower filename) ".csv".toList then filename else filename ++ ".csv".toList

end Viqa
