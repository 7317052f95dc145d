import Verif.Model.Metric

/-!
Metrics as elements of Python containers. The operators of `src/viqa/_metrics.py` 66-100 decide
what `in`, `list.index`, `list.count`, `list.remove`, `sorted`, `max`, `min`, sets and
dictionaries do with metrics. The containers themselves are Python's (trusted).
-/

namespace Viqa

variable {S : Type} [LinearOrder S]

/-- A list of metrics: references to the objects of a heap. -/
abbrev MetricRefs := List Nat

/-- The comparison of Python's list methods: the same object, or `==` (`_metrics.py` 66-70). -/
def foundAs (heap : Nat → MetricObj S) (x y : Nat) : Bool :=
  x == y || metricEq (heap x) (.metric (heap y))

/-- `metric in metrics`. -/
def metricIn (heap : Nat → MetricObj S) (x : Nat) (l : MetricRefs) : Bool :=
  l.any (fun y => foundAs heap y x)

/-- `metrics.index(metric)`: the first place where the metric is found. -/
def metricIndex (heap : Nat → MetricObj S) (x : Nat) : MetricRefs → Py Nat
  | [] => .error (.valueError "is not in list")
  | y :: l =>
    if foundAs heap y x then .ok 0
    else
      match metricIndex heap x l with
      | .error e => .error e
      | .ok i => .ok (i + 1)

/-- `metrics.count(metric)`. -/
def metricCount (heap : Nat → MetricObj S) (x : Nat) (l : MetricRefs) : Nat :=
  (l.filter (fun y => foundAs heap y x)).length

/-- `metrics.remove(metric)`: the list after the call. -/
def metricRemove (heap : Nat → MetricObj S) (x : Nat) : MetricRefs → Py MetricRefs
  | [] => .error (.valueError "list.remove(x): x not in list")
  | y :: l =>
    if foundAs heap y x then .ok l
    else
      match metricRemove heap x l with
      | .error e => .error e
      | .ok l' => .ok (y :: l')

/-! ### Sorting -/

/-- Insert a metric behind all that are not greater (`<` of `_metrics.py` 72-76). -/
def insertMetric (heap : Nat → MetricObj S) (x : Nat) : MetricRefs → Py MetricRefs
  | [] => .ok [x]
  | y :: l =>
    match metricLt (heap x) (.metric (heap y)) with
    | .error e => .error e
    | .ok true => .ok (x :: y :: l)
    | .ok false =>
      match insertMetric heap x l with
      | .error e => .error e
      | .ok l' => .ok (y :: l')

/-- The metrics sorted one after the other into those that are already in order. -/
def sortInto (heap : Nat → MetricObj S) : MetricRefs → MetricRefs → Py MetricRefs
  | done, [] => .ok done
  | done, x :: l =>
    match insertMetric heap x done with
    | .error e => .error e
    | .ok done' => sortInto heap done' l

/-- `sorted(metrics)`. Python's sort inserts by bisection and merges; it is stable and compares
with `<` only, like the insertion here. -/
def sortedMetrics (heap : Nat → MetricObj S) (l : MetricRefs) : Py MetricRefs :=
  sortInto heap [] l

/-- `max(metrics)`: the first metric that no later one exceeds (`>` of `_metrics.py` 78-82). -/
def maxMetricFrom (heap : Nat → MetricObj S) (best : Nat) : MetricRefs → Py Nat
  | [] => .ok best
  | y :: l =>
    match metricGt (heap y) (.metric (heap best)) with
    | .error e => .error e
    | .ok true => maxMetricFrom heap y l
    | .ok false => maxMetricFrom heap best l

def maxMetric (heap : Nat → MetricObj S) : MetricRefs → Py Nat
  | [] => .error (.valueError "max() iterable argument is empty")
  | y :: l => maxMetricFrom heap y l

/-! ### Hashing -/

/-- A class of a method resolution order: its name and the methods its body defines. -/
structure ClassBody where
  name : String
  methods : List String

/-- Python's rule for `__hash__`: a class body with `__eq__` and without `__hash__` sets
`__hash__` to None; the first class of the method resolution order with an entry decides;
`object` is hashable. -/
def hashable : List ClassBody → Bool
  | [] => true
  | c :: mro =>
    if "__hash__" ∈ c.methods then true
    else if "__eq__" ∈ c.methods then false
    else hashable mro

/-- `_metrics.py` 26-103 -/
def metricBody : ClassBody :=
  ⟨"Metric", ["__init__", "score", "print_score", "export_results", "__eq__", "__lt__", "__gt__", "__le__", "__ge__", "__ne__",
    "__repr__"]⟩

/-- `abc.ABC` has no methods. -/
def abcBody : ClassBody := ⟨"ABC", []⟩

/-- `_metrics.py` 106-136 -/
def fullReferenceBody : ClassBody :=
  ⟨"FullReferenceMetricsInterface", ["__init__", "load_images"]⟩

/-- `_metrics.py` 139-174 -/
def noReferenceBody : ClassBody :=
  ⟨"NoReferenceMetricsInterface", ["__init__", "load_images"]⟩

/-- The metrics with a reference: classes of `fr_metrics/*.py`. -/
def fullReferenceClasses : List ClassBody :=
  [⟨"PSNR", ["__init__", "score", "print_score"]⟩, ⟨"RMSE", ["__init__", "score", "print_score"]⟩,
   ⟨"SSIM", ["__init__", "score", "print_score"]⟩, ⟨"UQI", ["__init__", "score", "print_score"]⟩,
   ⟨"MSSSIM", ["__init__", "score", "print_score"]⟩, ⟨"FSIM", ["__init__", "score", "print_score"]⟩,
   ⟨"VSI", ["__init__", "score", "print_score"]⟩, ⟨"VIFp", ["__init__", "score", "print_score"]⟩,
   ⟨"GSM", ["__init__", "score", "print_score"]⟩, ⟨"MAD", ["__init__", "score", "print_score"]⟩]

/-- The metrics without a reference: classes of `nr_metrics/*.py`. -/
def noReferenceClasses : List ClassBody :=
  [⟨"SNR", ["__init__", "score", "print_score", "visualize_centers", "set_centers"]⟩, ⟨"CNR", ["__init__", "score", "print_score", "visualize_centers", "set_centers"]⟩,
   ⟨"QMeasure", ["__init__", "score", "print_score"]⟩]

/-- The method resolution orders of all metrics (`_metrics.py` 106, 139: `(ABC, Metric)`). -/
def metricOrders : List (List ClassBody) :=
  fullReferenceClasses.map (fun c => [c, fullReferenceBody, abcBody, metricBody]) ++
    noReferenceClasses.map (fun c => [c, noReferenceBody, abcBody, metricBody])

/-- `set(metrics)` or a dictionary with the metrics as keys, by the classes of the metrics: whether
the call works. -/
def setOfMetrics (l : List (List ClassBody)) : Py Unit :=
  if l.all hashable then .ok () else .error (.typeError "unhashable type")

end Viqa
