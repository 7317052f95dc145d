import Verif.Model.Basic

/-!
Model of the statistics attributes of `ImageArray` (`src/viqa/utils/loading.py` 63-287) and of
the operations that create, change and describe such arrays.

The contents of an array are of an arbitrary type `D`, the statistics functions are a
parameter: only their bookkeeping is modelled.
-/

namespace Viqa

/-- The nine statistics attributes (`loading.py` 72-90). -/
inductive Stat where
  | mean | median | variance | standarddev | skewness | kurtosis | histogram | minimum | maximum
  deriving DecidableEq, Repr

/-- An `ImageArray` object: contents, whether the data type is an integer type, and the
attributes; `none` is the text "Not set. Run calculate_statistics() first." -/
structure ArrObj (D V : Type) where
  data : D
  isInt : Bool
  attr : Stat → Option V

/-- What can happen to arrays. Objects are numbered in the order of creation. -/
inductive ArrOp (D : Type) where
  /-- `ImageArray(ndarray)` (101-117): attributes are not set, because the source has none. -/
  | create (d : D) (isInt : Bool)
  /-- An array derived from object `i` by slicing, `view`, `copy`, `astype`, `reshape`, ...:
  `__array_finalize__` (119-160) copies the attributes from object `i`. -/
  | derive (i : Nat) (f : D → D) (isInt : Bool)
  /-- Result of a ufunc (162-196): the result is a view of a plain ndarray, attributes are
  not set. -/
  | arith (i : Nat) (f : D → D) (isInt : Bool)
  /-- In-place change of object `i` (assignment to elements, `+=`; 181-186: `out` objects are
  returned as they are). -/
  | inplace (i : Nat) (f : D → D)
  /-- `calculate_statistics` (198-227). -/
  | calculate (i : Nat)

/-- `loading.py` 198-227 `calculate_statistics`. For integer data types the histogram is
assigned to the temporary object returned by `self.view()` and is lost (218-222). -/
def calcStats {D V} (stat : Stat → D → V) (o : ArrObj D V) : ArrObj D V :=
  { o with attr := fun s =>
      if s = .histogram ∧ o.isInt = true then o.attr s else some (stat s o.data) }

/-- Effect of an operation on the list of objects; operations on objects that do not exist have
no effect. -/
def arrStep {D V} (stat : Stat → D → V) (objs : List (ArrObj D V)) (op : ArrOp D) :
    List (ArrObj D V) :=
  match op with
  | .create d b => objs ++ [⟨d, b, fun _ => none⟩]
  | .derive i f b =>
    match objs[i]? with
    | some o => objs ++ [⟨f o.data, b, o.attr⟩]
    | none => objs
  | .arith i f b =>
    match objs[i]? with
    | some o => objs ++ [⟨f o.data, b, fun _ => none⟩]
    | none => objs
  | .inplace i f => objs.modify i (fun o => { o with data := f o.data })
  | .calculate i => objs.modify i (calcStats stat)

/-- A history of operations. -/
def arrRun {D V} (stat : Stat → D → V) (ops : List (ArrOp D)) : List (ArrObj D V) :=
  ops.foldl (arrStep stat) []

/-- The statistics written by `describe` (`loading.py` 261-270): all but the histogram. -/
def describeStats : List Stat :=
  [.mean, .median, .variance, .standarddev, .skewness, .kurtosis, .minimum, .maximum]

end Viqa
