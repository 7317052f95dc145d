import Verif.Model.Batch

/-!
Several calls of `calculate` on one object of `multiple.py`, also calls that raise, and the dictionaries the
caller holds. A dictionary is an object in memory; `self.results` is a reference to it.
-/

namespace Viqa

/-- `multiple.py` 254-294 with the state at the time of an exception: a turn that raises has not stored anything. -/
def batchRun {L I R S} (env : BatchEnv L I R) (metrics : List (BMetric I S)) (globalRoi : Option R)
    (rois : Option (List (Option R))) : List Pair → Nat → BatchState L S → BatchState L S × Py Unit
  | [], _, st => (st, .ok ())
  | p :: ps, num, st => match batchStep env metrics globalRoi rois st num p with
    | .error e => (st, .error e)
    | .ok st' => batchRun env metrics globalRoi rois ps (num + 1) st'

/-- One call of `BatchMetrics.calculate`: loading functions for its keyword arguments (and the files of that time), and
the keyword argument `roi`. -/
structure BatchCall (L I R : Type) where
  env : BatchEnv L I R
  roi : Option R

/-- Memory and the attributes of a `BatchMetrics` object. -/
structure BatchMemory (R S : Type) where
  dicts : List (ODict Txt (ODict Key S))
  /-- `self.results` -/
  results : Nat
  /-- `self.global_roi`, not there before the first call -/
  globalRoi : Option (Option R)

/-- `multiple.py` 79: `self.results = {}` of a new object. -/
def BatchMemory.new {R S} : BatchMemory R S := ⟨[[]], 0, none⟩

/-- `multiple.py` 243-295: the entries are stored in the dictionary the object was created with; a reference to it is
returned. -/
def batchCall {L I R S} (metrics : List (BMetric I S)) (rois : Option (List (Option R))) (pairs : List Pair)
    (w : BatchMemory R S) (c : BatchCall L I R) : BatchMemory R S × Py Nat :=
  let out := batchRun c.env metrics c.roi rois pairs 0 ⟨none, none, none, w.dicts.getD w.results [], [], [], 0⟩
  (⟨w.dicts.set w.results out.1.results, w.results, some c.roi⟩, out.2.map (fun _ => w.results))

/-- Several calls; an exception is caught by the caller, who goes on. -/
def batchCalls {L I R S} (metrics : List (BMetric I S)) (rois : Option (List (Option R))) (pairs : List Pair) :
    List (BatchCall L I R) → BatchMemory R S → BatchMemory R S
  | [], w => w
  | c :: cs, w => batchCalls metrics rois pairs cs (batchCall metrics rois pairs w c).1

/-- Entries of the object. -/
def BatchMemory.entries {R S} (w : BatchMemory R S) : ODict Txt (ODict Key S) := w.dicts.getD w.results []

/-- One call of `MultipleMetrics.calculate`: the loaded images and the region. -/
structure MultipleCall (L I R : Type) where
  env : BatchEnv L I R
  reference : L
  modified : L
  roi : Option R

/-- Memory and the attribute `results` of a `MultipleMetrics` object. -/
structure MultipleMemory (S : Type) where
  dicts : List (ODict Key S)
  results : Nat

/-- `multiple.py` 79 -/
def MultipleMemory.new {S} : MultipleMemory S := ⟨[[]], 0⟩

/-- `multiple.py` 501-505: `_calc` makes a new dictionary; the attribute is set after it returned. -/
def multipleCall {L I R S} (metrics : List (BMetric I S)) (w : MultipleMemory S) (c : MultipleCall L I R) :
    MultipleMemory S × Py Nat :=
  match calcPair c.env metrics c.reference c.modified c.roi none none with
  | .error e => (w, .error e)
  | .ok d => (⟨w.dicts ++ [d], w.dicts.length⟩, .ok w.dicts.length)

/-- Several calls. -/
def multipleCalls {L I R S} (metrics : List (BMetric I S)) :
    List (MultipleCall L I R) → MultipleMemory S → MultipleMemory S
  | [], w => w
  | c :: cs, w => multipleCalls metrics cs (multipleCall metrics w c).1

end Viqa
