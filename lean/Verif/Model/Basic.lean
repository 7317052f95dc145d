/-
Python level notions shared by the whole model: exceptions as values, warnings,
slicing, `range`, and n-dimensional arrays given by a shape and an index function.
-/

namespace Viqa

/-- A raised Python exception. The message is kept where the code uses several messages
for the same kind, so that properties can tell the causes apart. -/
inductive Exc where
  | valueError (msg : String)
  | typeError (msg : String)
  | keyError (key : String)
  | indexError
  | attributeError (name : String)
  | zeroDivisionError
  | runtimeError (msg : String)
  | maskError
  | unboundLocalError (name : String)
  | fileNotFound
  | importError
  | axisError
  | overflowError
  | removedInFutureVersion
  /-- Not a Python exception: marks that the code goes on with pixels that are not a number
  (division of zero by zero). The model stops here instead of inventing a value. -/
  | notANumber
  deriving DecidableEq, Repr

/-- A Python computation that may raise. -/
abbrev Py (α : Type) := Except Exc α

instance {ε α} [DecidableEq ε] [DecidableEq α] : DecidableEq (Except ε α)
  | .ok a, .ok b => if h : a = b then .isTrue (by rw [h]) else .isFalse (by simpa using h)
  | .error a, .error b => if h : a = b then .isTrue (by rw [h]) else .isFalse (by simpa using h)
  | .ok _, .error _ => .isFalse (by simp)
  | .error _, .ok _ => .isFalse (by simp)

/-- A Python computation that may raise and that may issue warnings (oldest first).
Warnings that were issued before an exception stay issued. -/
structure PyW (α : Type) where
  warns : List String
  val : Py α

namespace PyW

def pure {α} (a : α) : PyW α := ⟨[], .ok a⟩

def raise {α} (e : Exc) : PyW α := ⟨[], .error e⟩

def warn (w : String) : PyW Unit := ⟨[w], .ok ()⟩

def lift {α} (x : Py α) : PyW α := ⟨[], x⟩

def bind {α β} (x : PyW α) (f : α → PyW β) : PyW β :=
  match x.val with
  | .error e => ⟨x.warns, .error e⟩
  | .ok a => ⟨x.warns ++ (f a).warns, (f a).val⟩

instance : Monad PyW where
  pure := PyW.pure
  bind := PyW.bind

end PyW

/-! ### Python slicing -/

/-- Bound of a slice `a:b` along an axis of length `n` (CPython `PySlice_AdjustIndices`
for step 1): negative bounds count from the end, then the bound is clipped to `[0, n]`. -/
def sliceBound (n : Nat) (i : Int) : Nat :=
  if i < 0 then (i + n).toNat else min i.toNat n

/-- First index and length of the slice `lo:hi` of an axis of length `n`. -/
def sliceRange (n : Nat) (lo hi : Int) : Nat × Nat :=
  (sliceBound n lo, sliceBound n hi - sliceBound n lo)

/-- Index of a single element with Python's negative indexing, IndexError if out of range. -/
def pyIndex (n : Nat) (i : Int) : Py Nat :=
  if 0 ≤ i ∧ i < n then .ok i.toNat
  else if i < 0 ∧ -(n : Int) ≤ i then .ok (i + n).toNat
  else .error .indexError

/-- `list(range(start, stop, step))` for a positive step; `fuel`-free closed form:
the number of elements is `⌈(stop - start)/step⌉`. -/
def pyRange (start stop step : Nat) : List Nat :=
  (List.range ((stop - start + (step - 1)) / step)).map (fun i => start + i * step)

/-! ### Arrays -/

/-- An n-dimensional array: a shape and the value at every index. Values at indices
outside of the shape carry no meaning. -/
structure NDArray (α : Type) where
  shape : List Nat
  get : List Nat → α

namespace NDArray

variable {α β : Type}

def ndim (a : NDArray α) : Nat := a.shape.length

/-- `shape[-1]` (only used on arrays with at least one axis). -/
def lastDim (a : NDArray α) : Nat := a.shape.getLast?.getD 0

def size (a : NDArray α) : Nat := a.shape.prod

end NDArray

/-- The index lies inside the shape. -/
def InShape : List Nat → List Nat → Prop
  | [], [] => True
  | n :: sh, i :: idx => i < n ∧ InShape sh idx
  | _, _ => False

instance : ∀ sh idx, Decidable (InShape sh idx)
  | [], [] => inferInstanceAs (Decidable True)
  | n :: sh, i :: idx =>
      have : Decidable (InShape sh idx) := instDecidableInShape sh idx
      inferInstanceAs (Decidable (i < n ∧ InShape sh idx))
  | [], _ :: _ => inferInstanceAs (Decidable False)
  | _ :: _, [] => inferInstanceAs (Decidable False)

/-- Two arrays are equal as far as Python can see: same shape, same value at every
index inside of the shape. -/
def NDArray.Same {α} (a b : NDArray α) : Prop :=
  a.shape = b.shape ∧ ∀ idx, InShape a.shape idx → a.get idx = b.get idx

/-- All indices of a shape in C order (last axis fastest). -/
def indices : List Nat → List (List Nat)
  | [] => [[]]
  | n :: sh => (List.range n).flatMap (fun i => (indices sh).map (i :: ·))

/-- The values of an array in C order (`a.ravel()`). -/
def NDArray.toList {α} (a : NDArray α) : List α := (indices a.shape).map a.get

/-- Position of an index in C order. -/
def ravelIndex : List Nat → List Nat → Nat
  | _ :: sh, i :: idx => i * sh.prod + ravelIndex sh idx
  | _, _ => 0

/-- `np.reshape` of flat data; `default` is never visible when the size matches. -/
def reshape {α} [Inhabited α] (data : List α) (shape : List Nat) : NDArray α :=
  ⟨shape, fun idx => data.getD (ravelIndex shape idx) default⟩

/-- Elementwise function. -/
def NDArray.map {α β} (f : α → β) (a : NDArray α) : NDArray β :=
  ⟨a.shape, fun i => f (a.get i)⟩

/-- Elementwise function of two arrays of the same shape. -/
def NDArray.zip {α β γ} (f : α → β → γ) (a : NDArray α) (b : NDArray β) : NDArray γ :=
  ⟨a.shape, fun i => f (a.get i) (b.get i)⟩

/-- `np.flip(m, axis)` for a valid axis. -/
def flipAxis {α} (m : NDArray α) (axis : Nat) : NDArray α :=
  ⟨m.shape, fun idx => m.get (idx.modify axis (fun i => m.shape.getD axis 0 - 1 - i))⟩

/-- Exchange of two entries of a list. -/
def swapAt {α} [Inhabited α] (l : List α) (i j : Nat) : List α :=
  (l.set i (l.getD j default)).set j (l.getD i default)

/-- `np.transpose` exchanging the two axes `i` and `j`. -/
def swapAxes {α} (m : NDArray α) (i j : Nat) : NDArray α :=
  ⟨swapAt m.shape i j, fun idx => m.get (swapAt idx i j)⟩

/-- `np.rot90(m, k, axes)` (numpy/lib/function_base.py) for non-negative axes. -/
def rot90 {α} (m : NDArray α) (k : Nat) (a0 a1 : Nat) : Py (NDArray α) :=
  if a0 = a1 ∨ max a0 a1 - min a0 a1 = m.ndim then
    .error (.valueError "Axes must be different.")
  else if m.ndim ≤ a0 ∨ m.ndim ≤ a1 then
    .error (.valueError "Axes out of range for array.")
  else match k % 4 with
    | 0 => .ok m
    | 1 => .ok (swapAxes (flipAxis m a1) a0 a1)
    | 2 => .ok (flipAxis (flipAxis m a0) a1)
    | _ => .ok (flipAxis (swapAxes m a0 a1) a1)

/-- numpy data types that occur in the package. -/
inductive DType where
  | bool | u8 | u16 | u32 | u64 | i8 | i16 | i32 | i64 | f16 | f32 | f64 | complex
  deriving DecidableEq, Repr

namespace DType

/-- `np.issubdtype(dtype, np.integer)` -/
def isInteger : DType → Bool
  | u8 | u16 | u32 | u64 | i8 | i16 | i32 | i64 => true
  | _ => false

/-- `np.issubdtype(dtype, np.floating)` -/
def isFloating : DType → Bool
  | f16 | f32 | f64 => true
  | _ => false

/-- Size of an item in bytes. -/
def itemsize : DType → Nat
  | bool | u8 | i8 => 1
  | u16 | i16 | f16 => 2
  | u32 | i32 | f32 => 4
  | u64 | i64 | f64 => 8
  | complex => 16

end DType

/-- An image: data type and array. -/
structure Image (α : Type) where
  dtype : DType
  arr : NDArray α

end Viqa
