import Verif.Model.Mad

/-!
Model of the C extension `src/viqa/fr_metrics/stat_utils/statisticsmodule.c`: loops, addresses, bounds,
initialization, strides and reference counts. Real numbers instead of doubles; the row pointers of an
array of `n` rows and `m` columns are `data + i * m` (`pymatrix_to_Carrayptrs` 238-252), so the access
`c[u][v]` is defined if `u` is one of the `n` row pointers and the address `u * m + v` lies in the data.
-/

namespace Viqa

/-- What an execution of the C code can run into. -/
inductive CErr where
  | outOfBounds
  | uninitialized
  deriving DecidableEq, Repr

/-- Address of `c[u][v]`, if the access is inside of the row pointers and of the data. -/
def cAddr (n m u v : Nat) : Except CErr Nat :=
  if u < n ∧ u * m + v < n * m then .ok (u * m + v) else .error .outOfBounds

/-- The cells `u ∈ [i, i + k)`, `v ∈ [j, j + k)` in the order of the loops. -/
def cells (k i j : Nat) : List (Nat × Nat) :=
  (List.range k).flatMap (fun a => (List.range k).map (fun b => (i + a, j + b)))

/-- statisticsmodule.c 80-81, 111-112, 173-174: the starts of the blocks. The row index `i` runs up to
the number of columns `m = dims[1]` and the column index `j` up to the number of rows `n = dims[0]`. -/
def cBlocks (n m bs s : Nat) : List (Nat × Nat) :=
  (pyRange 0 (m + 1 - bs) s).flatMap (fun i => (pyRange 0 (n + 1 - bs) s).map (fun j => (i, j)))

/-- Values of cells of an initialized buffer, in order. -/
def cReadAll (n m : Nat) (buf : Nat → ℝ) : List (Nat × Nat) → Except CErr (List ℝ)
  | [] => .ok []
  | (u, v) :: l =>
    match cAddr n m u v with
    | .error e => .error e
    | .ok a => match cReadAll n m buf l with
      | .error e => .error e
      | .ok r => .ok (buf a :: r)

/-- `c[u][v] = x` for all cells; `none` marks a cell that was not written yet. -/
def cWriteAll {β} (n m : Nat) (x : β) : List (Nat × Nat) → (Nat → Option β) → Except CErr (Nat → Option β)
  | [], mem => .ok mem
  | (u, v) :: l, mem =>
    match cAddr n m u v with
    | .error e => .error e
    | .ok a => cWriteAll n m x l (fun b => if b = a then some x else mem b)

/-- A loop over blocks that computes one value per block and stores it in the `s × s` cells at the start
of the block. -/
def cLoop {β} (n m s : Nat) (val : Nat → Nat → Except CErr β) :
    List (Nat × Nat) → (Nat → Option β) → Except CErr (Nat → Option β)
  | [], mem => .ok mem
  | (i, j) :: l, mem =>
    match val i j with
    | .error e => .error e
    | .ok x => match cWriteAll n m x (cells s i j) mem with
      | .error e => .error e
      | .ok mem' => cLoop n m s val l mem'

/-- Value of a block: read its cells, then `stat`. -/
def cBlockVal {β} (n m bs : Nat) (stat : List ℝ → β) (buf : Nat → ℝ) (i j : Nat) : Except CErr β :=
  match cReadAll n m buf (cells bs i j) with
  | .error e => .error e
  | .ok l => .ok (stat l)

/-- statisticsmodule.c 173-220 for one of the three statistics, and 80-108 for the first phase of
`minstd`: the output array, `none` where it was not written. -/
def cStatistic {β} (n m bs s : Nat) (stat : List ℝ → β) (buf : Nat → ℝ) : Except CErr (Nat → Option β) :=
  cLoop n m s (cBlockVal n m bs stat buf) (cBlocks n m bs s) (fun _ => none)

/-- statisticsmodule.c 83-98, 176-198: sample standard deviation of a block of at least two pixels (of one pixel it
is not a number in C; see C86). -/
noncomputable def cStdev (l : List ℝ) : ℝ :=
  Real.sqrt ((l.map (fun x => (x - l.sum / l.length) ^ 2)).sum / (l.length - 1))

/-- statisticsmodule.c 114-122: search for the smallest value among `tmp[u][v]`,
`u ∈ range(i, bs / 2, s + 1)`, `v ∈ range(j, bs / 2, s + 1)`, starting with `tmp[i][j]`. -/
noncomputable def cMinFrom (n m : Nat) (tmp : Nat → Option ℝ) : List (Nat × Nat) → ℝ → Except CErr ℝ
  | [], val => .ok val
  | (u, v) :: l, val =>
    match cAddr n m u v with
    | .error e => .error e
    | .ok a => match tmp a with
      | none => .error .uninitialized
      | some x => cMinFrom n m tmp l (if x < val then x else val)

def searchCells (bs s i j : Nat) : List (Nat × Nat) :=
  (pyRange i (bs / 2) (s + 1)).flatMap (fun u => (pyRange j (bs / 2) (s + 1)).map (fun v => (u, v)))

noncomputable def cMinVal (n m bs s : Nat) (tmp : Nat → Option ℝ) (i j : Nat) : Except CErr ℝ :=
  match cAddr n m i j with
  | .error e => .error e
  | .ok a => match tmp a with
    | none => .error .uninitialized
    | some x => cMinFrom n m tmp (searchCells bs s i j) x

/-- statisticsmodule.c 52-140 `minstd`. -/
noncomputable def cMinstd (n m bs s : Nat) (buf : Nat → ℝ) : Except CErr (Nat → Option ℝ) :=
  match cStatistic n m bs s cStdev buf with
  | .error e => .error e
  | .ok tmp => cLoop n m s (cMinVal n m bs s tmp) (cBlocks n m bs s) tmp

/-! ### Strided arrays -/

/-- A two-dimensional NumPy array of doubles: a buffer and strides in units of doubles. -/
structure StridedArray where
  rows : Nat
  cols : Nat
  data : Nat → ℝ
  stride0 : Nat
  stride1 : Nat

/-- The element [i, j] of the array. -/
def StridedArray.elem (a : StridedArray) (i j : Nat) : ℝ := a.data (i * a.stride0 + j * a.stride1)

/-- statisticsmodule.c 247-250: what the C code reads as `c[i][j]`. -/
def StridedArray.cElem (a : StridedArray) (i j : Nat) : ℝ := a.data (i * a.cols + j)

/-- `np.real` of a contiguous complex array: a view of every second double (mad.py 609). -/
def realView (rows cols : Nat) (re im : Nat → Nat → ℝ) : StridedArray where
  rows := rows
  cols := cols
  data := fun k => if k % 2 = 0 then re (k / 2 / cols) (k / 2 % cols) else im (k / 2 / cols) (k / 2 % cols)
  stride0 := 2 * cols
  stride1 := 2

/-- A freshly computed array. -/
def contiguous (rows cols : Nat) (x : Nat → Nat → ℝ) : StridedArray where
  rows := rows
  cols := cols
  data := fun k => x (k / cols) (k % cols)
  stride0 := cols
  stride1 := 1

/-! ### Reference counts -/

/-- Reference counts of the arrays allocated so far. -/
abbrev RefHeap := List Nat

/-- statisticsmodule.c 71-72, 139 followed by the caller dropping the result: `matout` is created with one
reference that is handed to the caller; `tmp` is created with one reference. -/
def minstdCall (h : RefHeap) : RefHeap :=
  let h1 := h ++ [1, 1]
  let matout := h.length
  h1.set matout (h1.getD matout 0 - 1)

/-- statisticsmodule.c 162-164, 229 followed by the caller dropping the tuple: three arrays with one
reference each, `PyTuple_Pack` adds one to each, and the tuple gives one of each back when it is dropped. -/
def getstatisticsCall (h : RefHeap) : RefHeap :=
  let created := [1, 1, 1]
  let packed := created.map (· + 1)
  let dropped := packed.map (· - 1)
  h ++ dropped

/-- Arrays that are still alive. -/
def alive (h : RefHeap) : Nat := (h.filter (0 < ·)).length

end Viqa
