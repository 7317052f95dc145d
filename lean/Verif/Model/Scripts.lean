import Verif.Model.Loading

/-!
Model of the scripts `src/scripts/crop_image.py`, `reduce_projections.py` and `combine_stack.py`. Files are lists
of bytes; items are the little endian values of their bytes, as in `Model/Loading.lean`. The sizes given on the
command line are natural numbers with a product below `2^63` (`int(sys.argv[..])` also accepts negative numbers; not modelled).
`astype(data_type)` on data that has been read with the same data type changes nothing.
-/

namespace Viqa

/-- The bytes of one item, least significant byte first. -/
def itemBytes (s v : Nat) : List UInt8 := (List.range s).map (fun j => UInt8.ofNat (v / 256 ^ j % 256))

/-- `ndarray.tofile`: the items in C order. -/
def tofile (s : Nat) (a : NDArray Nat) : List UInt8 := a.toList.flatMap (itemBytes s)

/-- `np.stack(arrays, axis=0)` and `np.array(arrays)` of arrays of the same shape `sh`. -/
def stackArrays (sh : List Nat) (l : List (NDArray Nat)) : NDArray Nat :=
  ⟨l.length :: sh, fun idx => match idx with
    | i :: idx => ((l[i]?).map (fun a => a.get idx)).getD 0
    | [] => 0⟩

/-- `crop_image.py` 28-51 and `reduce_projections.py` 27-50: the items are cut into `Z` parts of `X*Y` items, each
reshaped to `(X, Y)`. -/
def loadParts (bytes : List UInt8) (dt : DType) (X Y Z : Nat) : Py (List (NDArray Nat)) :=
  let data := fromfile dt.itemsize bytes
  if data.length ≠ X * Y * Z then .error (.valueError "Size of data file does not match dimensions")
  else .ok ((List.range Z).map (fun i => reshape ((data.drop (i * X * Y)).take (X * Y)) [X, Y]))

/-- `crop_image.py` 28-51 `load_volume`; `np.stack` of no arrays is a ValueError. -/
def loadVolume (bytes : List UInt8) (dt : DType) (X Y Z : Nat) : Py (NDArray Nat) :=
  match loadParts bytes dt X Y Z with
  | .error e => .error e
  | .ok [] => .error (.valueError "need at least one array to stack")
  | .ok l => .ok (stackArrays [X, Y] l)

/-- `crop_image.py` 58-64: first index and length of the part of an axis that is kept. -/
def cropRange (factor : Int) (n : Nat) : Nat × Nat :=
  let center : Int := (n : Int).fdiv 2
  let newSize : Int := (n : Int).fdiv factor
  sliceRange n (center - newSize.fdiv 2) (center + newSize.fdiv 2)

/-- `crop_image.py` 54-66 `crop` (the volume has three axes). -/
def cropVolume (v : NDArray Nat) (factor : Int) : Py (NDArray Nat) :=
  if factor = 1 then .error (.valueError "factor must be greater than 1")
  else if factor = 0 then .error .zeroDivisionError
  else .ok ⟨v.shape.map (fun n => (cropRange factor n).2),
    fun idx => v.get (List.zipWith (· + ·) (v.shape.map (fun n => (cropRange factor n).1)) idx)⟩

/-- `str(n)`. -/
def natText (n : Nat) : Txt := Nat.toDigits 10 n

/-- `f"{a}x{b}x{c}"`. -/
def dimsText (a b c : Nat) : Txt := natText a ++ 'x' :: (natText b ++ 'x' :: natText c)

/-- `re.sub(r"(\d+x\d+x\d+)", repl, name)`: all matches from left to right. `repl` contains no backslash. -/
def subDims (repl : Txt) : Txt → Txt
  | [] => []
  | ch :: cs =>
    match matchDims (ch :: cs) with
    | some (a, b, c) => repl ++ subDims repl (cs.drop (a.length + b.length + c.length + 1))
    | none => ch :: subDims repl cs
termination_by s => s.length
decreasing_by all_goals simp [List.length_drop] <;> omega

/-- `crop_image.py` 69-82 `save_volume`: the name and the content of the file (the volume has three axes). -/
def saveCropped (name : Txt) (v : NDArray Nat) (dt : DType) : Txt × List UInt8 :=
  ("crop_".toList ++ subDims (dimsText (v.shape.getD 2 0) (v.shape.getD 1 0) (v.shape.getD 0 0)) name,
    tofile dt.itemsize v)

/-- `crop_image.py` 85-105: the script, on the content of the input file; `name` is its base name. -/
def cropScript (bytes : List UInt8) (name : Txt) (bits : String) (X Y Z : Nat) (factor : Int) :
    Py (Txt × List UInt8) :=
  match parseBitdepth bits with
  | .error e => .error e
  | .ok dt =>
    match loadVolume bytes dt X Y Z with
    | .error e => .error e
    | .ok v =>
      match cropVolume v factor with
      | .error e => .error e
      | .ok w => .ok (saveCropped name w dt)

/-- `l[::k]`. -/
def everyNth {α} (l : List α) (k : Int) : Py (List α) :=
  if k = 0 then .error (.valueError "slice step cannot be zero")
  else if 0 < k then .ok ((pyRange 0 l.length k.toNat).filterMap (fun i => l[i]?))
  else .ok ((pyRange 0 l.length (-k).toNat).filterMap (fun i => l[l.length - 1 - i]?))

/-- `reduce_projections.py` 53-60 `get_n_projections`. -/
def reduceParts (X Y : Nat) (l : List (NDArray Nat)) (factor : Int) : Py (NDArray Nat) :=
  if factor = 1 then .error (.valueError "factor must be greater than 1")
  else match everyNth l factor with
    | .error e => .error e
    | .ok [] => .error (.valueError "need at least one array to stack")
    | .ok l => .ok (stackArrays [X, Y] l)

/-- `os.path.dirname` (POSIX). -/
def dirname (p : Txt) : Txt :=
  let head := (p.reverse.dropWhile (· ≠ '/')).reverse
  if head.all (· = '/') then head else (head.reverse.dropWhile (· = '/')).reverse

/-- `if not os.path.exists(folder): os.makedirs(folder)` for a file system in which all other directories can be
created: the empty path neither exists nor can be created. -/
def ensureFolder (isDir : Txt → Bool) (folder : Txt) : Py Unit :=
  if folder ≠ [] ∧ isDir folder = true then .ok ()
  else if folder = [] then .error .fileNotFound
  else .ok ()

/-- `reduce_projections.py` 74-88: the script; the result is the content of the output file. -/
def reduceScript (bytes : List UInt8) (bits : String) (X Y Z : Nat) (factor : Int) (isDir : Txt → Bool)
    (output : Txt) : Py (List UInt8) :=
  match parseBitdepth bits with
  | .error e => .error e
  | .ok dt =>
    match loadParts bytes dt X Y Z with
    | .error e => .error e
    | .ok l =>
      match reduceParts X Y l factor with
      | .error e => .error e
      | .ok v =>
        match ensureFolder isDir (dirname output) with
        | .error e => .error e
        | .ok _ => .ok (tofile dt.itemsize v)

/-- `combine_stack.py` 28-40 `combine_image_stack` on the contents of the files found, in the order of `glob.glob`;
without files the result is `None`. -/
def combineStack (files : List (List UInt8)) (dt : DType) (X Y Z : Nat) : Py (Option (NDArray Nat)) :=
  match files with
  | [] => .ok none
  | _ =>
    match files.mapM (fun b => loadBinary b dt [(X : Int), Y, Z]) with
    | .error e => .error e
    | .ok l => .ok (some (stackArrays [X, Y, Z] l))

/-- `combine_stack.py` 43-57 `save_volume`: name and content of the file. -/
def saveStack (v : NDArray Nat) (dt : DType) (bits : String) (ext : Txt) : Txt × List UInt8 :=
  ("volume_".toList ++ dimsText (v.shape.getD 2 0) (v.shape.getD 1 0) (v.shape.getD 0 0) ++ '_' :: (bits.toList ++
    '.' :: ext), tofile dt.itemsize v)

/-- `combine_stack.py` 60-70: the script. `None` has no shape. -/
def combineScript (files : List (List UInt8)) (bits : String) (X Y Z : Nat) (ext : Txt) : Py (Txt × List UInt8) :=
  match parseBitdepth bits with
  | .error e => .error e
  | .ok dt =>
    match combineStack files dt X Y Z with
    | .error e => .error e
    | .ok none => .error (.attributeError "shape")
    | .ok (some v) => .ok (saveStack v dt bits ext)

end Viqa
