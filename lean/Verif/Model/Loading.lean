import Verif.Model.Text

/-! Model of the file reading part of `src/viqa/utils/loading.py`. -/

namespace Viqa

/-- `loading.py` 1024-1043 `_parse_bitdepth`. -/
def parseBitdepth (s : String) : Py DType :=
  match s with
  | "8ubit" | "8bit" => .ok .u8
  | "16ubit" | "16bit" => .ok .u16
  | "32ubit" | "32bit" => .ok .u32
  | "16fbit" => .ok .f16
  | "32fbit" => .ok .f32
  | "64fbit" => .ok .f64
  | _ => .error (.valueError "Bit depth not supported")

/-- `loading.py` 450-468: data type of an mhd header. -/
def elementType (s : String) : Py DType :=
  if s = "MET_UCHAR" then .ok .u8
  else if s = "MET_USHORT" then .ok .u16
  else if s = "MET_UINT" then .ok .u32
  else if s = "MET_FLOAT" then .ok .f32
  else if s = "MET_DOUBLE" then .ok .f64
  else .error (.valueError "Bit depth not supported")

/-! ### The two regular expressions of `load_raw` -/

/-- Longest run of digits at the start, and the rest. -/
def takeDigits (s : Txt) : Txt × Txt := (s.takeWhile Char.isDigit, s.dropWhile Char.isDigit)

/-- Match of `\d+(x)\d+(x)\d+` at the start of the text (`loading.py` 530). Digits are
matched greedily; giving digits back can never help since `x` is not a digit. -/
def matchDims (s : Txt) : Option (Txt × Txt × Txt) :=
  let (a, r) := takeDigits s
  if a = [] then none else
  match r with
  | 'x' :: r =>
    let (b, r) := takeDigits r
    if b = [] then none else
    match r with
    | 'x' :: r =>
      let (c, _) := takeDigits r
      if c = [] then none else some (a, b, c)
    | _ => none
  | _ => none

/-- `re.search`: leftmost match. -/
def searchDims : Txt → Option (Txt × Txt × Txt)
  | [] => none
  | c :: cs =>
    match matchDims (c :: cs) with
    | some m => some m
    | none => searchDims cs

/-- Match of `[fu]?(bit[s]?)` at the start of the text: the matched text. -/
def matchBitTail (s : Txt) : Option Txt :=
  let go (pre : Txt) (r : Txt) : Option Txt :=
    match r with
    | 'b' :: 'i' :: 't' :: 's' :: _ => some (pre ++ ['b', 'i', 't', 's'])
    | 'b' :: 'i' :: 't' :: _ => some (pre ++ ['b', 'i', 't'])
    | _ => none
  match s with
  | 'f' :: r => go ['f'] r
  | 'u' :: r => go ['u'] r
  | r => go [] r

/-- Match of `\d{1,2}[fu]?(bit[s]?)` at the start of the text (`loading.py` 545): two digits
are tried before one. -/
def matchBits (s : Txt) : Option Txt :=
  match s with
  | [] => none
  | d :: r =>
    if d.isDigit then
      let two : Option Txt :=
        match r with
        | e :: r' => if e.isDigit then (matchBitTail r').map (fun t => d :: e :: t) else none
        | [] => none
      match two with
      | some m => some m
      | none => (matchBitTail r).map (fun t => d :: t)
    else none

/-- `re.search`: leftmost match. -/
def searchBits : Txt → Option Txt
  | [] => none
  | c :: cs =>
    match matchBits (c :: cs) with
    | some m => some m
    | none => searchBits cs

/-- The part of `load_raw` that reads the file name (`loading.py` 524-556): dimensions
and data type. ASCII digits only (`\d` also matches other Unicode digits). -/
def parseRawName (fileName : Txt) : Py (List Int × DType) :=
  let head := (splitext fileName).1
  match searchDims head with
  | none => .error (.valueError "No dimension found")
  | some (a, b, c) =>
    let dims : List Int := [digitsVal a, digitsVal b, digitsVal c]
    match searchBits head with
    | none => .error (.valueError "No bit depth found")
    | some bits =>
      match parseBitdepth (String.ofList bits) with
      | .error e => .error e
      | .ok dt => .ok (dims, dt)

/-! ### Binary data -/

/-- One item: little endian value of its bytes. For floating point types this is the bit
pattern of the number. -/
def leValue : List UInt8 → Nat
  | [] => 0
  | b :: bs => b.toNat + 256 * leValue bs

/-- `np.fromfile`: the whole items of a file; a trailing partial item is dropped. -/
def fromfile (itemsize : Nat) (bytes : List UInt8) : List Nat :=
  (List.range (bytes.length / itemsize)).map
    (fun k => leValue ((bytes.drop (k * itemsize)).take itemsize))

/-- Two's complement wrap-around to 64 bit. -/
def wrap64 (n : Int) : Int := (n + 2 ^ 63) % 2 ^ 64 - 2 ^ 63

/-- `loading.py` 592-612 `_load_binary` on the bytes of the data file.
Sizes of `2^63` and more cannot be converted to `np.int64` (simplified: OverflowError).
A negative size can never pass both the size check and `reshape` (ValueError). -/
def loadBinary (bytes : List UInt8) (dt : DType) (dims : List Int) : Py (NDArray Nat) :=
  let data := fromfile dt.itemsize bytes
  if dims.any (fun d => 2 ^ 63 ≤ d) then .error .overflowError
  else if (data.length : Int) ≠ wrap64 (dims.foldl (· * ·) 1) then
    .error (.valueError "Size of data file does not match dimensions")
  else if dims.any (· < 0) ∨ (data.length : Int) ≠ dims.foldl (· * ·) 1 then
    .error (.valueError "cannot reshape array")
  else
    let arr := reshape data (dims.reverse.map Int.toNat)
    match rot90 arr 1 0 2 with
    | .error e => .error e
    | .ok r => .ok (flipAxis r 0)

/-- The files that exist: content as bytes. -/
abbrev FileSystem := Txt → Option (List UInt8)

/-- `open(path, "rb")` and read. -/
def readFile (fs : FileSystem) (path : Txt) : Py (List UInt8) :=
  match fs path with
  | none => .error .fileNotFound
  | some b => .ok b

/-- `loading.py` 474-561 `load_raw`. -/
def loadRaw (fs : FileSystem) (dir name : Txt) : Py (DType × NDArray Nat) :=
  match parseRawName name with
  | .error e => .error e
  | .ok (dims, dt) =>
    match readFile fs (pathJoin dir name) with
    | .error e => .error e
    | .ok bytes =>
      match loadBinary bytes dt dims with
      | .error e => .error e
      | .ok a => .ok (dt, a)

/-! ### mhd headers -/

/-- `loading.py` 438-439: every line is split at `" = "` into exactly two parts. -/
def headerEntry (line : Txt) : Py (Txt × Txt) :=
  match splitEq line with
  | [k, v] => .ok (k, v)
  | _ => .error (.valueError "unpack")

/-- `loading.py` 434-440: all lines but the last (`file_header_txt[0:-1]`) become
dictionary entries. -/
def parseHeader (text : Txt) : Py (List (Txt × Txt)) :=
  ((splitChar '\n' text).dropLast).mapM headerEntry

/-- Dictionary lookup: of several entries with the same key the last one counts. -/
def headerGet (h : List (Txt × Txt)) (key : String) : Py Txt :=
  match (h.reverse.find? (fun e => e.1 = key.toList)) with
  | some e => .ok e.2
  | none => .error (.keyError key)

/-- What `load_mhd` takes from the header (`loading.py` 434-468): name of the data file,
dimensions and data type. -/
def parseMhd (text : Txt) : Py (Txt × List Int × DType) := do
  let h ← parseHeader text
  let file ← headerGet h "ElementDataFile"
  let dimText ← headerGet h "DimSize"
  let dims ← (splitWs dimText).mapM parseInt
  let et ← headerGet h "ElementType"
  let dt ← elementType (String.ofList et)
  .ok (file, dims, dt)

/-- `loading.py` 395-471 `load_mhd`; `text` is the content of the header file. -/
def loadMhd (fs : FileSystem) (dir text : Txt) : Py (DType × NDArray Nat) :=
  match parseMhd text with
  | .error e => .error e
  | .ok (file, dims, dt) =>
    match readFile fs (pathJoin dir file) with
    | .error e => .error e
    | .ok bytes =>
      match loadBinary bytes dt dims with
      | .error e => .error e
      | .ok a => .ok (dt, a)

/-! ### Choice of the reader -/

/-- The reader that is used for a file. -/
inductive Reader where
  | mhd | raw | nifti | imread
  deriving DecidableEq, Repr

/-- `re.search(".nii", name)`: any character but a newline, followed by `nii`. -/
def searchNii : Txt → Bool
  | [] => false
  | c :: cs => (c ≠ '\n' && "nii".toList.isPrefixOf cs) || searchNii cs

/-- `loading.py` 341-392 `_load_data_from_disk`: choice of the reader. -/
def diskReader (fileName : Txt) : Py Reader :=
  let ext := (splitext fileName).2
  if ext = ".mhd".toList then .ok .mhd
  else if ext = ".raw".toList then .ok .raw
  else if ext = ".nii".toList then .ok .nifti
  else if ext = ".gz".toList then
    if searchNii fileName then .ok .nifti
    else .error (.valueError "File extension not supported")
  else if ext ∈ [".png".toList, ".jpg".toList, ".jpeg".toList, ".bmp".toList, ".tiff".toList] then
    .ok .imread
  else .error (.valueError "File extension not supported")

end Viqa
