import Verif.Model.Text

/-!
Model of the pair files: `csv.writer` as used by `src/scripts/write_to_csv.py` (dialect `excel`), and
`_read_pairs` of `src/viqa/multiple.py` 653-666 with `csv.Sniffer`, the state machine of `csv.reader`
(CPython `Modules/_csv.c`, `parse_process_char`) and `csv.DictReader`. Files are opened with `newline=""`, so
the text is neither translated when written nor when read.
-/

namespace Viqa

/-! ### Writing -/

/-- A field is quoted if it contains the delimiter, a quote or a line break; quotes are doubled. -/
def writeField (d : Char) (s : Txt) : Txt :=
  if s.any (fun c => c = d || c = '"' || c = '\r' || c = '\n') then
    '"' :: s.flatMap (fun c => if c = '"' then ['"', '"'] else [c]) ++ ['"']
  else s

/-- The fields of a row with delimiters in between. -/
def writeFields (d : Char) : List Txt → Txt
  | [] => []
  | [f] => writeField d f
  | f :: fs => writeField d f ++ d :: writeFields d fs

/-- `writer.writerow`. A single empty field is quoted. -/
def writeRow (d : Char) (fs : List Txt) : Txt :=
  (if fs = [[]] then ['"', '"'] else writeFields d fs) ++ ['\r', '\n']

/-- A file of rows. -/
def writeRows (d : Char) (rows : List (List Txt)) : Txt := rows.flatMap (writeRow d)

/-! ### Reading -/

/-- What the state machine is fed with: the characters of a line, then the end of the line. -/
inductive CsvTok where
  | ch (c : Char)
  | eol
  deriving DecidableEq, Repr

/-- The lines of a file opened with `newline=""` end with `\r\n`, `\r` or `\n`, which are kept. -/
def csvTokens : Txt → List CsvTok
  | [] => []
  | '\r' :: '\n' :: r => .ch '\r' :: .ch '\n' :: .eol :: csvTokens r
  | c :: r =>
    if c = '\r' ∨ c = '\n' ∨ r = [] then .ch c :: .eol :: csvTokens r
    else .ch c :: csvTokens r

inductive CsvState where
  | startRecord | startField | inField | inQuoted | quoteInQuoted | eatCrnl
  deriving DecidableEq, Repr

/-- State, characters of the current field, fields of the current row, finished rows. -/
structure CsvReader where
  st : CsvState := .startRecord
  field : Txt := []
  row : List Txt := []
  rows : List (List Txt) := []
  deriving DecidableEq, Repr

namespace CsvReader

/-- `parse_save_field` and the next state. -/
def save (r : CsvReader) (st : CsvState) : CsvReader := { r with st := st, field := [], row := r.row ++ [r.field] }

/-- `parse_add_char` and the next state. -/
def add (r : CsvReader) (c : Char) (st : CsvState) : CsvReader := { r with st := st, field := r.field ++ [c] }

/-- State after the end of a field by a token that is not the delimiter. -/
def afterEnd : CsvTok → CsvState
  | .eol => .startRecord
  | .ch _ => .eatCrnl

/-- The token is an end of line for the state machine. -/
def isEnd : CsvTok → Bool
  | .eol => true
  | .ch c => c = '\r' || c = '\n'

/-- The state `START_FIELD`. With `skip` spaces at the start of a field are dropped. -/
def stepStartField (d : Char) (r : CsvReader) (t : CsvTok) (skip : Bool := false) : CsvReader :=
  if isEnd t then r.save (afterEnd t)
  else match t with
    | .eol => r
    | .ch c =>
      if c = '"' then { r with st := .inQuoted }
      else if c = ' ' ∧ skip = true then { r with st := .startField }
      else if c = d then r.save .startField
      else r.add c .inField

/-- One token. `dq` is `doublequote` of the dialect, `skip` is `skipinitialspace`; the other settings are those of
all dialects used: no escape character, not strict. -/
def step (d : Char) (dq : Bool) (r : CsvReader) (t : CsvTok) (skip : Bool := false) : Py CsvReader :=
  match r.st with
  | .startRecord =>
    match t with
    | .eol => .ok r
    | .ch c => if c = '\r' ∨ c = '\n' then .ok { r with st := .eatCrnl } else .ok (stepStartField d r t skip)
  | .startField => .ok (stepStartField d r t skip)
  | .inField =>
    if isEnd t then .ok (r.save (afterEnd t))
    else match t with
      | .eol => .ok r
      | .ch c => if c = d then .ok (r.save .startField) else .ok (r.add c .inField)
  | .inQuoted =>
    match t with
    | .eol => .ok r
    | .ch c => if c = '"' then .ok { r with st := if dq then .quoteInQuoted else .inField } else .ok (r.add c .inQuoted)
  | .quoteInQuoted =>
    if isEnd t then .ok (r.save (afterEnd t))
    else match t with
      | .eol => .ok r
      | .ch c =>
        if c = '"' then .ok (r.add c .inQuoted) else if c = d then .ok (r.save .startField) else .ok (r.add c .inField)
  | .eatCrnl =>
    match t with
    | .eol => .ok { r with st := .startRecord }
    | .ch c => if c = '\r' ∨ c = '\n' then .ok r else .error (.valueError "new-line character seen in unquoted field")

/-- A row is finished when the state after the end of a line is `START_RECORD`. -/
def emit (r : CsvReader) (t : CsvTok) : CsvReader :=
  if t = .eol ∧ r.st = .startRecord then { r with row := [], rows := r.rows ++ [r.row] } else r

def run (d : Char) (dq : Bool) (r : CsvReader) (ts : List CsvTok) (skip : Bool := false) : Py CsvReader :=
  match ts with
  | [] => .ok r
  | t :: ts => match r.step d dq t skip with
    | .error e => .error e
    | .ok r' => run d dq (r'.emit t) ts skip

/-- At the end of the file an unfinished field becomes a row. -/
def finish (r : CsvReader) : List (List Txt) :=
  if r.field ≠ [] ∨ r.st = .inQuoted then r.rows ++ [r.row ++ [r.field]] else r.rows

end CsvReader

/-- All rows of a text. -/
def csvRows (d : Char) (dq : Bool) (text : Txt) (skip : Bool := false) : Py (List (List Txt)) :=
  match CsvReader.run d dq {} (csvTokens text) skip with
  | .error e => .error e
  | .ok r => .ok r.finish

/-- The first line. -/
def firstLine (text : Txt) : Txt := text.takeWhile (fun c => c ≠ '\n' && c ≠ '\r')

/-- Every delimiter is followed by a space: `line.count(d) == line.count(d + " ")`. -/
def allSpaced (d : Char) : Txt → Bool
  | [] => true
  | c :: r => (c ≠ d || r.head? = some ' ') && allSpaced d r

/-- `csv.Sniffer().sniff(line, ",;\t")` of one line without quotes (`_guess_delimiter`): the delimiter and
`skipinitialspace`; `doublequote` is false. Of several delimiters the first one in the list of preferred ones is
taken. The heuristics for lines with quotes are not modelled. `csv.Error` is represented by ValueError. -/
def sniff (line : Txt) : Py (Char × Bool) :=
  match [',', '\t', ';'].filter (fun d => d ∈ line) with
  | d :: _ => .ok (d, allSpaced d line)
  | [] => .error (.valueError "Could not determine delimiter")

/-- A row of `DictReader`: the value of a column, `None` if the row is too short. Of several columns with the
same name the last one counts. -/
def dictGet (header row : List Txt) (key : Txt) : Option Txt :=
  ((header.zipIdx.reverse.find? (fun e => e.1 = key)).bind (fun e => row[e.2]?))

/-- `multiple.py` 653-666 `_read_pairs` for a first line without quotes: the columns used of each row. Rows without
any field are skipped. -/
def readPairs (text : Txt) : Py (List (Option Txt × Option Txt)) :=
  match sniff (firstLine text) with
  | .error e => .error e
  | .ok (d, skip) => match csvRows d false text skip with
    | .error e => .error e
    | .ok rows => match rows.filter (· ≠ []) with
      | [] => .error (.typeError "argument of type 'NoneType' is not iterable")
      | header :: rest =>
        if "reference_image".toList ∈ header ∧ "modified_image".toList ∈ header then
          .ok (rest.map (fun r => (dictGet header r "reference_image".toList, dictGet header r "modified_image".toList)))
        else .error (.valueError "CSV file must contain the columns 'reference_image' and 'modified_image'.")

/-! ### write_to_csv.py -/

/-- `os.path.basename(file).split(".")[0]` (lines 37-38). -/
def stem (name : Txt) : Txt := name.takeWhile (· ≠ '.')

/-- Lines 36-43: the rows for the names of the files found by `glob`. -/
def pairRows (refs mods : List Txt) : List (Txt × Txt) :=
  refs.flatMap (fun r => mods.filterMap (fun m => if stem r = m.take 3 then some (r, m) else none))

/-- The file `pairs.csv`. -/
def pairFile (refs mods : List Txt) : Txt :=
  writeRows ',' (["reference_image".toList, "modified_image".toList] :: (pairRows refs mods).map (fun p => [p.1, p.2]))

/-- Lines 62-78: arguments after the name of the script; `copy` is read from `sys.argv[4]`. -/
def csvArgs (args : List Txt) : Py (Option (Txt × Txt × Txt × Bool)) :=
  if args.length + 1 > 3 then
    match args[3]? with
    | none => .error .indexError
    | some c => .ok (some (args.getD 0 [], args.getD 1 [], args.getD 2 [], c = "copy".toList))
  else .ok none

/-- Lines 28-32: whether the directories `path_csv` and `path_csv/images` exist afterwards. -/
def csvDirs (csvExists imagesExists copy : Bool) : Bool × Bool :=
  if csvExists then (true, imagesExists) else (true, copy)

/-- Lines 28-52: the rows are written; copying needs the directory `images` as soon as there is a pair. -/
def writeToCsv (refs mods : List Txt) (csvExists imagesExists copy : Bool) : Py (List (Txt × Txt)) :=
  if copy ∧ pairRows refs mods ≠ [] ∧ (csvDirs csvExists imagesExists copy).2 = false then .error .fileNotFound
  else .ok (pairRows refs mods)

end Viqa
