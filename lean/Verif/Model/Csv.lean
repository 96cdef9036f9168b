import Verif.Base.Outcome
import Verif.Base.AMap

/-!
# Model of `libs/hdd/csvreader.cpp`

Strings are lists of characters.
-/

namespace Verif.Csv

abbrev Str := List Char

/-- csvreader.cpp:37-42 -/
inductive CSVState where
  | unquotedField
  | quotedField
  | quotedQuote
deriving DecidableEq, Repr

/-- local variables of `readRow`: state, the finished fields `fields[0..i)` and the current one
`fields[i]` (csvreader.cpp:46-48; `i` is always the index of the last field) -/
structure Parser where
  state : CSVState
  done : List Str
  cur : Str
deriving DecidableEq, Repr

/-- csvreader.cpp:46-48 -/
def Parser.init : Parser := ⟨.unquotedField, [], []⟩

/-- csvreader.cpp:49-89, one character -/
def Parser.step (p : Parser) (c : Char) : Parser :=
  match p.state with
  | .unquotedField =>
    if c = ',' then { p with done := p.done ++ [p.cur], cur := [] }
    else if c = '"' then { p with state := .quotedField }
    else { p with cur := p.cur ++ [c] }
  | .quotedField =>
    if c = '"' then { p with state := .quotedQuote }
    else { p with cur := p.cur ++ [c] }
  | .quotedQuote =>
    if c = ',' then { state := .unquotedField, done := p.done ++ [p.cur], cur := [] }
    else if c = '"' then { p with state := .quotedField, cur := p.cur ++ ['"'] }
    else { p with state := .unquotedField }

/-- csvreader.cpp:44-91 -/
def readRow (row : Str) : List Str :=
  let p := row.foldl Parser.step Parser.init
  p.done ++ [p.cur]

/-- csvreader.cpp:98-104: the lines `getline` delivers before it fails.  `getline` fails when
nothing is left, so a line break at the end of the file starts no further line. `cur` is the part
of the current line read so far. -/
def linesAux : Str → Str → List Str
  | [], [] => []
  | cur, [] => [cur]
  | cur, c :: s => if c = '\n' then cur :: linesAux [] s else linesAux (cur ++ [c]) s

/-- csvreader.cpp:98-104 -/
def lines (s : Str) : List Str := linesAux [] s

/-- csvreader.cpp:105-109 -/
def stripCr (row : Str) : Str := if row.getLast? = some '\r' then row.dropLast else row

/-- csvreader.cpp:94-114 (the bytes of the stream are the argument; simplification: no I/O error) -/
def read (s : Str) : List (List Str) := (lines s).map fun l => readRow (stripCr l)

/-- csvreader.cpp:131-135: one row, assignments in header order -/
def formatRow (header : List Str) (columns : List Str) : AMap Str Str :=
  header.zipIdx.foldl (fun row hi => row.set hi.1 (columns.getD hi.2 [])) []

/-- csvreader.cpp:122-139 -/
def format (header : List Str) (rows : List (List Str)) : List (AMap Str Str) :=
  rows.map (formatRow header)

/-- csvreader.cpp:141-145; `rows[0]` and `rows.begin() + 1` on an empty vector are undefined
behaviour -/
def readWithHeader (s : Str) : Outcome (List (AMap Str Str)) :=
  match read s with
  | [] => .ub
  | header :: rows => .ok (format header rows)

end Verif.Csv
