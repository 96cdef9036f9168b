import Mathlib.Data.List.Basic

/-!
# CSV text (specification)

How a table is written as CSV text: a field is written bare or between quotes with inner quotes
doubled, fields are separated by commas, rows end with a line break.
-/

namespace Verif.Csv.Spec

/-- inner quotes doubled -/
def doubled : List Char → List Char
  | [] => []
  | c :: s => if c = '"' then '"' :: '"' :: doubled s else c :: doubled s

def quoted (f : List Char) : List Char := '"' :: (doubled f ++ ['"'])

/-- text of a field: quoted, or bare when it contains neither comma nor quote -/
inductive FieldText : List Char → List Char → Prop where
  | quoted (f : List Char) : FieldText f (Spec.quoted f)
  | bare {f : List Char} (h : ∀ c ∈ f, c ≠ ',' ∧ c ≠ '"') : FieldText f f

/-- text of a row: the field texts separated by commas -/
inductive RowText : List (List Char) → List Char → Prop where
  | last {f s} (h : FieldText f s) : RowText [f] s
  | cons {f s fs r} (h : FieldText f s) (hr : RowText fs r) : RowText (f :: fs) (s ++ ',' :: r)

/-- text of a table: every row ends with a line feed or carriage return + line feed; the last row
may lack it when its text is not empty -/
inductive TableText : List (List (List Char)) → List Char → Prop where
  | nil : TableText [] []
  | lf {row r rows t} (h : RowText row r) (ht : TableText rows t) :
      TableText (row :: rows) (r ++ '\n' :: t)
  | crlf {row r rows t} (h : RowText row r) (ht : TableText rows t) :
      TableText (row :: rows) (r ++ '\r' :: '\n' :: t)
  | unterminated {row r} (h : RowText row r) (hne : r ≠ []) : TableText [row] r

/-- number of commas outside quotes: those preceded by an even number of quotes -/
def freeCommas (q : Nat) : List Char → Nat
  | [] => 0
  | c :: s =>
    if c = '"' then freeCommas (q + 1) s
    else if c = ',' ∧ q % 2 = 0 then freeCommas q s + 1
    else freeCommas q s

end Verif.Csv.Spec
