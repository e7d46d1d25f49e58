import Verif.Model.Statistics
import Verif.Model.Text
/-!
# Writing and reading statistics (`pyvrp/Statistics.py` 105-188)

The parts of Python's `csv` module that are used are modelled too (`Modules/_csv.c`), with the default
quote character, without escape character, and with the default line terminator. A file is its text. The
text of floating point numbers is a parameter. What raises an exception is `none`.
-/
namespace PyVRP.Csv

/-- `csv.QUOTE_MINIMAL`, `QUOTE_ALL`, `QUOTE_NONNUMERIC`, `QUOTE_NONE`. -/
inductive Quoting where
  | minimal | all | nonnumeric | none
deriving DecidableEq, Repr

abbrev Text := List Char

/-- The characters that make quotes necessary (`_csv.c`, `join_append_data`). -/
def special (delim c : Char) : Bool := c == delim || c == '"' || c == '\n' || c == '\r'

/-- Quotes are doubled. -/
def doubleQuotes : Text → Text
  | [] => []
  | c :: cs => if c = '"' then '"' :: '"' :: doubleQuotes cs else c :: doubleQuotes cs

/-- One field; `numeric` tells whether the value is a number. -/
def writeField (q : Quoting) (delim : Char) (numeric : Bool) (field : Text) : Option Text :=
  let quoted := '"' :: doubleQuotes field ++ ['"']
  match q with
  | .none => if field.any (special delim) then Option.none else some field
  | .all => some quoted
  | .nonnumeric => if !numeric || field.any (special delim) then some quoted else some field
  | .minimal => if field.any (special delim) then some quoted else some field

/-- The fields of a row, separated by the delimiter. -/
def writeFields (q : Quoting) (delim : Char) (numeric : Bool) : List Text → Option Text
  | [] => some []
  | [f] => writeField q delim numeric f
  | f :: fs =>
    match writeField q delim numeric f, writeFields q delim numeric fs with
    | some t, some rest => some (t ++ delim :: rest)
    | _, _ => Option.none

/-- `writerow`: the row ends with `\r\n`. -/
def writeRow (q : Quoting) (delim : Char) (numeric : Bool) (fields : List Text) : Option Text :=
  (writeFields q delim numeric fields).map (· ++ ['\r', '\n'])

def writeRows (q : Quoting) (delim : Char) (numeric : Bool) : List (List Text) → Option Text
  | [] => some []
  | r :: rs =>
    match writeRow q delim numeric r, writeRows q delim numeric rs with
    | some t, some rest => some (t ++ rest)
    | _, _ => Option.none

/-- Reading a file in text mode: all line ends become `\n`. -/
def universalNewlines : Text → Text
  | [] => []
  | '\r' :: '\n' :: rest => '\n' :: universalNewlines rest
  | c :: rest => (if c = '\r' then '\n' else c) :: universalNewlines rest

/-- States of the reader (`_csv.c`, `parse_process_char`). -/
inductive State where
  | startRecord | startField | inField | inQuoted | quoteInQuoted
deriving DecidableEq, Repr

/-- The rows of the remaining text, given the current field and the fields before it. -/
def parse (delim : Char) : State → Text → List Text → Text → List (List Text)
  | .startRecord, _, _, [] => []
  | _, field, row, [] => [row ++ [field]]
  | .startRecord, field, row, c :: cs =>
    if c = '\n' then [] :: parse delim .startRecord [] [] cs
    else if c = '"' then parse delim .inQuoted field row cs
    else if c = delim then parse delim .startField [] (row ++ [field]) cs
    else parse delim .inField (field ++ [c]) row cs
  | .startField, field, row, c :: cs =>
    if c = '\n' then (row ++ [field]) :: parse delim .startRecord [] [] cs
    else if c = '"' then parse delim .inQuoted field row cs
    else if c = delim then parse delim .startField [] (row ++ [field]) cs
    else parse delim .inField (field ++ [c]) row cs
  | .inField, field, row, c :: cs =>
    if c = '\n' then (row ++ [field]) :: parse delim .startRecord [] [] cs
    else if c = delim then parse delim .startField [] (row ++ [field]) cs
    else parse delim .inField (field ++ [c]) row cs
  | .inQuoted, field, row, c :: cs =>
    if c = '"' then parse delim .quoteInQuoted field row cs
    else parse delim .inQuoted (field ++ [c]) row cs
  | .quoteInQuoted, field, row, c :: cs =>
    if c = '"' then parse delim .inQuoted (field ++ [c]) row cs
    else if c = delim then parse delim .startField [] (row ++ [field]) cs
    else if c = '\n' then (row ++ [field]) :: parse delim .startRecord [] [] cs
    else parse delim .inField (field ++ [c]) row cs

/-- `csv.DictReader`: the first row has the names, empty rows are skipped. -/
def dictRows (rows : List (List Text)) : List (List (Text × Text)) :=
  match rows with
  | [] => []
  | header :: rest => (rest.filter (· ≠ [])).map fun row => header.zip row

/-- Value of a name; the last one counts. -/
def value (row : List (Text × Text)) (name : String) : Option Text :=
  ((row.filter fun p => p.1 = name.toList).getLast?).map (·.2)

/-- `str` of an integer. -/
def showInt (n : Int) : Text := if n < 0 then '-' :: decimal n.natAbs else decimal n.natAbs

/-- `int` of a text: an optional sign and digits. Spaces and underscores, which Python allows too, are
left out. -/
def readInt (t : Text) : Option Int :=
  let negative := t.head? == some '-'
  let digits := if t.head? == some '-' || t.head? == some '+' then t.drop 1 else t
  if digits = [] ∨ ¬ digits.all isDigit then Option.none
  else some (if negative then - (readDigits digits : Int) else (readDigits digits : Int))

/-- `bool(int(value))`. -/
def readBool (t : Text) : Option Bool := (readInt t).map (· ≠ 0)

end Csv

open Csv

namespace Statistics

/-- Names of the columns (`Statistics.py` 176). -/
def header : List String :=
  ["runtime", "current_cost", "current_feas", "candidate_cost", "candidate_feas", "best_cost",
   "best_feas"]

/-- `int(v)` for a truth value. -/
def showBool (b : Bool) : Text := showInt (if b then 1 else 0)

/-- The row of a datum (`Statistics.py` 183-188), in the order of the header. -/
def csvRow (showFloat : Int → Text) (datum : Datum) (runtime : Int) : List Text :=
  [showFloat runtime, showInt datum.currentCost, showBool datum.currentFeas,
   showInt datum.candidateCost, showBool datum.candidateFeas, showInt datum.bestCost,
   showBool datum.bestFeas]

/-- `to_csv` (`Statistics.py` 153-188). -/
def toCsv (showFloat : Int → Text) (q : Quoting) (delim : Char) (s : Statistics) : Option Text :=
  match writeRow q delim false (header.map (·.toList)),
      writeRows q delim true
        ((s.data.zip s.runtimes).map fun r => csvRow showFloat r.1 r.2) with
  | some head, some rows => some (head ++ rows)
  | _, _ => Option.none

/-- `make_datum` (`Statistics.py` 129-139): all fields are needed. -/
def makeDatum (row : List (Text × Text)) : Option Datum :=
  match (value row "current_cost").bind readInt, (value row "current_feas").bind readBool,
    (value row "candidate_cost").bind readInt, (value row "candidate_feas").bind readBool,
    (value row "best_cost").bind readInt, (value row "best_feas").bind readBool with
  | some a, some b, some c, some d, some e, some f => some ⟨a, b, c, d, e, f⟩
  | _, _, _, _, _, _ => Option.none

/-- The loop over the rows (`Statistics.py` 146-149). -/
def readRows (readFloat : Text → Option Int) (s : Statistics) :
    List (List (Text × Text)) → Option Statistics
  | [] => some s
  | row :: rest =>
    match (value row "runtime").bind readFloat, makeDatum row with
    | some runtime, some datum =>
      readRows readFloat { s with
        runtimes := s.runtimes ++ [runtime]
        numIterations := s.numIterations + 1
        data := s.data ++ [datum] } rest
    | _, _ => Option.none

/-- `from_csv` (`Statistics.py` 105-151). -/
def fromCsv (readFloat : Text → Option Int) (delim : Char) (text : Text) (now : Int) :
    Option Statistics :=
  readRows readFloat (Statistics.make true now)
    (dictRows (parse delim .startRecord [] [] (universalNewlines text)))

end Statistics
end PyVRP
