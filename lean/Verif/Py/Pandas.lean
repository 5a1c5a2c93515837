import Verif.Py.Fmt
import Verif.Py.Calendar

/-! The part of pandas that the readers of `io.py` use: tables, `read_csv`, `read_fwf`, `concat`, `to_datetime`.

A file is the list of its lines without their line ends.  Quoted fields are not modelled. -/

namespace Shipgrav

/-- A value in a table: a number, NaN (also NaT and `None`), a text, or an instant (microseconds since 1970, UTC). -/
inductive Val
  | num (q : ℚ)
  | nan
  | text (s : Str)
  | time (t : ℤ)
  deriving DecidableEq

/-- A DataFrame with a fresh index: its column names from left to right, and its rows.  A row gives NaN for a column it
does not have. -/
structure Table where
  cols : List Str
  rows : List (Str → Val)

/-- The column `c` of a table. -/
def Table.col (t : Table) (c : Str) : List Val := t.rows.map (· c)

/-- A table of `n` rows made from named columns. -/
def Table.ofCols (n : ℕ) (cs : List (Str × List Val)) : Table :=
  ⟨cs.map Prod.fst, (List.range n).map fun i c =>
    match cs.lookup c with
    | some col => col.getD i .nan
    | none => .nan⟩

/-- `t[c] = v` row by row: the column is replaced, or appended on the right. -/
def Table.set (t : Table) (c : Str) (v : List Val) : Table :=
  ⟨if c ∈ t.cols then t.cols else t.cols ++ [c], List.zipWith (fun r x => Function.update r c x) t.rows v⟩

/-- `t[c]` : `KeyError` if there is no such column. -/
def Table.get (t : Table) (c : Str) : Except PyErr (List Val) :=
  if c ∈ t.cols then .ok (t.col c) else .error .keyError

/-- The columns of several tables, in order of first appearance. -/
def unionCols (ts : List Table) : List Str :=
  ts.foldl (fun acc t => acc ++ t.cols.filter (fun c => c ∉ acc)) []

/-- `pd.concat(ts, ignore_index=True)`; `ValueError` on an empty list. -/
def concat (ts : List Table) : Except PyErr Table :=
  if ts = [] then .error .valueError else .ok ⟨unionCols ts, (ts.map Table.rows).flatten⟩

/-- `scale * x` and `x.mul(scale)` for a float `scale`; a text or an instant raises `TypeError`. -/
def mulVal (scale : ℚ) : Val → Except PyErr Val
  | .num q => .ok (.num (scale * q))
  | .nan => .ok .nan
  | _ => .error .typeError

/-! ### Numbers in text columns -/

/-- The texts `read_csv` takes for missing values. -/
def naTexts : List Str :=
  ["", "#N/A", "#N/A N/A", "#NA", "-1.#IND", "-1.#QNAN", "-NaN", "-nan", "1.#IND", "1.#QNAN", "<NA>", "N/A", "NA", "NULL",
   "NaN", "None", "n/a", "nan", "null"].map String.toList

/-- A field as a number: `none` if it is not one, NaN for a missing value.  Infinities are merged with NaN. -/
def numText (s : Str) : Option Val :=
  if s ∈ naTexts then some .nan
  else if '_' ∈ s then none
  else match parseFloat s with
    | some (.fin q) => some (.num q)
    | some _ => some .nan
    | none => none

/-- A field that may be absent (short record). -/
def numField : Option Str → Option Val
  | none => some .nan
  | some s => numText s

def textField : Option Str → Val
  | none => .nan
  | some s => if s ∈ naTexts then .nan else .text s

/-- A column of `read_csv` without converter: numbers if every field is one, else texts. -/
def csvColumn (fs : List (Option Str)) : List Val :=
  match fs.mapM numField with
  | some vs => vs
  | none => fs.map textField

/-- A field that is a whole number written without sign.  A column of such fields has an integer type; one with other numbers or with missing
values is floating. -/
def intField : Option Str → Bool
  | none => false
  | some s => !(strip s).isEmpty && (strip s).all isDigit

/-- A blank in the sense of the tokenizer of `read_csv`. -/
def csvBlank (c : Char) : Bool := c == ' ' || c == '\t'

/-- The lines that `read_csv` takes for records: it skips lines of blanks, unless they begin with the separator. -/
def csvRecords (delim : Char) (lines : List Str) : List Str := lines.filter fun l => !(l.all csvBlank && l.head? != some delim)

/-- Field `i` of a record. -/
def csvField (delim : Char) (i : ℕ) (record : Str) : Option Str := (splitC delim record)[i]?

/-- `read_csv(path, delimiter, names, usecols)`, with `sel` the list of (name, field number): raises when the file is empty
and when some selected field exists in no record (`EmptyDataError` and `ParserError` are `ValueError`s). -/
def readCsv (delim : Char) (sel : List (Str × ℕ)) (recs : List Str) : Except PyErr Table :=
  if recs = [] ∨ ∃ s ∈ sel, ∀ r ∈ recs, csvField delim s.2 r = none then .error .valueError
  else .ok (Table.ofCols recs.length (sel.map fun s => (s.1, csvColumn (recs.map (csvField delim s.2)))))

/-! ### Instants in text columns -/

/-- A number of exactly `w` digits. -/
def fixedNat (w : ℕ) (s : Str) : Option ℕ := if s.length = w ∧ s.all isDigit then some (runVal s) else none

/-- `hh:mm:ss.f…f`, one to six decimals: hour, minute, second, microsecond. -/
def clockFields (c : Str) : Option (ℕ × ℕ × ℕ × ℕ) :=
  match splitC ':' c with
  | [h, m, sf] =>
    match splitC '.' sf with
    | [s, f] =>
      if 1 ≤ f.length ∧ f.length ≤ 6 ∧ f.all isDigit then do
        return (← fixedNat 2 h, ← fixedNat 2 m, ← fixedNat 2 s, runVal f * 10 ^ (6 - f.length))
      else none
    | _ => none
  | _ => none

/-- The instant of a date and a clock text; `datetime64[ns]` covers the whole years 1678–2261. -/
def stampOf (y m d : Option ℕ) (clock : Str) : Option ℤ := do
  let (h, mi, s, us) ← clockFields clock
  let y ← y
  let m ← m
  let d ← d
  if 1678 ≤ y ∧ y ≤ 2261 then
    match mkDatetime y m d h mi s us with
    | .ok t => some t
    | .error _ => none
  else none

/-- `yyyy/mm/dd hh:mm:ss.f…f` -/
def stampYmd (s : Str) : Option ℤ :=
  match splitC ' ' s with
  | [d, c] =>
    match splitC '/' d with
    | [y, m, d] => stampOf (fixedNat 4 y) (fixedNat 2 m) (fixedNat 2 d) c
    | _ => none
  | _ => none

/-- `mm/dd/yyyy hh:mm:ss.f…f` -/
def stampMdy (s : Str) : Option ℤ :=
  match splitC ' ' s with
  | [d, c] =>
    match splitC '/' d with
    | [m, d, y] => stampOf (fixedNat 4 y) (fixedNat 2 m) (fixedNat 2 d) c
    | _ => none
  | _ => none

/-- `yyyy-mm-ddThh:mm:ss.f…fZ` -/
def stampIso (s : Str) : Option ℤ :=
  match splitC 'Z' s with
  | [body, []] =>
    match splitC 'T' body with
    | [d, c] =>
      match splitC '-' d with
      | [y, m, d] => stampOf (fixedNat 4 y) (fixedNat 2 m) (fixedNat 2 d) c
      | _ => none
    | _ => none
  | _ => none

/-- The column as instants if every text in it is one of the given form. -/
def stampColumn (stamp : Str → Option ℤ) (col : List (Option Str)) : Option (List Val) :=
  col.mapM fun
    | none => some .nan
    | some s => (stamp s).map Val.time

/-- How pandas converts a column of texts in none of the three forms above: it guesses a format from the first text and
may succeed or raise.  The theorems hold whatever it does, so it is a parameter of the model. -/
abbrev OtherTimes := List (Option Str) → Except PyErr (List Val)

/-- `pd.to_datetime(col, utc=True)` on a column of texts. -/
def toDatetime (other : OtherTimes) (col : List (Option Str)) : Except PyErr (List Val) :=
  match stampColumn stampYmd col with
  | some v => .ok v
  | none =>
    match stampColumn stampMdy col with
    | some v => .ok v
    | none =>
      match stampColumn stampIso col with
      | some v => .ok v
      | none => other col

/-! ### Fixed-width files -/

/-- `read_fwf`'s default delimiters `'\n\r\t '`. -/
def fwfBlank (c : Char) : Bool := c == '\n' || c == '\r' || c == '\t' || c == ' '

/-- Position `i` is covered by a non-blank character of some row. -/
def fwfMask (rows : List Str) (i : ℕ) : Bool := rows.any fun r => match r[i]? with | some c => !fwfBlank c | none => false

/-- Worker of `fwfEdges`: `start` is the beginning of the run that reaches position `i`, if any. -/
def fwfGo (mask : ℕ → Bool) : (fuel i : ℕ) → (start : Option ℕ) → List (ℕ × ℕ)
  | 0, i, some a => [(a, i)]
  | 0, _, none => []
  | n + 1, i, some a => if mask i then fwfGo mask n (i + 1) (some a) else (a, i) :: fwfGo mask n (i + 1) none
  | n + 1, i, none => if mask i then fwfGo mask n (i + 1) (some i) else fwfGo mask n (i + 1) none

/-- `FixedWidthReader.detect_colspecs`: the maximal runs of covered positions in the first 100 rows. -/
def fwfEdges (recs : List Str) : List (ℕ × ℕ) :=
  let rows := recs.take 100
  fwfGo (fwfMask rows) ((rows.map List.length).foldl max 0) 0 none

/-- `line[a:b].strip('\n\r\t ')` -/
def fwfField (e : ℕ × ℕ) (line : Str) : Str := stripChars ['\n', '\r', '\t', ' '] (slice e.1 e.2 line)

/-- The lines that `read_fwf` takes for records: it skips those whose fields are all empty. -/
def fwfRecords (edges : List (ℕ × ℕ)) (lines : List Str) : List Str := lines.filter fun l => edges.any fun e => !(strip (fwfField e l)).isEmpty

example : fwfEdges ["vc01\t2020:244\t04:025229 00".toList, "vc01\t2020:245\t04:025230 00".toList]
    = [(0, 4), (5, 13), (14, 23), (24, 26)] := by decide +kernel
example : stampYmd "2022/07/01 12:17:33.492".toList = some 1656677853492000 := by decide +kernel
example : stampMdy "03/13/2022 00:00:02.449".toList = some 1647129602449000 := by decide +kernel
example : stampIso "2022-11-07T17:13:45.329611Z".toList = some 1667841225329611 := by decide +kernel
example : stampYmd "2022/02/29 12:17:33.492".toList = none := by decide +kernel

end Shipgrav
