import Verif.Model.Bgm
import Mathlib.Data.Int.Log

/-! Model of the DGS readers, `/repo/shipgrav/io.py` lines 541–777.  A file is the list of its lines without line ends. -/

namespace Shipgrav

/-- What pandas does with dates outside the forms modelled here: it may succeed, with one value per row, or raise.  The
theorems hold whatever it does.  Lines 593, 605, 615, 663, 722, 754, 776. -/
structure Dates where
  /-- `to_datetime` guessing a format -/
  times : OtherTimes
  /-- `to_datetime` on the six columns year … second -/
  parts : List (List Val) → Except PyErr (List Val)
  /-- `to_datetime` with format `%Y%m%d%H%M%S` -/
  digits : List Val → Except PyErr (List Val)
  /-- `to_datetime` with format `ISO8601` -/
  iso : List (Option Str) → Except PyErr (List Val)
  /-- `to_datetime` with format `%m/%d/%Y:%H:%M:%S.%f` -/
  mdy : List (Option Str) → Except PyErr (List Val)
  times_length : ∀ l v, times l = .ok v → v.length = l.length
  parts_length : ∀ l v, parts l = .ok v → v.length = l.length
  digits_length : ∀ l v, digits l = .ok v → v.length = l.length
  iso_length : ∀ l v, iso l = .ok v → v.length = l.length
  mdy_length : ∀ l v, mdy l = .ok v → v.length = l.length

/-- `pd.to_numeric(x, errors='coerce')` on one text.  Lines 661, 773. -/
def toNumeric (s : Str) : Val := (numText s).getD .nan

/-! ### Laptop files -/

/-- The columns the laptop readers pick (lines 589–592, 601–604, 655–657). -/
def laptopCols : List (Str × ℕ) :=
  [("rgrav".toList, 1), ("long_a".toList, 2), ("crss_a".toList, 3), ("status".toList, 6), ("ve".toList, 10), ("vcc".toList, 11),
   ("al".toList, 12), ("ax".toList, 13), ("lat".toList, 14), ("lon".toList, 15), ("year".toList, 19), ("month".toList, 20),
   ("day".toList, 21), ("hour".toList, 22), ("minute".toList, 23), ("second".toList, 24)]

/-- The six columns that make an instant.  Lines 593–594, 605, 663–664. -/
def partNames : List Str := ["year", "month", "day", "hour", "minute", "second"].map String.toList

/-- A non-negative whole number.  Lines 593–594, 605, 663–664. -/
def natOf : Val → Option ℕ
  | .num q => if q.den = 1 ∧ 0 ≤ q.num then some q.num.toNat else none
  | _ => none

/-- Microseconds from a number of seconds below 60, if it is a whole number of them.  Lines 593–594, 605, 663–664. -/
def microsOf : Val → Option ℕ
  | .num q => if (q * 1000000).den = 1 ∧ 0 ≤ q ∧ q < 60 then some (q * 1000000).num.toNat else none
  | _ => none

/-- The instant from year, month, day, hour, minute and second.  Lines 593–594, 605, 663–664. -/
def stampParts : List Val → Option ℤ
  | [y, m, d, h, mi, s] => do
    let y ← natOf y
    let m ← natOf m
    let d ← natOf d
    let h ← natOf h
    let mi ← natOf mi
    let us ← microsOf s
    if 1678 ≤ y ∧ y ≤ 2261 then
      match mkDatetime y m d h mi (us / 1000000 : ℕ) (us % 1000000 : ℕ) with
      | .ok t => some t
      | .error _ => none
    else none
  | _ => none

/-- `pd.to_datetime(dat[['year', …, 'second']], utc=True)`; `whole` tells whether the columns year, month and day have an integer type.
Lines 593–594, 605, 663–664. -/
def assemble (dates : Dates) (whole : Bool) (t : Table) : Except PyErr (List Val) :=
  let rows := t.rows.map fun r => partNames.map r
  match if whole then rows.mapM stampParts else none with
  | some v => .ok (v.map Val.time)
  | none => dates.parts rows

/-- `_dgs_laptop_general`, lines 586–595. -/
def laptopGeneral (dates : Dates) (lines : List Str) : Except PyErr Table := do
  let dat ← readCsv ',' laptopCols (csvRecords ',' lines)
  let whole := [19, 20, 21].all fun j => (csvRecords ',' lines).all fun r => intField (csvField ',' j r)
  return dat.set "date_time".toList (← assemble dates whole dat)

/-- `_dgs_laptop_Sikuliaq`, lines 598–606: the first 19 lines are skipped. -/
def laptopSikuliaq (dates : Dates) (lines : List Str) : Except PyErr Table := laptopGeneral dates (lines.drop 19)

/-- `_dgs_laptop_Thompson`, lines 609–616. -/
def laptopThompson (dates : Dates) (lines : List Str) : Except PyErr Table := do
  csvOk ',' [0, 1, 3, 12, 13, 14, 15, 16, 17] (csvRecords ',' lines)
  let dat ← readCsv ',' [("rgrav".toList, 3), ("ve".toList, 12), ("vcc".toList, 13), ("al".toList, 14), ("ax".toList, 15),
    ("lat".toList, 16), ("lon".toList, 17)] (csvRecords ',' lines)
  return dat.set "date_time".toList (← dateTimes dates.times ',' 0 1 (csvRecords ',' lines))

/-- `s.split(None, 2)[2]` without its line end, if there are three parts (lines 629–634). -/
def thirdPart (s : Str) : Option Str :=
  let r1 := (s.dropWhile fun c => !isSpace c).dropWhile isSpace
  let r2 := (r1.dropWhile fun c => !isSpace c).dropWhile isSpace
  if r2 = [] then none else some r2

/-- Lines 626–636: the line without its prefix; `none` if it is skipped. -/
def langsethTail (raw : Str) : Option Str :=
  let s := lstrip raw
  if startsWith "dgsdata".toList s then thirdPart s else some s

/-- Lines 622–644: the fields of the lines that are kept. -/
def langsethCleaned : List Str → List (List Str)
  | [] => []
  | raw :: lines =>
    match langsethTail raw with
    | none => langsethCleaned lines
    | some tail =>
      let fields := splitC ',' tail
      if fields.length ≠ 26 then langsethCleaned lines else fields :: langsethCleaned lines

/-- `_dgs_laptop_Langseth`, lines 618–665. -/
def laptopLangseth (dates : Dates) (lines : List Str) : Except PyErr Table :=
  let cleaned := langsethCleaned lines
  if cleaned = [] then .ok ⟨laptopCols.map Prod.fst ++ ["date_time".toList], []⟩
  else do
    let dat := Table.ofCols cleaned.length (laptopCols.map fun s => (s.1, cleaned.map fun f => toNumeric (f.getD s.2 [])))
    let whole := [19, 20, 21].all fun j => cleaned.all fun f => intField f[j]?
    return dat.set "date_time".toList (← assemble dates whole dat)

/-- One path, or a list of them.  Lines 561–562, 686–687. -/
inductive Paths (α : Type)
  | one (f : α)
  | many (fs : List α)

/-- Lines 561–562 and 686–687. -/
def Paths.list {α : Type} : Paths α → List α
  | .one f => [f]
  | .many fs => fs

/-- Lines 566–579: the reader; `none` is the `-999` of line 579. -/
def laptopBuiltin (dates : Dates) (ship : Str) : Option TableReader :=
  if ship ∈ ["Atlantis", "Revelle", "NBP", "Ride", "DGStest"].map String.toList then some (laptopGeneral dates)
  else if ship = "Thompson".toList then some (laptopThompson dates)
  else if ship = "Sikuliaq".toList then some (laptopSikuliaq dates)
  else if ship = "Langseth".toList then some (laptopLangseth dates)
  else none

/-- Lines 564–583, with `dats` the tables collected so far. -/
def laptopLoop (read : Option TableReader) : List (List Str) → List Table → Except PyErr (Ret Table)
  | [], dats => (concat dats).map Ret.val
  | f :: fs, dats =>
    match read with
    | none => .ok .sentinel
    | some r => do
      let dat ← r f
      laptopLoop read fs (dats ++ [dat])

/-- `read_dgs_laptop`, lines 545–583. -/
def readDgsLaptop (dates : Dates) (fp : Paths (List Str)) (ship : Str) (shipFunction : Option TableReader) :
    Except PyErr (Ret Table) :=
  laptopLoop (shipFunction.or (laptopBuiltin dates ship)) fp.list []

/-! ### Raw files -/

/-- The columns of `_dgs_raw_general` (lines 711–715). -/
def rawNames : List Str :=
  ["string", "Gravity", "Long", "Cross", "Beam", "Temp", "Pressure", "ElecTemp", "vcc", "ve", "al", "ax", "status", "checksum",
   "latitude", "longitude", "speed", "course", "timestamp"].map String.toList

/-- `str(x).startswith('1')` for a number: the first digit is written first for numbers from 1 on and for those below
0.0001 (which are written with an exponent); else the text starts with `0` or `-`.  Line 718. -/
def startsWithOne (q : ℚ) : Bool := (1 ≤ q ∨ 0 < q ∧ q < 1 / 10000) ∧ q < 2 * (10 : ℚ) ^ (Int.log 10 q)

/-- Line 718. -/
def unsynced : Val → Bool
  | .num q => startsWithOne q
  | .text s => startsWith ['1'] s
  | _ => false

/-- The instant from a number `yyyymmddhhmmss`.  Lines 722–723. -/
def stampDigits : Val → Option ℤ
  | .num q =>
    if q.den = 1 ∧ 0 ≤ q.num then
      let n := q.num.toNat
      let y := n / 10000000000
      if 1678 ≤ y ∧ y ≤ 2261 then
        match mkDatetime y (n / 100000000 % 100) (n / 1000000 % 100) (n / 10000 % 100 : ℕ) (n / 100 % 100 : ℕ) (n % 100 : ℕ) 0 with
        | .ok t => some t
        | .error _ => none
      else none
    else none
  | _ => none

/-- A column of floating type is left to the parameter.  Lines 722–723. -/
def digitTimes (dates : Dates) (fields : List (Option Str)) (col : List Val) : Except PyErr (List Val) :=
  match if fields.all intField then col.mapM stampDigits else none with
  | some v => .ok (v.map Val.time)
  | none => dates.digits col

/-- `e.split(' ')[0]`; anything but a text raises `AttributeError` (line 730). -/
def firstWord : Val → Except PyErr Str
  | .text s => pyGet (splitC ' ' s) 0
  | _ => .error .attributeError

/-- Lines 730–731. -/
def isoTimes (dates : Dates) (col : List Val) : Except PyErr (List Val) := do
  let times ← col.mapM firstWord
  match stampColumn stampIso (times.map some) with
  | some v => return v
  | none => dates.iso (times.map some)

/-- `_dgs_raw_general`, lines 708–736. -/
def rawGeneral (dates : Dates) (lines : List Str) : Except PyErr Table := do
  let dat ← readCsv ',' (rawNames.zipIdx) (csvRecords ',' lines)
  let first ← pyGet dat.rows 0
  if unsynced (first "timestamp".toList) then
    match first "string".toList with
    | .text s =>
      if startsWith ['$'] s then return dat
      else
        match isoTimes dates (dat.col "string".toList) with
        | .ok v => return dat.set "date_time".toList v
        | .error _ => return dat
    | _ => .error .attributeError
  else
    return dat.set "date_time".toList (← digitTimes dates ((csvRecords ',' lines).map (csvField ',' 18)) (dat.col "timestamp".toList))

/-- `mm/dd/yyyy:hh:mm:ss.f…f`.  Lines 754–755. -/
def stampMdyColon (date time : Str) : Option ℤ := stampMdy (date ++ ' ' :: time)

/-- The two texts that `':'.join` puts together (lines 752–753); it raises `TypeError` unless both are texts. -/
def dateAndTime (r : Str → Val) : Except PyErr (Str × Str) :=
  match r "date".toList, r "time".toList with
  | .text a, .text b => .ok (a, b)
  | _, _ => .error .typeError

/-- `_dgs_raw_Thompson`, lines 739–758. -/
def rawThompson (dates : Dates) (lines : List Str) : Except PyErr Table := do
  let dat ← readCsv ',' ((["date".toList, "time".toList] ++ rawNames.dropLast).zipIdx) (csvRecords ',' lines)
  let stamps ← dat.rows.mapM dateAndTime
  match stamps.mapM fun s => stampMdyColon s.1 s.2 with
  | some v => return dat.set "date_time".toList (v.map Val.time)
  | none => return dat.set "date_time".toList (← dates.mdy (stamps.map fun s => some (s.1 ++ ':' :: s.2)))

/-- The class `[-\d.]`.  Line 767. -/
def numClass (c : Char) : Bool := isDigit c || c == '-' || c == '.'

/-- A field that consists of one or more characters of the class.  Line 767. -/
def classField (s : Str) : Option Str := if s ≠ [] ∧ s.all numClass then some s else none

/-- The regular expression of line 767 on a text: the nine groups.  Its pieces cannot match a comma, so the fields of the
text decide; the last group is a prefix of its field. -/
def at1mGroups (raw : Str) : Option (List Str) :=
  match splitC ',' raw with
  | f0 :: f1 :: f2 :: f3 :: _ :: _ :: _ :: _ :: f8 :: f9 :: f10 :: f11 :: _ :: _ :: f14 :: f15 :: _ =>
    if startsWith "$AT1M_".toList f0 then do
      let a ← [f1, f2, f3, f8, f9, f10, f11, f14].mapM classField
      let b ← classField (f15.takeWhile numClass)
      return a ++ [b]
    else none
  | _ => none

/-- The names of line 769. -/
def sikuliaqNames : List Str := ["rgrav", "long_a", "crss_a", "vcc", "ve", "al", "ax", "lat", "lon"].map String.toList

/-- `read_csv(comment='#')`: the rest of a line from `#` on is ignored.  Line 763. -/
def dropComment (line : Str) : Str := line.takeWhile (· ≠ '#')

/-- Column `c` of the extracted numbers (lines 766–773) in a record with this text. -/
def extracted (c : ℕ) : Val → Val
  | .text s =>
    match at1mGroups s with
    | some gs => toNumeric (gs.getD c [])
    | none => .nan
  | _ => .nan

/-- `_dgs_raw_Sikuliaq`, lines 760–777.  `.str` needs a column of texts. -/
def rawSikuliaq (dates : Dates) (lines : List Str) : Except PyErr Table := do
  let recs := csvRecords '\t' (lines.map dropComment)
  let k ← leadingCols '\t' recs
  match (recs.map (csvField '\t' (k + 2))).mapM numField with
  | some _ => .error .attributeError
  | none =>
    let raw := recs.map fun r => textField (csvField '\t' (k + 2) r)
    let dat := Table.ofCols recs.length (sikuliaqNames.zipIdx.map fun s => (s.1, raw.map (extracted s.2)))
    let ts ← toDatetime dates.times (recs.map fun r => textOf (textField (csvField '\t' (k + 1) r)))
    return dat.set "date_time".toList ts

/-- `dat[c] = dat[c].mul(0.00001)`.  Lines 699–702. -/
def mulCol (c : Str) (dat : Table) : Except PyErr Table := do
  let v ← dat.get c
  return dat.set c (← v.mapM (mulVal (1 / 100000)))

/-- Lines 699–702. -/
def scaleCcp (dat : Table) : Except PyErr Table := do
  let dat ← mulCol "ve".toList dat
  let dat ← mulCol "ax".toList dat
  let dat ← mulCol "al".toList dat
  mulCol "vcc".toList dat

/-- Lines 690–695. -/
def rawReader (dates : Dates) (ship : Str) : TableReader :=
  if ship = "Thompson".toList then rawThompson dates
  else if ship = "Sikuliaq".toList then rawSikuliaq dates
  else rawGeneral dates

/-- One turn of the loop of `read_dgs_raw`.  Lines 689–703. -/
def rawFile (dates : Dates) (ship : Str) (scale : Bool) (lines : List Str) : Except PyErr Table := do
  let dat ← rawReader dates ship lines
  if scale then scaleCcp dat else return dat

/-- `read_dgs_raw`, lines 668–705. -/
def readDgsRaw (dates : Dates) (fp : Paths (List Str)) (ship : Str) (scale : Bool) : Except PyErr Table := do
  concat (← fp.list.mapM (rawFile dates ship scale))

end Shipgrav
