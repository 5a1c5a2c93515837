import Verif.Py.Fmt
import Verif.Py.Float64
import Verif.Py.Repr

/-! Model of the navigation-string parsers, `/repo/shipgrav/io.py` lines 150–347.  A file is the list of its lines (each
with its newline, as `readlines` returns them). -/

namespace Shipgrav

/-- `s.split(sep)`, with Python's `ValueError` for an empty separator.  Lines 164, 188, 333. -/
def pySplit (sep s : Str) : Except PyErr (List Str) :=
  if sep = [] then .error .valueError else .ok (splitS sep s)

/-- `int(s)`.  Lines 167–171, 339–343. -/
def pyInt (s : Str) : Except PyErr ℤ :=
  match parseInt s with
  | some z => .ok z
  | none => .error .valueError

/-- `float(s)` stored in an array of coordinates: NaN is `none`; the infinities (texts like `inf`) are merged with
NaN.  Lines 339, 343. -/
def pyFloatQ (s : Str) : Except PyErr (Option ℚ) :=
  match parseFloat s with
  | some (.fin q) => .ok (some q)
  | some _ => .ok none
  | none => .error .valueError

/-- Lines 153–154 (and 327–328, etc.): `allnav[[talker in s for s in allnav]]`. -/
def talkerLines (talker : Str) (allnav : List Str) : List Str := allnav.filter (hasSub talker)

/-- Lines 164–166 and 333–335: the comma-separated fields after the talker; an empty first field is dropped. -/
def ggaFields (talker line : Str) : Except PyErr (List Str) := do
  let parts ← pySplit talker line
  let tail ← pyLast parts
  let post := splitC ',' (lstrip tail)
  let h ← pyGet post 0
  return if h = [] then post.drop 1 else post

/-- Lines 339–342 / 343–345: `int(f[:k]) + float(f[k:])/60`, negated when the hemisphere field, which is looked up only
after that (lines 341 and 344), equals `neg`. -/
def degMin (k : ℕ) (f : Str) (hemi : Except PyErr Str) (neg : Str) : Except PyErr (Option ℚ) := do
  let d ← pyInt (f.take k)
  let m ← pyFloatQ (f.drop k)
  let v := m.map fun q => (d : ℚ) + q / 60
  let h ← hemi
  return if h = neg then v.map (- ·) else v

/-- The loop body of `_navcoords`, lines 333–345: (lon, lat) of one line; `none` is NaN. -/
def coordLine (talker line : Str) : Except PyErr (Option ℚ × Option ℚ) := do
  let post ← ggaFields talker line
  let f1 ← pyGet post 1
  if f1 = [] then return (none, none)
  let f3 ← pyGet post 3
  if f3 = [] then return (none, none)
  let lat ← degMin 2 f1 (pyGet post 2) ['S']
  let lon ← degMin 3 f3 (pyGet post 4) ['W']
  return (lon, lat)

/-- `_navcoords`, lines 324–347. -/
def navcoords (allnav : List Str) (talker : Str) : Except PyErr (List (Option ℚ × Option ℚ)) :=
  (talkerLines talker allnav).mapM (coordLine talker)

/-- A decoded clock time: the arrays `hour`, `mint`, `sec`, `msec` at one index.  Lines 158–161. -/
structure Clock where
  hour : ℤ
  mint : ℤ
  sec : ℤ
  msec : ℤ
  deriving DecidableEq, Repr

/-- Line 170: `int(n*1e4)` put into an array of 64-bit integers; the product is one of double precision numbers. -/
def msecOf (n : ℤ) : Except PyErr ℤ :=
  let v := truncQ (toDouble (toDouble n * 10000))
  if -2 ^ 63 ≤ v ∧ v < 2 ^ 63 then .ok v else .error .overflowError

/-- The loop body of `_clock_time`, lines 164–171.  The seconds are a double precision number, written out again as `str` does; the exponents
are not limited (texts like `1e-400`). -/
def clockLine (talker line : Str) : Except PyErr Clock := do
  let post ← ggaFields talker line
  let f ← pyGet post 0
  let hour ← pyInt (f.take 2)
  let mint ← pyInt (slice 2 4 f)
  let sec0 ← match parseDouble (f.drop 4) with
    | some x => .ok x
    | none => .error .valueError
  let parts := splitC '.' (doubleStr sec0)
  let frac ← pyLast parts
  let ms ← msecOf (← pyInt frac)
  let whole ← pyGet parts 0
  let sec ← pyInt whole
  return ⟨hour, mint, sec, ms⟩

/-- `_clock_time`, lines 150–173. -/
def clockTime (allnav : List Str) (talker : Str) : Except PyErr (List Clock) :=
  (talkerLines talker allnav).mapM (clockLine talker)

/-- `re.findall(pat, s)[0]`: `IndexError` when there is no match.  Lines 189, 236. -/
def findFirst (ps : Pat) (s : Str) : Except PyErr Str :=
  match findP ps s with
  | some m => .ok m
  | none => .error .indexError

/-- Lines 188–194: date of one Atlantis line combined with its clock time. -/
def atlantisStamp (talker line : Str) (c : Clock) : Except PyErr ℤ := do
  let pre ← pyGet (← pySplit talker line) 0
  let m ← findFirst (litP "NAV " ++ digP 4 ++ litP "/" ++ digP 2 ++ litP "/" ++ digP 2) pre
  mkDatetime (runVal (slice 4 8 m)) (runVal (slice 9 11 m)) (runVal (slice 12 14 m)) c.hour c.mint c.sec c.msec

/-- Pair the talker lines with their clock times and build the timestamps.  Lines 187–194, 209–219, 234–241. -/
def stampLines (stamp : Str → Clock → Except PyErr ℤ) (lines : List Str) (cs : List Clock) :
    Except PyErr (List (Option ℤ)) :=
  (lines.zip cs).mapM fun p => (stamp p.1 p.2).map some

/-- `_navdate_Atlantis`, lines 176–195. -/
def navdateAtlantis (allnav : List Str) (talker : Str) : Except PyErr (List (Option ℤ)) := do
  let cs ← clockTime allnav talker
  stampLines (atlantisStamp talker) (talkerLines talker allnav) cs

/-- The leftmost match of `(\d{2})\+(\d{2,3}):` (the trailing `.*` always matches): the two captured groups.  Line 211. -/
def findNBP : Str → Option (Str × Str)
  | [] => none
  | c :: cs =>
    match matchP (digP 2 ++ litP "+" ++ digP 3 ++ litP ":") (c :: cs) with
    | some m => some (slice 0 2 m, slice 3 6 m)
    | none => match matchP (digP 2 ++ litP "+" ++ digP 2 ++ litP ":") (c :: cs) with
      | some m => some (slice 0 2 m, slice 3 5 m)
      | none => findNBP cs

/-- Lines 210–219.  Formatting with `%02d`/`%06d` and parsing back with `%H`, `%M`, `%S`, `%f` accepts exactly the
values in range (`validClock`). -/
def nbpStamp (talker line : Str) (c : Clock) : Except PyErr ℤ := do
  let pre ← pyGet (← pySplit talker line) 0
  match findNBP pre with
  | none => .error .indexError
  | some (y, j) => mkDatetimeDoy (runVal ("20".toList ++ y)) (runVal j) c.hour c.mint c.sec c.msec

/-- `_navdate_NBP`, lines 198–220. -/
def navdateNBP (allnav : List Str) (talker : Str) : Except PyErr (List (Option ℤ)) := do
  let cs ← clockTime allnav talker
  stampLines (nbpStamp talker) (talkerLines talker allnav) cs

/-- Lines 235–241; the microseconds are not passed to `datetime`. -/
def thompsonStamp (talker line : Str) (c : Clock) : Except PyErr ℤ := do
  let pre ← pyGet (← pySplit talker line) 0
  let m ← findFirst (digP 2 ++ litP "/" ++ digP 2 ++ litP "/" ++ digP 4) pre
  mkDatetime (runVal (slice 6 10 m)) (runVal (slice 0 2 m)) (runVal (slice 3 5 m)) c.hour c.mint c.sec 0

/-- `_navdate_Thompson`, lines 223–242. -/
def navdateThompson (allnav : List Str) (talker : Str) : Except PyErr (List (Option ℤ)) := do
  let cs ← clockTime allnav talker
  stampLines (thompsonStamp talker) (talkerLines talker allnav) cs

/-- `(\d{4})-(\d{2})-(\d{2})` (the trailing `T*` always matches).  Lines 267–268. -/
def isoDateP : Pat := digP 4 ++ litP "-" ++ digP 2 ++ litP "-" ++ digP 2

/-- Lines 264–274: step backwards over the lines between the previous talker line and this one (`gap` is in file order,
so the scan runs over its reverse) and use the first that starts with a date. -/
def revelleScan (c : Clock) : List Str → Except PyErr (Option ℤ)
  | [] => .ok none
  | before :: rest =>
    match matchP isoDateP before with
    | none => revelleScan c rest
    | some m => (mkDatetime (runVal (slice 0 4 m)) (runVal (slice 5 7 m)) (runVal (slice 8 10 m))
        c.hour c.mint c.sec c.msec).map some

/-- Lines 257–274.  `gapRev` holds the lines since the previous talker line, latest first. -/
def revelleLoop (talker : Str) (gapRev : List Str) : List Str → List Clock → Except PyErr (List (Option ℤ))
  | [], _ => .ok []
  | line :: rest, cs =>
    if hasSub talker line then
      match cs with
      | [] => .ok []
      | c :: cs => do
        let t ← revelleScan c gapRev
        let ts ← revelleLoop talker [] rest cs
        return t :: ts
    else revelleLoop talker (line :: gapRev) rest cs

/-- `_navdate_Revelle`, lines 245–275.  An entry without a date line stays `None`. -/
def navdateRevelle (allnav : List Str) (talker : Str) : Except PyErr (List (Option ℤ)) := do
  let cs ← clockTime allnav talker
  revelleLoop talker [] allnav cs

/-- `(\d+(\.\d*)?)` followed by `tail`, anchored at the start of `s`: the text of group 1.  Line 291. -/
def matchPosix (tail s : Str) : Option Str :=
  let ip := s.takeWhile isDigit
  let r := s.dropWhile isDigit
  if ip = [] then none
  else match r with
    | '.' :: r2 =>
      if tail.isPrefixOf (r2.dropWhile isDigit) then some (ip ++ '.' :: r2.takeWhile isDigit) else none
    | _ => if tail.isPrefixOf r then some ip else none

/-- The leftmost match of `(\d+(\.\d*)?) \$INGGA` (line 291).  Backtracking never helps because the tail starts with a
blank, which no part of the group can match. -/
def findPosix (tail : Str) : Str → Option Str
  | [] => none
  | c :: cs => match matchPosix tail (c :: cs) with
    | some m => some m
    | none => findPosix tail cs

/-- `(\d{4})\-(\d{2})\-(\d{2})T(\d{2}):(\d{2}):(\d{2})\.`.  Lines 295–296. -/
def isoTimeP : Pat :=
  isoDateP ++ litP "T" ++ digP 2 ++ litP ":" ++ digP 2 ++ litP ":" ++ digP 2 ++ litP "."

/-- The ISO stamp of lines 295–296 anchored at the start of `s`: the fixed part and the group `(\d.*?)` before the
first `Z` on the line. -/
def matchIso (s : Str) : Option (Str × Str) :=
  match matchP isoTimeP s with
  | none => none
  | some m =>
    match s.drop isoTimeP.length with
    | [] => none
    | d :: r =>
      if isDigit d ∧ (r.dropWhile (fun c => c ≠ 'Z' ∧ c ≠ '\n')).head? = some 'Z' then
        some (m, d :: r.takeWhile (fun c => c ≠ 'Z' ∧ c ≠ '\n'))
      else none

/-- Leftmost match.  Lines 295–296. -/
def findIso : Str → Option (Str × Str)
  | [] => none
  | c :: cs => match matchIso (c :: cs) with
    | some m => some m
    | none => findIso cs

/-- `int(x*scale)` for a float `x`: the product is rounded to double precision, then truncated; NaN and infinities raise (`OverflowError` for
infinities is not distinguished).  Line 303. -/
def pyTrunc (x : PyFloat) (scale : ℚ) : Except PyErr ℤ :=
  match x with
  | .fin q => .ok (truncQ (toDouble (q * scale)))
  | _ => .error .valueError

/-- `float(s)`, raising; the number is the nearest one in double precision.  Lines 293, 303. -/
def pyFloat (s : Str) : Except PyErr PyFloat :=
  match parseFloat s with
  | some (.fin q) => .ok (.fin (toDouble q))
  | some x => .ok x
  | none => .error .valueError

/-- The loop body of `_navdate_Ride`, lines 290–305. -/
def rideStamp (talker line : Str) : Except PyErr (Option ℤ) :=
  if talker = "INGGA".toList then
    match findPosix (" $".toList ++ talker) line with
    | none => .error .indexError
    | some d => do
      match ← pyFloat d with
      | .fin q => return some (← fromTimestampF q)
      | _ => .error .valueError
  else if talker = "GPGGA".toList then
    match findIso line with
    | none => .error .indexError
    | some (m, frac) => do
      let us ← pyTrunc (← pyFloat ('.' :: frac)) 1000000
      let t ← mkDatetime (runVal (slice 0 4 m)) (runVal (slice 5 7 m)) (runVal (slice 8 10 m))
        (runVal (slice 11 13 m)) (runVal (slice 14 16 m)) (runVal (slice 17 19 m)) us
      return some t
  else .ok none

/-- `_navdate_Ride`, lines 278–306; `-999` when no line has the talker. -/
def navdateRide (allnav : List Str) (talker : Str) : PyRet (List (Option ℤ)) :=
  let sub := talkerLines talker allnav
  if sub.length = 0 then .ok .sentinel
  else (sub.mapM (rideStamp talker)).map Ret.val

/-- A field of one or two digits with value at most `hi` (`%H`, `%M`, `%S`).  Lines 320, 512. -/
def strptimeField (hi : ℕ) (f : Str) : Option ℕ :=
  if (f.length = 1 ∨ f.length = 2) ∧ f.all isDigit ∧ runVal f ≤ hi then some (runVal f) else none

/-- `datetime.strptime(date, '%Y:%j:%H:%M:%S.%f')`: four-digit year, day of year of up to three digits in 1–366,
clock fields, one to six decimals of a second.  Lines 320, 512. -/
def strptimeJulian (date : Str) : Except PyErr ℤ :=
  match splitC ':' date with
  | [y, j, h, m, sf] =>
    match splitC '.' sf with
    | [s, f] =>
      if y.length = 4 ∧ y.all isDigit ∧ 1 ≤ j.length ∧ j.length ≤ 3 ∧ j.all isDigit ∧ 1 ≤ runVal j ∧ runVal j ≤ 366 ∧
          1 ≤ f.length ∧ f.length ≤ 6 ∧ f.all isDigit then
        match strptimeField 23 h, strptimeField 59 m, strptimeField 61 s with
        | some h, some m, some s => mkDatetimeDoy (runVal y) (runVal j) h m s (runVal f * 10 ^ (6 - f.length) : ℕ)
        | _, _, _ => .error .valueError
      else .error .valueError
    | _ => .error .valueError
  | _ => .error .valueError

/-- The loop body of `_navdate_Langseth`, line 319–320. -/
def langsethStamp (talker line : Str) : Except PyErr (Option ℤ) := do
  let pre ← pyGet (← pySplit talker line) 0
  let tail ← pyGet (splitS "seapath".toList pre) 1
  let date ← pyGet (splitC '\t' tail) 1
  return some (← strptimeJulian date)

/-- `_navdate_Langseth`, lines 309–321. -/
def navdateLangseth (allnav : List Str) (talker : Str) : Except PyErr (List (Option ℤ)) :=
  (talkerLines talker allnav).mapM (langsethStamp talker)

end Shipgrav
