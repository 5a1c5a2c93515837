import Verif.Py.Pandas
import Verif.Model.NavParse

/-! Model of the BGM readers, `/repo/shipgrav/io.py` lines 379–538.  A file is the list of its lines. -/

namespace Shipgrav

/-- `int(x.split(':')[-1])` (lines 480–481, 501, 511). -/
def countText (x : Str) : Except PyErr ℤ := do
  pyInt (← pyLast (splitC ':' x))

/-- `int(x.split(' ')[0].split(':')[-1])` (line 491). -/
def countThompson (x : Str) : Except PyErr ℤ := do
  countText (← pyGet (splitC ' ' x) 0)

/-- The converter sees an absent field as the empty text.  Lines 482–483. -/
def fieldText (delim : Char) (i : ℕ) (record : Str) : Str := (csvField delim i record).getD []

/-- `date + ' ' + time` with two fields of a record; NaN if one of them is missing.  (A date or time
column in which every field is a number or missing would raise; that is not modelled.).  Lines 410, 484, 494. -/
def dateTime (delim : Char) (i j : ℕ) (record : Str) : Option Str :=
  match textField (csvField delim i record), textField (csvField delim j record) with
  | .text a, .text b => some (a ++ ' ' :: b)
  | _, _ => none

/-- The text of a text value.  Lines 410, 484, 494. -/
def textOf : Val → Option Str
  | .text a => some a
  | _ => none

/-- The column of instants made from two fields.  Lines 410, 484, 494. -/
def dateTimes (other : OtherTimes) (delim : Char) (i j : ℕ) (recs : List Str) : Except PyErr (List Val) :=
  toDatetime other (recs.map (dateTime delim i j))

/-- The selected fields must exist somewhere in a non-empty file (as in `readCsv`).  Lines 408–409, 482–483. -/
def csvOk (delim : Char) (sel : List ℕ) (recs : List Str) : Except PyErr Unit :=
  if recs = [] ∨ ∃ s ∈ sel, ∀ r ∈ recs, csvField delim s r = none then .error .valueError else .ok ()

/-- `_bgmserial_Atlantis`, lines 477–485. -/
def bgmAtlantis (other : OtherTimes) (lines : List Str) : Except PyErr Table := do
  let recs := csvRecords ' ' lines
  csvOk ' ' [1, 2, 4] recs
  let cs ← recs.mapM fun r => countText (fieldText ' ' 4 r)
  let ts ← dateTimes other ' ' 1 2 recs
  return Table.ofCols recs.length [("counts".toList, cs.map fun (n : ℤ) => Val.num n), ("date_time".toList, ts)]

/-- `read_csv` with three names and no `usecols`: if the first record has more than three fields, the extra ones on the left become row labels; this is
their number.  A record with more fields than the first one (or than three) raises.  Lines 492–493, 763. -/
def leadingCols (delim : Char) (recs : List Str) : Except PyErr ℕ :=
  match recs with
  | [] => .error .valueError
  | r0 :: _ =>
    let n := max 3 (splitC delim r0).length
    if ∃ r ∈ recs, n < (splitC delim r).length then .error .valueError else .ok (n - 3)

/-- `_bgmserial_Thompson`, lines 488–495. -/
def bgmThompson (other : OtherTimes) (lines : List Str) : Except PyErr Table := do
  let recs := csvRecords ',' lines
  let k ← leadingCols ',' recs
  let cs ← recs.mapM fun r => countThompson (fieldText ',' (k + 2) r)
  let ts ← dateTimes other ',' k (k + 1) recs
  return Table.ofCols recs.length [("counts".toList, cs.map fun (n : ℤ) => Val.num n), ("date_time".toList, ts)]

/-- `_bgmserial_Revelle`, lines 498–504. -/
def bgmRevelle (other : OtherTimes) (lines : List Str) : Except PyErr Table := do
  let recs := csvRecords ' ' lines
  csvOk ' ' [0, 1] recs
  let cs ← recs.mapM fun r => countText (fieldText ' ' 1 r)
  let ts ← toDatetime other (recs.map fun r => textOf (textField (csvField ' ' 0 r)))
  return Table.ofCols recs.length [("date_time".toList, ts), ("counts".toList, cs.map fun (n : ℤ) => Val.num n)]

/-- `_bgmserial_Langseth`, lines 506–515: columns 1 and 2 of the fixed-width layout. -/
def bgmLangseth (lines : List Str) : Except PyErr Table := do
  if lines = [] then .error .valueError
  let edges := fwfEdges lines
  let e1 ← match edges[1]? with | some e => .ok e | none => .error .valueError
  let e2 ← match edges[2]? with | some e => .ok e | none => .error .valueError
  let recs := fwfRecords edges lines
  let ts ← recs.mapM fun r => strptimeJulian (fwfField e1 r)
  let cs ← recs.mapM fun r => countText (fwfField e2 r)
  return Table.ofCols recs.length [("date_time".toList, ts.map Val.time), ("counts".toList, cs.map fun (n : ℤ) => Val.num n)]

/-- `database.toml`, lines 19–23. -/
def bgmScales : List (Str × ℚ) :=
  [("Atlantis".toList, 4994070552 / 1000000000), ("Thompson".toList, 5003353363 / 1000000000),
   ("Revelle".toList, 499980755 / 100000000), ("Langseth".toList, 5)]

/-- A function that reads one file.  Line 459. -/
abbrev TableReader := List Str → Except PyErr Table

/-- Lines 461–471: the built-in reader; `none` is the `-999` of line 471. -/
def bgmBuiltin (other : OtherTimes) (ship : Str) : Option TableReader :=
  if ship = "Atlantis".toList then some (bgmAtlantis other)
  else if ship = "Thompson".toList then some (bgmThompson other)
  else if ship = "Revelle".toList then some (bgmRevelle other)
  else if ship = "Langseth".toList then some bgmLangseth
  else none

/-- Line 472: `dat['rgrav'] = scale*dat['counts']`. -/
def addGravity (scale : ℚ) (dat : Table) : Except PyErr Table := do
  let cs ← dat.get "counts".toList
  let gs ← cs.mapM (mulVal scale)
  return dat.set "rgrav".toList gs

/-- Lines 456–474, with `dats` the tables collected so far. -/
def bgmLoop (read : Option TableReader) (scale : ℚ) : List (List Str) → List Table → Except PyErr (Ret Table)
  | [], dats => (concat dats).map Ret.val
  | f :: fs, dats =>
    match read with
    | none => .ok .sentinel
    | some read => do
      let dat ← read f
      let dat ← addGravity scale dat
      bgmLoop (some read) scale fs (dats ++ [dat])

/-- `read_bgm_raw`, lines 416–474. -/
def readBgmRaw (other : OtherTimes) (files : List (List Str)) (ship : Str) (scale : Option ℚ)
    (shipFunction : Option TableReader) : Except PyErr (Ret Table) :=
  match scale.or (bgmScales.lookup ship) with
  | none => .ok .sentinel
  | some scale => bgmLoop (shipFunction.or (bgmBuiltin other ship)) scale files []

/-- One RGS file, lines 407–411. -/
def rgsFile (other : OtherTimes) (lines : List Str) : Except PyErr Table := do
  let recs := csvRecords ' ' lines
  csvOk ' ' [1, 2, 3, 11, 12] recs
  let t ← readCsv ' ' [("grav".toList, 3), ("lat".toList, 11), ("lon".toList, 12)] recs
  let ts ← dateTimes other ' ' 1 2 recs
  return t.set "date_time".toList ts

/-- `read_bgm_rgs`, lines 383–413. -/
def readBgmRgs (other : OtherTimes) (files : List (List Str)) (ship : Str) : Except PyErr (Ret Table) :=
  if ship ≠ "Atlantis".toList ∧ ship ≠ "NBP".toList then .ok .sentinel
  else do
    let dats ← files.mapM (rgsFile other)
    return .val (← concat dats)

/-! ### `_despike_bgm_serial` -/

/-- `np.where(abs(np.diff(x)) > thresh)[0]`, counting from `i`.  Line 525. -/
def stepGo (thresh : ℚ) : (i : ℕ) → List ℚ → List ℕ
  | i, a :: b :: t => if thresh < |b - a| then i :: stepGo thresh (i + 1) (b :: t) else stepGo thresh (i + 1) (b :: t)
  | _, _ => []

/-- `np.any(np.diff(meh)[::2] != 1)` for an even number of indices: some pair is not adjacent.  Line 529. -/
def badPairs : List ℕ → Bool
  | a :: b :: t => b ≠ a + 1 || badPairs t
  | _ => false

/-- `meh[1::2]`.  Line 534. -/
def secondOfPairs : List ℕ → List ℕ
  | _ :: b :: t => b :: secondOfPairs t
  | _ => []

/-- `dat.drop(idx)` with row labels 0, 1, …: the labelled rows whose number is not listed.  Line 535. -/
def dropRows {α : Type} (rows : List α) (idx : List ℕ) : List (α × ℕ) := rows.zipIdx.filter fun p => p.2 ∉ idx

/-- `_despike_bgm_serial`, lines 518–538, on rows with a count and fresh row labels.  Besides the rows there is the
column `index` that `reset_index` adds (line 536): the old row numbers. -/
def despike {α : Type} (count : α → ℚ) (thresh : ℚ) (rows : List α) : List α × Option (List ℕ) :=
  let meh := stepGo thresh 0 (rows.map count)
  if 2 < meh.length then
    if meh.length % 2 ≠ 0 ∨ badPairs meh then (rows, none)
    else
      let kept := dropRows rows (secondOfPairs meh)
      (kept.map Prod.fst, some (kept.map Prod.snd))
  else (rows, none)

end Shipgrav
