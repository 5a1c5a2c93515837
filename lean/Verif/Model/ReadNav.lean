import Verif.Model.NavParse
import Mathlib.Data.List.Sort

/-! Model of `read_nav` and `_clean_180cross`, `/repo/shipgrav/io.py` lines 20–147 and 350–376. -/

namespace Shipgrav

/-! ### numpy primitives -/

/-- Insert `(v, i)` into an ascending list of `(value, index)` pairs unless `v` is already there.  Lines 116, 135. -/
def uniqueInsert (v : ℚ) (i : ℕ) : List (ℚ × ℕ) → List (ℚ × ℕ)
  | [] => [(v, i)]
  | (w, j) :: t => if v < w then (v, i) :: (w, j) :: t else if v = w then (w, j) :: t else (w, j) :: uniqueInsert v i t

/-- Worker of `uniqueIdx`.  Lines 116, 135. -/
def uniqueGo : (i : ℕ) → List ℚ → List (ℚ × ℕ) → List (ℚ × ℕ)
  | _, [], acc => acc
  | i, v :: vs, acc => uniqueGo (i + 1) vs (uniqueInsert v i acc)

/-- `np.unique(x, return_index=True)[1]`: the indices of the first occurrences of the distinct values, in ascending
order of value.  Lines 116, 135. -/
def uniqueIdx (x : List ℚ) : List ℕ := (uniqueGo 0 x []).map Prod.snd

/-- `x[idx]` with an index array: `IndexError` when an index is out of range.  Lines 121–122, 137. -/
def takeIdx {α : Type} (x : List α) (idx : List ℕ) : Except PyErr (List α) := idx.mapM (pyGet x)

/-- The index `np.interp` finds: the largest `j` with `xp[j] ≤ x`, `none` if `x` lies before `xp[0]`.  Lines 121–122. -/
def interpIndex (xp : List ℚ) (x : ℚ) : Option ℕ :=
  match (xp.takeWhile (· ≤ x)).length with
  | 0 => none
  | n + 1 => some n

/-- `np.interp(x, xp, fp)` at one point, `xp` ascending and non-empty.  NaN is `none`.  numpy returns `fp[j]` unchanged
when `x` hits `xp[j]`, even if a neighbouring ordinate is NaN.  Lines 121–122. -/
def interp1 (xp : List ℚ) (fp : List (Option ℚ)) (x : ℚ) : Option ℚ :=
  match interpIndex xp x with
  | none => (fp[0]?).join
  | some j =>
    if j + 1 = xp.length then (fp[j]?).join
    else if xp[j]? = some x then (fp[j]?).join
    else
      match (fp[j]?).join, (fp[j + 1]?).join, xp[j]?, xp[j + 1]? with
      | some f0, some f1, some x0, some x1 => some ((f1 - f0) / (x1 - x0) * (x - x0) + f0)
      | _, _, _, _ => none

/-- Worker of `stride`: take the head when `skip = 0`.  Lines 125–128. -/
def strideGo {α : Type} (d : ℕ) : (skip : ℕ) → List α → List α
  | _, [] => []
  | 0, a :: as => a :: strideGo d (d - 1) as
  | skip + 1, _ :: as => strideGo d skip as

/-- `x[::d]` for an integer `d ≠ 0`.  Lines 125–128. -/
def stride {α : Type} (d : ℤ) (x : List α) : List α :=
  if 0 < d then strideGo d.toNat 0 x else strideGo (-d).toNat 0 x.reverse

/-! ### The database, `/repo/shipgrav/database.toml` lines 10–17 -/

/-- The table `nav-talkers` of `/repo/shipgrav/database.toml`, lines 10–17. -/
def navTalkers : List (Str × Str) :=
  [("Atlantis", "GPGGA"), ("Thompson", "INGGA"), ("NBP", "GPGGA"), ("Ride", "INGGA"), ("Revelle", "GPGGA"),
   ("Langseth", "INGGA"), ("Sikuliaq", "GPGGA")].map fun p => (p.1.toList, p.2.toList)

/-- A fix: longitude and latitude (NaN is `none`).  Lines 82–105. -/
abbrev Coord := Option ℚ × Option ℚ

/-- What a reader returns for one file: the coordinates of its fixes (`lon`, `lat`) and its timestamps, or `-999` in
place of the timestamps.  A timestamp `none` is a `None` entry.  Lines 82–109. -/
abbrev Reader := List Str → Str → Except PyErr (List Coord × Ret (List (Option ℤ)))

/-- Lines 85–109: the built-in reader, `.ok none` standing for the `-999` of line 109. -/
def builtinRead (ship talker : Str) (allnav : List Str) :
    Except PyErr (Option (List Coord × Ret (List (Option ℤ)))) :=
  let run (f : List Str → Str → PyRet (List (Option ℤ))) := do
    let c ← navcoords allnav talker
    let t ← f allnav talker
    return some (c, t)
  let lift (f : List Str → Str → Except PyErr (List (Option ℤ))) :=
    fun a t => (f a t).map Ret.val
  if ship = "Atlantis".toList then run (lift navdateAtlantis)
  else if ship = "NBP".toList then run (lift navdateNBP)
  else if ship = "Thompson".toList then run (lift navdateThompson)
  else if ship = "Revelle".toList then run (lift navdateRevelle)
  else if ship = "Ride".toList then run navdateRide
  else if ship = "Langseth".toList then run (lift navdateLangseth)
  else if ship = "Sikuliaq".toList ∧ talker = "GPGGA".toList then run navdateRide
  else .ok none

/-- Line 115: `[d.timestamp() for d in timest]`; `AttributeError` on `None`. -/
def secTimes (ts : List (Option ℤ)) : Except PyErr (List ℚ) :=
  ts.mapM fun
    | some t => .ok (timestamp t)
    | none => .error .attributeError

/-- A row of the track: time, longitude, latitude.  Lines 136–137. -/
structure Row where
  time : ℚ
  lon : Option ℚ
  lat : Option ℚ
  deriving DecidableEq

/-- Lines 114–128 for one file: the rows appended to the track. `np.arange(min, max, sampling)` (line 117) raises when
there are no times and when `sampling` is 0; its value is never used. -/
def fileRows (sampling : ℚ) (decimate : ℤ) (coords : List Coord) (ts : List (Option ℤ)) : Except PyErr (List Row) := do
  let sec ← secTimes ts
  let idx := uniqueIdx sec
  if sec = [] then .error .valueError
  if sampling = 0 then .error .valueError
  let xp ← takeIdx sec idx
  let lonp ← takeIdx (coords.map Prod.fst) idx
  let latp ← takeIdx (coords.map Prod.snd) idx
  let rows := sec.map fun x => Row.mk x (interp1 xp lonp x) (interp1 xp latp x)
  return if decimate = 0 then rows else stride decimate rows

/-- Lines 74–132: the loop over the files, with `rows` the track so far. -/
def readLoop (read : List Str → Except PyErr (Option (List Coord × Ret (List (Option ℤ)))))
    (sampling : ℚ) (decimate : ℤ) : List (List Str) → List Row → Except PyErr (Ret (List Row))
  | [], rows => .ok (.val rows)
  | f :: fs, rows => do
    match ← read f with
    | none => return .sentinel
    | some (_, .sentinel) => return .sentinel
    | some (coords, .val ts) =>
      let new ← fileRows sampling decimate coords ts
      readLoop read sampling decimate fs (rows ++ new)

/-! ### `_clean_180cross` -/

/-- Python's `x % m` for floats: the result has the sign of `m`.  Lines 361, 363. -/
def pyMod (x m : ℚ) : ℚ := x - m * ⌊x / m⌋

/-- `abs(a - b) > 1`, false when NaN is involved.  Lines 142, 366. -/
def jumps : Option ℚ → Option ℚ → Bool
  | some a, some b => decide (1 < |b - a|)
  | _, _ => false

/-- Worker of `jumpIdx`.  Lines 142, 366. -/
def jumpGo : (i : ℕ) → List (Option ℚ) → List ℕ
  | i, a :: b :: t => if jumps a b then i :: jumpGo (i + 1) (b :: t) else jumpGo (i + 1) (b :: t)
  | _, _ => []

/-- `np.where(abs(np.diff(x)) > 1)[0]`.  Lines 142, 366. -/
def jumpIdx (x : List (Option ℚ)) : List ℕ := jumpGo 0 x

/-- `x > 0` on a possibly-NaN value.  Line 355. -/
def isPos (x : Option ℚ) : Bool := match x with | some v => decide (0 < v) | none => false
/-- `x < 0` on a possibly-NaN value.  Line 356. -/
def isNeg (x : Option ℚ) : Bool := match x with | some v => decide (v < 0) | none => false

/-- Lines 355–363: move the minority side across the date line. -/
def unwrapSides (lon : List (Option ℚ)) : List (Option ℚ) :=
  if (lon.filter isNeg).length < (lon.filter isPos).length then
    lon.map fun x => if isNeg x then x.map (fun v => 180 + pyMod v 180) else x
  else
    lon.map fun x => if isPos x then x.map (fun v => -180 + pyMod v (-180)) else x

/-- Line 372: `(a + b)/2`, NaN if either is. -/
def midpoint (a b : Option ℚ) : Option ℚ :=
  match a, b with
  | some a, some b => some ((a + b) / 2)
  | _, _ => none

/-- Lines 370–372: overwrite the middle of each jump pair; `IndexError` if an index is out of range. -/
def fixPairs : List ℕ → List (Option ℚ) → Except PyErr (List (Option ℚ))
  | [], x => .ok x
  | i :: is, x => do
    let a ← pyGet x i
    let b ← pyGet x (i + 2)
    fixPairs is (x.set (i + 1) (midpoint a b))

/-- `_clean_180cross` on the longitude column, lines 350–376.  The column is changed through the view
`gps_nav['lon'].values` (pandas without copy-on-write); `gps_nav.replace({'lon': newlon})` then replaces cells equal
to the string `'lon'` and changes nothing. -/
def cleanLon (lon : List (Option ℚ)) : Except PyErr (List (Option ℚ)) :=
  let x := unwrapSides lon
  let ilocs := jumpIdx x
  if ilocs.length % 2 ≠ 0 then .ok x
  else fixPairs (strideGo 2 0 ilocs) x

/-- Lines 134–147: de-duplicate, sort, and repair date-line jumps if there are any. -/
def finishNav (rows : List Row) : Except PyErr (List Row) := do
  let out ← takeIdx rows (uniqueIdx (rows.map Row.time))
  if jumpIdx (out.map Row.lon) = [] then return out
  else do
    let lon ← cleanLon (out.map Row.lon)
    return List.zipWith (fun r l => { r with lon := l }) out lon

/-- `read_nav`, lines 20–147, on the contents of the files.  `stamps` is determined by `time_sec` and left out. -/
def readNav (ship : Str) (files : List (List Str)) (sampling : ℚ) (talker : Option Str)
    (shipFunction : Option Reader) (decimate : ℤ) : Except PyErr (Ret (List Row)) :=
  -- lines 55–58
  if navTalkers.lookup ship = none ∧ shipFunction.isNone then .ok .sentinel
  else
    -- lines 60–68
    match talker.or (navTalkers.lookup ship) with
    | none => .ok .sentinel
    | some talker => do
      let read := match shipFunction with
        | some f => fun a => (f a talker).map some
        | none => builtinRead ship talker
      match ← readLoop read sampling decimate files [] with
      | .sentinel => return .sentinel
      | .val rows => return .val (← finishNav rows)

end Shipgrav
