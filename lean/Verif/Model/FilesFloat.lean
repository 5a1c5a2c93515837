import Verif.Model.CoordFloat
import Verif.Model.NavFloat
import Verif.Model.DateLineFloat
import Verif.Model.Dgs
import Verif.Model.SyncFloat

/-! From the files to the free-air anomaly in double precision (`/repo/example-scripts/interactive_line_pick.py` lines 58–89). -/

namespace Shipgrav

/-- The built-in readers of `/repo/shipgrav/io.py` lines 85–109 once more, with positions in double precision. -/
def builtinReadF (ship talker : Str) (allnav : List Str) : Except PyErr (Option (List Coord × Ret (List (Option ℤ)))) :=
  let run (f : List Str → Str → PyRet (List (Option ℤ))) := do
    let c ← navcoordsF allnav talker
    let t ← f allnav talker
    return some (c, t)
  let lift (f : List Str → Str → Except PyErr (List (Option ℤ))) :=
    fun a t => (f a t).map Ret.val
  if ship = "Atlantis".toList then run (lift navdateAtlantis)
  else if ship = "NBP".toList then run (lift navdateNBP)
  else if ship = "Thompson".toList then run (lift navdateThompson)
  else if ship = "Revelle".toList then run (lift navdateRevelle)
  else if ship = "Ride".toList then run navdateRide
  else if ship = "Langseth".toList then run (lift navdateLangseth)
  else if ship = "Sikuliaq".toList ∧ talker = "GPGGA".toList then run navdateRide
  else .ok none

/-- `/repo/shipgrav/io.py` lines 134–147 once more, with the repair of date-line jumps in double precision too. -/
def finishNavD (rows : List Row) : Except PyErr (List (Row × ℤ)) := do
  let out ← takeIdx rows (uniqueIdx (rows.map Row.time))
  let stamps ← out.mapM fun r => fromTimestampF r.time
  if jumpIdxF (out.map Row.lon) = [] then return out.zip stamps
  else do
    let lon ← cleanLonF (out.map Row.lon)
    return (List.zipWith (fun r l => { r with lon := l }) out lon).zip stamps

/-- `read_nav` (`/repo/shipgrav/io.py` lines 20–147) without a reader of the user's, with times, positions and the repair of date-line jumps in double
precision. -/
def readNavD (ship : Str) (files : List (List Str)) (sampling : ℚ) (talker : Option Str) (decimate : ℤ) : Except PyErr (Ret (List (Row × ℤ))) :=
  if navTalkers.lookup ship = none then .ok .sentinel
  else
    match talker.or (navTalkers.lookup ship) with
    | none => .ok .sentinel
    | some talker => do
      match ← readLoopF (builtinReadF ship talker) sampling decimate files [] with
      | .sentinel => return .sentinel
      | .val rows => return .val (← finishNavD rows)

/-- `gps_nav['time_sec']`, `gps_nav['lon']`, `gps_nav['lat']` (lines 60, 73–75).  Tables with NaN are left out here (as `ValueError`). -/
def navColumns (rows : List (Row × ℤ)) : Except PyErr (List (ℚ × ℚ × ℚ)) :=
  rows.mapM fun r =>
    match r.1.lon, r.1.lat with
    | some x, some y => .ok (r.1.time, x, y)
    | _, _ => .error .valueError

/-- `dgs_data['date_time']` and `dgs_data['rgrav']` (lines 65, 67–69), where `rd` is what pandas makes of the text of a number.  Tables with missing values
are left out here (as `ValueError`). -/
def dgsColumns (rd : ℚ → ℚ) (dat : Table) : Except PyErr (List (ℤ × ℚ)) := do
  let t ← dat.get "date_time".toList
  let g ← dat.get "rgrav".toList
  (t.zip g).mapM fun
    | (.time t, .num q) => .ok (t, rd q)
    | _ => .error .valueError

/-- `interactive_line_pick.py` lines 58–89: time and `faa` from the lines of the files.  `-999` instead of a table has no `sort_values` (lines 60, 65). -/
def faaFilesF (lm : TideLibm) (rd : ℚ → ℚ) (dates : Dates) (ship talker : Str) (navFiles dgsFiles : List (List Str)) (bias sampling : ℚ) :
    Except PyErr (List (ℤ × ℚ)) := do
  match ← readNavD ship navFiles 1 (some talker) 0 with
  | .sentinel => .error .attributeError
  | .val rows =>
    match ← readDgsLaptop dates (.many dgsFiles) ship none with
    | .sentinel => .error .attributeError
    | .val dat => do
      let nav ← navColumns rows
      let dgs ← dgsColumns rd dat
      faaPipelineF lm nav dgs bias sampling

end Shipgrav
