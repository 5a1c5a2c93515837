import Verif.Model.ReadNav

/-! `read_nav` once more (`/repo/shipgrav/io.py` lines 20–147), with `time_sec` in double precision and with the column `stamps`.  Coordinates are exact
as in `Model/ReadNav`. -/

namespace Shipgrav

/-- Line 115: `[d.timestamp() for d in timest]`, in double precision. -/
def secTimesF (ts : List (Option ℤ)) : Except PyErr (List ℚ) :=
  ts.mapM fun
    | some t => .ok (timestampF t)
    | none => .error .attributeError

/-- Lines 114–128 for one file. -/
def fileRowsF (sampling : ℚ) (decimate : ℤ) (coords : List Coord) (ts : List (Option ℤ)) : Except PyErr (List Row) := do
  let sec ← secTimesF ts
  let idx := uniqueIdx sec
  if sec = [] then .error .valueError
  if sampling = 0 then .error .valueError
  let xp ← takeIdx sec idx
  let lonp ← takeIdx (coords.map Prod.fst) idx
  let latp ← takeIdx (coords.map Prod.snd) idx
  let rows := sec.map fun x => Row.mk x (interp1 xp lonp x) (interp1 xp latp x)
  return if decimate = 0 then rows else stride decimate rows

/-- Lines 74–132: the loop over the files. -/
def readLoopF (read : List Str → Except PyErr (Option (List Coord × Ret (List (Option ℤ)))))
    (sampling : ℚ) (decimate : ℤ) : List (List Str) → List Row → Except PyErr (Ret (List Row))
  | [], rows => .ok (.val rows)
  | f :: fs, rows => do
    match ← read f with
    | none => return .sentinel
    | some (_, .sentinel) => return .sentinel
    | some (coords, .val ts) =>
      let new ← fileRowsF sampling decimate coords ts
      readLoopF read sampling decimate fs (rows ++ new)

/-- Lines 134–147: de-duplicate, sort, add the column `stamps` (lines 138–139), repair date-line jumps. -/
def finishNavF (rows : List Row) : Except PyErr (List (Row × ℤ)) := do
  let out ← takeIdx rows (uniqueIdx (rows.map Row.time))
  let stamps ← out.mapM fun r => fromTimestampF r.time
  if jumpIdx (out.map Row.lon) = [] then return out.zip stamps
  else do
    let lon ← cleanLon (out.map Row.lon)
    return (List.zipWith (fun r l => { r with lon := l }) out lon).zip stamps

/-- `read_nav`, lines 20–147: rows of `time_sec`, `lon`, `lat`, each with its `stamps`. -/
def readNavF (ship : Str) (files : List (List Str)) (sampling : ℚ) (talker : Option Str)
    (shipFunction : Option Reader) (decimate : ℤ) : Except PyErr (Ret (List (Row × ℤ))) :=
  -- lines 55–58
  if navTalkers.lookup ship = none ∧ shipFunction.isNone then .ok .sentinel
  else
    -- lines 60–68
    match talker.or (navTalkers.lookup ship) with
    | none => .ok .sentinel
    | some talker => do
      let read := match shipFunction with
        | some f => fun a => (f a talker).map some
        | none => builtinRead ship talker
      match ← readLoopF read sampling decimate files [] with
      | .sentinel => return .sentinel
      | .val rows => return .val (← finishNavF rows)

end Shipgrav
