import Verif.Model.Dgs
import Verif.Spec.Toml

/-! Model of the clean-up of serial files and of the calibration of their channels in `/repo/example-scripts/dgs_raw_comp.py`. -/

namespace Shipgrav

/-- The text files that exist: path ↦ text (line ends are `\n`, as `open` hands them over).  Lines 132–142. -/
abbrev Files := Str → Option Str

/-- `f.readlines()`: every line with its line end; the last one may have none.  Line 135. -/
def readlines (text : Str) : List Str :=
  (splitC '\n' text).dropLast.map (· ++ ['\n']) ++ (if (splitC '\n' text).getLastD [] = [] then [] else [(splitC '\n' text).getLastD []])

/-- The path of the cleaned file (lines 127–130). -/
def cleanedPath (path : Str) : Str :=
  let splitpath := splitC '/' path
  joinC '/' (splitpath.dropLast ++ ["clean_".toList ++ splitpath.getLastD []])

/-- The condition on a line (line 138). -/
def keepLine (line : Str) : Bool := hasSub "AT1M".toList line && (splitC ',' line).length == 19

/-- One turn of the loop (lines 127–142); `none` if the file does not exist (`FileNotFoundError`). -/
def cleanOne (fs : Files) (path : Str) : Option Files :=
  let opath := cleanedPath path
  match fs opath with
  | some _ => some fs
  | none =>
    match fs path with
    | none => none
    | some text => some (Function.update fs opath (some ((readlines text).filter keepLine).flatten))

/-- Lines 125–143: the files afterwards and the list of cleaned files, sorted. -/
def cleanSerial (fs : Files) (paths : List Str) : Option (Files × List Str) :=
  (paths.foldlM cleanOne fs).map fun fs' => (fs', (paths.map cleanedPath).mergeSort fun a b => decide (a ≤ b))

/-- Within a table (line 162, `meter_conf['Sensor']`): a statement is an entry. -/
def isEntry : Spec.ConfStmt → Bool
  | .table _ => false
  | .pair _ _ => true

/-- The value of a statement for `key` (line 162). -/
def entryVal (key : Str) : Spec.ConfStmt → Option Spec.ConfVal
  | .pair k v => if k = key then some v else none
  | .table _ => none

/-- `meter_conf[table][key]` (lines 162–176) for the statements of a TOML document; `KeyError` if there is none (also where a value stands in place of the table). -/
def confGet (doc : List Spec.ConfStmt) (table key : Str) : Except PyErr Spec.ConfVal :=
  let body := ((doc.dropWhile (· ≠ .table table)).drop 1).takeWhile isEntry
  match body.findSome? (entryVal key) with
  | some v => .ok v
  | none => .error .keyError

/-- A configured value in arithmetic: booleans are 0 and 1, a text raises.  Lines 162–176. -/
def confNum : Spec.ConfVal → Except PyErr ℚ
  | .num q => .ok q
  | .bool b => .ok (if b then 1 else 0)
  | .str _ => .error .typeError

/-- A value of a table times a number plus a number.  Lines 162–176. -/
def affineVal (gain offset : ℚ) : Val → Except PyErr Val
  | .num q => .ok (.num (q * gain + offset))
  | .nan => .ok .nan
  | _ => .error .typeError

/-- `raw[dst] = raw[src] * conf['Sensor'][gain] / factor + conf['Sensor'][offset]`.  Lines 162–176. -/
def calChannel (doc : List Spec.ConfStmt) (factor : ℚ) (src dst gain offset : Str) (t : Table) : Except PyErr Table := do
  let v ← t.get src
  let g ← confNum (← confGet doc "Sensor".toList gain)
  let o ← confNum (← confGet doc "Sensor".toList offset)
  return t.set dst (← v.mapM (affineVal (g / factor) o))

/-- Lines 162–177, `calibration_factor` and `bias-values` from `database.toml` (lines 26 and 6). -/
def calibrate (doc : List Spec.ConfStmt) (t : Table) : Except PyErr Table := do
  let t ← calChannel doc 8388607 "Gravity".toList "grav_cal".toList "GravCal".toList "g0".toList t
  let t ← calChannel doc 8388607 "Long".toList "long_cal".toList "LongCal".toList "LongOffset".toList t
  let t ← calChannel doc 8388607 "Cross".toList "cross_cal".toList "CrossCal".toList "CrossOffset".toList t
  let t ← calChannel doc 8388607 "Beam".toList "beam_cal".toList "beamgain".toList "beamzero".toList t
  let t ← calChannel doc 1 "Temp".toList "temp_cal".toList "stempgain".toList "stempoffset".toList t
  let t ← calChannel doc 1 "Pressure".toList "pressure_cal".toList "pressgain".toList "presszero".toList t
  let t ← calChannel doc 1 "ElecTemp".toList "electemp_cal".toList "Etempgain".toList "Etempzero".toList t
  let v ← t.get "grav_cal".toList
  return t.set "grav".toList (← v.mapM (affineVal 1 (9688957718 / 10000)))

end Shipgrav
