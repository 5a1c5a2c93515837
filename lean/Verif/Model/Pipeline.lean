import Verif.Model.Scripts

/-! Model of the steps of the example scripts from the tables that the readers return to the free-air anomaly
(`/repo/example-scripts/interactive_line_pick.py` lines 58–91; the same in `dgs_raw_comp.py` 86–122 and `mru_coherence.py` 67–103). -/

namespace Shipgrav

open Classical in
/-- `table.sort_values(key)` and `reset_index` (lines 60–61, 65–66).  Rows with the same key keep their order here; pandas leaves it open. -/
noncomputable def sortValues {α κ : Type} [LE κ] (key : α → κ) (rows : List α) : List α := rows.mergeSort fun a b => decide (key a ≤ key b)

/-- Navigation rows are `(time_sec, lon, lat)`, gravimeter rows `(date_time, rgrav)` with the time in microseconds since the epoch.  The
result has time and `faa`.  Lines 58–91. -/
noncomputable def faaPipeline (nav : List (ℝ × ℝ × ℝ)) (dgs : List (ℤ × ℝ)) (bias sampling : ℝ) : Except PyErr (List (ℤ × Option ℝ)) :=
  let nav := sortValues Prod.fst nav
  let dgs := sortValues Prod.fst dgs
  let tsec := dgs.map fun r => (r.1 : ℝ) / 1000000
  let grav := dgs.map fun r => r.2 + bias
  let (lonNew, latNew) := syncScript (nav.map (·.1)) (nav.map (·.2.1)) (nav.map (·.2.2)) tsec
  match faaScript grav lonNew latNew (dgs.map (·.1)) sampling with
  | .error e => .error e
  | .ok (faa, _) => .ok ((dgs.map (·.1)).zip faa)

end Shipgrav
