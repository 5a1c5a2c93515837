import Verif.Py.Float64
import Verif.Model.FreeAirFloat

/-! Positions at the times of the gravimeter once more (`/repo/example-scripts/dgs_bgm_comp.py` lines 105–113; the same in `dgs_ccp_calc.py` 83–88,
`dgs_raw_comp.py` 103–108, `mru_coherence.py` 84–89, `interactive_line_pick.py` 73–78), in double precision, and the steps of the scripts from the
tables of the readers to the free-air anomaly. -/

namespace Shipgrav

/-- `np.searchsorted(x, v)` of a sorted array, as used inside `interp1d`.  `dgs_bgm_comp.py` lines 105–113. -/
def searchF (xs : List ℚ) (v : ℚ) : ℕ := xs.countP (· < v)

/-- `interp1d(xs, ys, kind='linear', fill_value='extrapolate')(x)`: the two differences, the quotient, the product and the sum are rounded.
`dgs_bgm_comp.py` lines 105–113. -/
def interp1dF (xs ys : List ℚ) (x : ℚ) : ℚ :=
  let hi := min (max (searchF xs x) 1) (xs.length - 1)
  let lo := hi - 1
  let slope := toDouble (toDouble (ys.getD hi 0 - ys.getD lo 0) / toDouble (xs.getD hi 0 - xs.getD lo 0))
  toDouble (toDouble (slope * toDouble (x - xs.getD lo 0)) + ys.getD lo 0)

/-- Lines 109–113 of `dgs_bgm_comp.py`. -/
def syncScriptF (navT navLon navLat tsec : List ℚ) : List ℚ × List ℚ := (tsec.map (interp1dF navT navLon), tsec.map (interp1dF navT navLat))

/-- `table.sort_values(key)` and `reset_index` (`interactive_line_pick.py` lines 60–61, 65–66).  Rows with the same key keep their order here; pandas
leaves it open. -/
def sortValuesF {α κ : Type} [LE κ] [DecidableLE κ] (key : α → κ) (rows : List α) : List α := rows.mergeSort fun a b => decide (key a ≤ key b)

/-- Navigation rows are `(time_sec, lon, lat)`, gravimeter rows `(date_time, rgrav)` with the time in microseconds since the epoch.  The
result has time and `faa`.  `interactive_line_pick.py` lines 58–89. -/
def faaPipelineF (lm : TideLibm) (nav : List (ℚ × ℚ × ℚ)) (dgs : List (ℤ × ℚ)) (bias sampling : ℚ) : Except PyErr (List (ℤ × ℚ)) :=
  let nav := sortValuesF Prod.fst nav
  let dgs := sortValuesF Prod.fst dgs
  let tsec := dgs.map fun r => timestampF r.1
  let grav := dgs.map fun r => toDouble (r.2 + bias)
  let (lonNew, latNew) := syncScriptF (nav.map (·.1)) (nav.map (·.2.1)) (nav.map (·.2.2)) tsec
  match faaScriptF lm grav lonNew latNew (dgs.map (·.1)) sampling with
  | .error e => .error e
  | .ok (faa, _) => .ok ((dgs.map (·.1)).zip faa)

end Shipgrav
