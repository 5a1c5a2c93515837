import Verif.Model.LatCorr
import Verif.Model.Eotvos
import Verif.Model.Tide
import Verif.Model.Tilt
import Verif.Model.CrossCoupling
import Verif.Model.Parker1d
import Verif.Model.Thermal
import Verif.Py.Fmt

/-! Model of the computations of the example scripts in `/repo/example-scripts` (downloads, plots, printing and the `filtfilt` smoothing
are left out).

Floats are real numbers.  Columns of one table have the same length.  `interp1d` is used with at least two times in increasing order. -/

namespace Shipgrav
open Real

open Classical in
/-- `np.searchsorted(x, v)` of a sorted array, as used inside `scipy.interpolate.interp1d`.  `dgs_bgm_comp.py` lines 105–113. -/
noncomputable def searchReal (xs : List ℝ) (v : ℝ) : ℕ := xs.countP (· < v)

/-- `interp1d(xs, ys, kind='linear', fill_value='extrapolate')(x)` (`dgs_bgm_comp.py` lines 105–108, `dgs_ccp_calc.py` 83–86,
`dgs_raw_comp.py` 103–106, `mru_coherence.py` 84–87, `interactive_line_pick.py` 73–76): the index from the search is clipped to
`1 … len - 1`, then the straight line through the two neighbours. -/
noncomputable def interp1d (xs ys : List ℝ) (x : ℝ) : ℝ :=
  let hi := min (max (searchReal xs x) 1) (xs.length - 1)
  let lo := hi - 1
  let slope := (ys.getD hi 0 - ys.getD lo 0) / (xs.getD hi 0 - xs.getD lo 0)
  slope * (x - xs.getD lo 0) + ys.getD lo 0

/-- Lines 109–113 of `dgs_bgm_comp.py`: positions at the times of the gravimeter. -/
noncomputable def syncScript (navT navLon navLat tsec : List ℝ) : List ℝ × List ℝ := (tsec.map (interp1d navT navLon), tsec.map (interp1d navT navLat))

/-- `bad_inds = np.where(np.diff(lon) > 1)[0]` (`dgs_bgm_comp.py` line 82, `dgs_ccp_calc.py` line 68). -/
def badInds (lon : List ℚ) : List ℕ := (List.range (lon.length - 1)).filter fun i => lon.getD (i + 1) 0 - lon.getD i 0 > 1

/-- `gps_nav.drop(bad_inds, axis=0)` (the next line); the index is `0, 1, …`.  `dgs_bgm_comp.py` line 83, `dgs_ccp_calc.py` line 69. -/
def dropIndices {α : Type} (rows : List α) (bad : List ℕ) : List α := (rows.zipIdx.filter fun p => p.2 ∉ bad).map Prod.fst

/-- Rows of navigation after the removal of dropouts.  `dgs_bgm_comp.py` lines 82–83, `dgs_ccp_calc.py` lines 68–69. -/
def cleanDropouts {α : Type} (lon : α → ℚ) (rows : List α) : List α := dropIndices rows (badInds (rows.map lon))

/-- `lat_corr` (`dgs_bgm_comp.py` lines 118–120; the same in the other scripts): heights are zero. -/
noncomputable def latCorrScript (lat : List ℝ) : List (Option ℝ) :=
  let ellipsoidHt := List.replicate lat.length (0 : ℝ)
  (lat.zip ellipsoidHt).map fun p => (wgsGrav p.1).map (· + freeAir p.1 p.2 false)

/-- `faa` and `full_field` (`dgs_bgm_comp.py` lines 118–127; the same in `dgs_ccp_calc.py` 93–102, `dgs_raw_comp.py` 112–121,
`mru_coherence.py` 93–102, `interactive_line_pick.py` 81–90). -/
noncomputable def faaScript (grav lon lat : List ℝ) (times : List ℤ) (sampling : ℝ) : Except PyErr (List (Option ℝ) × List (Option ℝ)) :=
  let ellipsoidHt := List.replicate lat.length (0 : ℝ)
  let latCorr := latCorrScript lat
  match eotvosFull lon lat ellipsoidHt sampling 6378137.0 6356752.3142 with
  | .error e => .error e
  | .ok eotvosCorr =>
    match longman lon lat times 0 with
    | .error e => .error e
    | .ok tide =>
      let tideCorr := tide.map fun t => t.map (·.1)
      let rows := ((grav.zip latCorr).zip eotvosCorr).zip tideCorr
      .ok (rows.map fun p => do return p.1.1.1 - (← p.1.1.2) + p.1.2 + (← p.2), rows.map fun p => do return p.1.1.1 + p.1.2 + (← p.2))

/-- `up_vecs` with a number for `on_off` (as in `dgs_ccp_calc.py` lines 124–125, where it is 0): `acc[False] = 0` does nothing and
`acc[True] = 0` clears the whole array. -/
noncomputable def upVecsScalar (dt : ℝ) (g cacc lacc : List (Option ℝ)) (onOff : ℝ) (cper cdamp lper ldamp : ℝ) :
    (List (Option ℝ) × List (Option ℝ)) × UpResult :=
  open Classical in
  let clear := fun (acc : List (Option ℝ)) => if onOff > 0 then acc.map fun _ => some 0 else acc
  let cacc := clear (nanToZero cacc)
  let lacc := clear (nanToZero lacc)
  ((cacc, lacc), upResult dt g cacc lacc cper cdamp lper ldamp)

/-- One entry of `level_error` (`dgs_ccp_calc.py` lines 126–129); `up` is a column of `up_vecs`. -/
noncomputable def levelErrorAt (latCorr accCross accLong : ℝ) (up : Vec) : ℝ :=
  let igfInPlat := latCorr * up.2.2
  let crossInPlat := accCross * up.2.1
  let longInPlat := accLong * up.1
  latCorr - igfInPlat - longInPlat + crossInPlat

/-- `level_error` (`dgs_ccp_calc.py` lines 124–129).  The accelerations are the arrays that `up_vecs` has changed, so they have no gaps. -/
noncomputable def levelErrorScript (sampling : ℝ) (latCorr : List ℝ) (accCross accLong : List (Option ℝ)) : Except PyErr (Option (List ℝ)) :=
  match upVecsScalar (1 / sampling) (latCorr.map some) accCross accLong 0 240 0.7071 240 0.7071 with
  | ((cacc, lacc), .vecs up) =>
    .ok (some ((((latCorr.zip cacc).zip lacc).zip up).map fun p => levelErrorAt p.1.1.1 (p.1.1.2.getD 0) (p.1.2.getD 0) p.2))
  | (_, .err e) => .error e
  | (_, .notFinite) => .ok none

/-- The regression of `dgs_ccp_calc.py` (lines 131, 135–136): the table loses its first two rows before, `level_error` does not. -/
noncomputable def ccpFitScript (faa vcc ve al ax levelError : List ℝ) : Except PyErr CCTable :=
  calcCC (faa.drop 2) (vcc.drop 2) (ve.drop 2) (al.drop 2) (ax.drop 2) levelError none 1

/-- `faa_ccp` (`dgs_ccp_calc.py` lines 144–147) for one row; `β` are the fitted parameters in the order `ve, vcc, al, ax, lev`. -/
noncomputable def ccpApply (β : Fin 5 → ℝ) (faa ve vcc al ax : ℝ) : ℝ := faa + β 0 * ve + β 1 * vcc + β 2 * al + β 3 * ax

/-- Lines 136–144 of `interactive_line_pick.py`: the last of an odd number of picks is dropped, the rest is taken in pairs. -/
def segmentsOf (inds : List ℕ) : List (ℕ × ℕ) :=
  let inds := if inds.length % 2 ≠ 0 then inds.dropLast else inds
  (List.range (inds.length / 2)).map fun k =>
    let a := inds.getD (2 * k) 0
    let b := inds.getD (2 * k + 1) 0
    (min a b, max a b)

/-- `dgs_data.iloc[s[0]:s[1]]` (lines 148, 177): the rows that are written. -/
def segmentRows {α : Type} (rows : List α) (s : ℕ × ℕ) : List α := (rows.take s.2).drop s.1

/-- The name of the file for segment `i` (line 176). -/
def segmentName (i : ℕ) (s : ℕ × ℕ) : Str :=
  "segment_s".toList ++ natStr i ++ "_".toList ++ natStr s.1 ++ "-".toList ++ natStr s.2 ++ ".dat".toList

/-- `temps = np.arange(0, Tm+1, dtemp)` (`RMBA_calc.py` lines 202–204): 0, 50, …, 1350. -/
noncomputable def bouguerTemps : List ℝ := (List.range 28).map fun (i : ℕ) => (i : ℝ) * 50

/-- `rhos = rhom*(1-a*(temps-Tm))`, appended to the densities of water, sediment and crust (lines 200, 205–207). -/
noncomputable def bouguerRho (a : ℝ) : List ℝ := [1000, 2100, 2900] ++ bouguerTemps.map fun T => 3300 * (1 - a * (T - 1350))

/-- `drho = np.diff(rho)` (line 208). -/
noncomputable def bouguerDrho (a : ℝ) (i : ℕ) : ℝ := (bouguerRho a).getD (i + 1) 0 - (bouguerRho a).getD i 0

/-- `MBA` (lines 209–215): `dz_c` is 6000. -/
noncomputable def mbaScript (xobs faa dep sed : List ℝ) (a : ℝ) : Except PyErr (List ℝ) := do
  let base := List.zipWith (· - ·) dep sed
  let w ← grav1dPadded xobs dep 0 (bouguerDrho a 0)
  let s ← grav1dPadded xobs base 0 (bouguerDrho a 1)
  let c ← grav1dPadded xobs (base.map (· - 6000)) 0 (bouguerDrho a 2)
  return List.zipWith (· - ·) (List.zipWith (· - ·) (List.zipWith (· - ·) faa w) s) c

/-- One turn of the loop over isotherms (lines 220–223).  No value if a depth is not finite. -/
noncomputable def thermalCorr (xobs dep sed age : List ℝ) (a : ℝ) (i : ℕ) : Except PyErr (Option (List ℝ)) := do
  let (ziso, _) ← thermZHalfspace age (bouguerTemps.getD i 0) 0.01 1350 true 3300 1000 a 1e-6
  match allFinite ziso with
  | none => return none
  | some ziso =>
    let base := List.zipWith (· - ·) dep sed
    let c ← grav1dPadded xobs ((List.zipWith (· - ·) base ziso).map (· - 6000)) 0 (bouguerDrho a (i + 3))
    return some c

/-- The loop: all corrections, for isotherms `i, …, i + n - 1`.  Lines 219–223. -/
noncomputable def thermalCorrs (xobs dep sed age : List ℝ) (a : ℝ) : ℕ → ℕ → Except PyErr (Option (List (List ℝ)))
  | 0, _ => .ok (some [])
  | n + 1, i => do
    let c ← thermalCorr xobs dep sed age a i
    let cs ← thermalCorrs xobs dep sed age a n (i + 1)
    return do return (← c) :: (← cs)

/-- `RMBA` (lines 219–227): there are 27 isotherms. -/
noncomputable def rmbaScript (xobs faa dep sed age : List ℝ) (a : ℝ) : Except PyErr (Option (List ℝ)) := do
  let mba ← mbaScript xobs faa dep sed a
  let corrs ← thermalCorrs xobs dep sed age a (bouguerTemps.length - 1) 0
  return corrs.map fun corrs => mba.zipIdx.map fun p => p.1 - (corrs.map fun c => c.getD p.2 0).sum

end Shipgrav
