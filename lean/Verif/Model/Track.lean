import Verif.Model.Scripts
import Verif.Model.Lowpass

/-! Model of the preparation of a line in `/repo/example-scripts/RMBA_calc.py`: extension of both ends, filtered anomaly put into the tracked line,
interpolation to even spacing.  Floats are real numbers; the geodesics of `geographiclib` are parameters. -/

namespace Shipgrav

/-- `geographiclib`: `Inverse(p, q)['s12']`, `Inverse(p, q)['azi2']` and the point of `Direct(p, azimuth, distance)`.  Lines 87–114. -/
structure Geodesics (P : Type) where
  s12 : P → P → ℝ
  azi2 : P → P → ℝ
  direct : P → ℝ → ℝ → P

/-- `xrng` (lines 99–102) and `xpts_line` (lines 176–179): distances from the first point; the first entry is not computed. -/
noncomputable def rangesFrom {P : Type} (g : Geodesics P) (p : P) (pts : List P) : List ℝ :=
  pts.zipIdx.map fun q => if q.2 = 0 then 0 else g.s12 p q.1

/-- `np.mean(np.diff(x))` of at least two entries.  Line 103. -/
noncomputable def meanDiff (x : List ℝ) : ℝ := (List.zipWith (· - ·) (x.drop 1) x).sum / ((x.length : ℝ) - 1)

open Classical in
/-- Lines 88–124: the number of points added on each side and all points of the extended line.  A single point or a spacing of zero makes
`int` raise (`ValueError` for NaN; `OverflowError` for infinity is not distinguished). -/
noncomputable def extendLine {P : Type} (g : Geodesics P) (data : List P) : Except PyErr (ℕ × List P) :=
  match data.head?, data.getLast? with
  | some p, some q =>
    let faz01 := g.azi2 p q
    let faz10 := g.azi2 q p
    let lSeg := g.s12 p q
    let lExt := if lSeg < 500e3 then lSeg else 500e3
    let dxAvg := meanDiff (rangesFrom g p data)
    if data.length = 1 ∨ dxAvg = 0 then .error .valueError
    else
      let nExt := ⌊lExt / dxAvg⌋₊
      let frnt := (List.range nExt).map fun (i : ℕ) => g.direct p faz10 (dxAvg * ((i : ℝ) + 1))
      let back := (List.range nExt).map fun (i : ℕ) => g.direct q faz01 (dxAvg * ((i : ℝ) + 1))
      .ok (nExt, frnt.reverse ++ data ++ back)
  | _, _ => .error .indexError

/-- `track.loc[a:b, 'faa'] = values` for a table with index `0, 1, …`: both ends are included; the number of rows must agree.  Line 168. -/
def locAssign {α : Type} (track : List α) (a b : ℤ) (values : List α) : Except PyErr (List α) :=
  let rows := (List.range track.length).filter fun (i : ℕ) => a ≤ (i : ℤ) ∧ (i : ℤ) ≤ b
  if rows.length = values.length then
    .ok (track.zipIdx.map fun p => if a ≤ (p.2 : ℤ) ∧ (p.2 : ℤ) ≤ b then values.getD ((p.2 : ℤ) - a).toNat p.1 else p.1)
  else .error .valueError

/-- Line 168: the smoothed anomaly of the segment, without its ends, put into the tracked line. -/
def embedTrack {α : Type} (nExt : ℕ) (track ffaa : List α) : Except PyErr (List α) :=
  let start : ℤ := nExt + lowpassTaps
  locAssign track start (start + (trimTrack ffaa).length - 1) (trimTrack ffaa)

/-- `np.linspace(0, stop, int(1e3))` (line 181). -/
noncomputable def linspace1000 (stop : ℝ) : List ℝ := (List.range 1000).map fun (i : ℕ) => (i : ℝ) * (stop / 999)

open Classical in
/-- `interp1d(xs, ys)(x)` with default arguments (lines 187–194): the nodes are sorted first; outside them it raises; no value (NaN) if the two
neighbours have the same abscissa. -/
noncomputable def interp1dStrict (xs ys : List ℝ) (x : ℝ) : Except PyErr (Option ℝ) :=
  let nodes := (xs.zip ys).mergeSort fun p q => decide (p.1 ≤ q.1)
  let xs := nodes.map Prod.fst
  let ys := nodes.map Prod.snd
  if x < xs.getD 0 0 ∨ xs.getD (xs.length - 1) 0 < x then .error .valueError
  else
    let hi := min (max (searchReal xs x) 1) (xs.length - 1)
    let lo := hi - 1
    if xs.getD hi 0 = xs.getD lo 0 then .ok none
    else .ok (some ((ys.getD hi 0 - ys.getD lo 0) / (xs.getD hi 0 - xs.getD lo 0) * (x - xs.getD lo 0) + ys.getD lo 0))

/-- Lines 176–194 for one column: distances along the line, and the column at 1000 evenly spaced distances. -/
noncomputable def evenSpacing (xpts column : List ℝ) : Except PyErr (List (Option ℝ)) :=
  (linspace1000 (xpts.getD (xpts.length - 1) 0)).mapM (interp1dStrict xpts column)

end Shipgrav
