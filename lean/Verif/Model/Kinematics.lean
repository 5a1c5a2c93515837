import Verif.Model.Nav

/-! Model of the accelerations from positions in `/repo/example-scripts/dgs_ccp_calc.py`.  Floats are reals; NaN is `none`. -/

namespace Shipgrav

/-- `np.convolve(x, v, 'same')` for an array with gaps, `len(x) ≥ len(v)`, `len(v)` odd: an entry is NaN if one of the values that it is
made from is.  Lines 112–113. -/
noncomputable def convolveSameNan (x : List (Option ℝ)) (v : List ℝ) : List (Option ℝ) :=
  (List.range x.length).map fun i =>
    let last := i + (v.length - 1) / 2
    let window := (x.take (last + 1)).drop (last + 1 - v.length)
    if window.any Option.isNone then none else some (convAt (x.map (·.getD 0)) v last)

/-- Course from velocities that may be NaN (line 115). -/
noncomputable def courseOf : Option ℝ → Option ℝ → Option ℝ
  | some ve, some vn => some (enVelToCourseHeading ve vn).1
  | _, _ => none

/-- Rotation of an acceleration that may be NaN (lines 119–120). -/
noncomputable def rotateNan (crse : ℝ) : Option ℝ → Option ℝ → Option (ℝ × ℝ)
  | some e, some n => some (rotateENtoCL crse e n)
  | _, _ => none

/-- Lines 107–120: `acc_cross` and `acc_long`. -/
noncomputable def kinematics (lon lat : List ℝ) (sampling : ℝ) : Except PyErr (List (Option ℝ) × List (Option ℝ)) :=
  match latlonToEN lon lat 1 with
  | .error e => .error e
  | .ok (vn0, ve0) =>
    let gpsVn := vn0.map (Option.map (sampling * ·))
    let gpsVe := ve0.map (Option.map (sampling * ·))
    let gpsEacc := (convolveSameNan gpsVe tay10).map (Option.map (100000 * sampling * ·))
    let gpsNacc := (convolveSameNan gpsVn tay10).map (Option.map (100000 * sampling * ·))
    let crse := (List.zipWith courseOf gpsVe gpsVn).map (·.getD 0)
    let acc := List.zipWith (fun c p => rotateNan c p.1 p.2) crse (gpsEacc.zip gpsNacc)
    .ok (acc.map (Option.map Prod.fst), acc.map (Option.map Prod.snd))

end Shipgrav
