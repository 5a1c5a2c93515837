import Verif.Py.Core
import Mathlib.Analysis.SpecialFunctions.Trigonometric.Basic
import Mathlib.Analysis.SpecialFunctions.Complex.Arg
import Mathlib.Analysis.SpecialFunctions.Pow.Real

/-! Model of `/repo/shipgrav/nav.py`.  Floats are reals; NaN (only written by the edge masking) is `none`. -/

namespace Shipgrav

/-- nav.py lines 4–5. -/
noncomputable def tay10 : List ℝ :=
  [1/1260, -5/504, 5/84, -5/21, 5/6, 0, -5/6, 5/21, -5/84, 5/504, -1/1260]

/-- Entry `k` of the full (zero padded) convolution of `x` with `v`.  Lines 41–42. -/
noncomputable def convAt (x v : List ℝ) (k : ℕ) : ℝ :=
  ((List.range v.length).map (fun j => v.getD j 0 * (if j ≤ k then x.getD (k - j) 0 else 0))).sum

/-- `np.convolve(x, v, 'same')` for `len(x) ≥ len(v)`, `len(v)` odd: the central `len(x)` entries.  Lines 41–42. -/
noncomputable def convolveSame (x v : List ℝ) : List ℝ :=
  (List.range x.length).map (fun i => convAt x v (i + (v.length - 1) / 2))

/-- `np.deg2rad`.  Lines 37, 41–42, 46, 87–88. -/
noncomputable def deg2rad (x : ℝ) : ℝ := x * (Real.pi / 180)
/-- `np.rad2deg`.  Line 70. -/
noncomputable def rad2deg (x : ℝ) : ℝ := x * (180 / Real.pi)

/-- nav.py lines 49–52: `v[:5] = nan; v[-5:] = nan`. -/
def maskEdges (v : List ℝ) : List (Option ℝ) :=
  v.zipIdx.map (fun p => if p.2 < 5 ∨ v.length ≤ p.2 + 5 then none else some p.1)

/-- `latlon_to_EN(lon, lat, freq)`, nav.py lines 8–54; returns `(vn, ve)`.  Arguments without a length (line 27, also an
`AssertionError`) are not represented. -/
noncomputable def latlonToEN (lon lat : List ℝ) (freq : ℝ) :
    Except PyErr (List (Option ℝ) × List (Option ℝ)) :=
  if lon.length ≠ lat.length then .error .assertionError
  else if ¬ (lon.length > 10) then .error .assertionError
  else
    let a : ℝ := 6378137.0
    let b : ℝ := 6356752.3142451
    let e2 : ℝ := 1 - b ^ 2 / a ^ 2
    let sin2lat := lat.map (fun l => Real.sin (deg2rad l) ^ 2)
    let e2term := sin2lat.map (fun s => Real.sqrt (1 - e2 * s))
    let dlat := (convolveSame lat tay10).map deg2rad
    let dlon := (convolveSame lon tay10).map deg2rad
    let vn := List.zipWith (fun d e => a * (1 - e2) * (d / e ^ 3) * freq) dlat e2term
    let ve := List.zipWith (fun d c => a * d * c * freq) dlon
      (List.zipWith (fun l e => Real.cos (deg2rad l) / e) lat e2term)
    .ok (maskEdges vn, maskEdges ve)

/-- `np.arctan2(y, x)` (without signed zeros).  Line 70. -/
noncomputable def arctan2 (y x : ℝ) : ℝ := Complex.arg ⟨x, y⟩

/-- `ENvel_to_course_heading(ve, vn)`, nav.py lines 57–72, one sample: `(heading, vel)`. -/
noncomputable def enVelToCourseHeading (ve vn : ℝ) : ℝ × ℝ :=
  (rad2deg (arctan2 ve vn), Real.sqrt (ve ^ 2 + vn ^ 2))

/-- `rotate_acceleration_EN_to_cl(heading, accE, accN)`, nav.py lines 75–91, one sample: `(ac, al)`. -/
noncomputable def rotateENtoCL (heading accE accN : ℝ) : ℝ × ℝ :=
  let cosa := Real.cos (deg2rad heading)
  let sina := Real.sin (deg2rad heading)
  (accE * cosa - accN * sina, accE * sina + accN * cosa)

end Shipgrav
