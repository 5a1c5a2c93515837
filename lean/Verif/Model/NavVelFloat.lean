import Verif.Model.Nav
import Verif.Model.LatCorrFloat

/-! `/repo/shipgrav/nav.py` once more, in double precision.  Every addition, subtraction, multiplication and division is rounded, and so are the constants of the
source; sine, cosine, arcus tangens, square root, powers and the inner products of `np.convolve` are those of a library. -/

namespace Shipgrav

/-- The library functions that are called.  Lines 34–46, 70–71, 87–88. -/
structure NavLibm where
  sin : ℚ → ℚ
  cos : ℚ → ℚ
  sqrt : ℚ → ℚ
  /-- `x**2` -/
  sqr : ℚ → ℚ
  /-- `x**3` -/
  cube : ℚ → ℚ
  arctan2 : ℚ → ℚ → ℚ
  /-- the inner product with which `np.convolve` makes each of its values -/
  dot : List ℚ → List ℚ → ℚ

/-- nav.py lines 4–5. -/
def tay10F : List ℚ :=
  [1/1260, -5/504, 5/84, -5/21, 5/6, 0, -5/6, 5/21, -5/84, 5/504, -1/1260].map toDouble

/-- Value `k` of the full (zero padded) convolution of `x` with `v`.  Lines 41–42. -/
def convAtF (lm : NavLibm) (x v : List ℚ) (k : ℕ) : ℚ :=
  lm.dot v ((List.range v.length).map fun j => if j ≤ k then x.getD (k - j) 0 else 0)

/-- `np.convolve(x, v, 'same')`, see `convolveSame`.  Lines 41–42. -/
def convolveSameF (lm : NavLibm) (x v : List ℚ) : List ℚ :=
  (List.range x.length).map fun i => convAtF lm x v (i + (v.length - 1) / 2)

/-- nav.py lines 49–52. -/
def maskEdgesF (v : List ℚ) : List (Option ℚ) :=
  v.zipIdx.map fun p => if p.2 < 5 ∨ v.length ≤ p.2 + 5 then none else some p.1

/-- `latlon_to_EN(lon, lat, freq)`, nav.py lines 8–54; returns `(vn, ve)`. -/
def latlonToENF (lm : NavLibm) (lon lat : List ℚ) (freq : ℚ) : Except PyErr (List (Option ℚ) × List (Option ℚ)) :=
  if lon.length ≠ lat.length then .error .assertionError
  else if ¬ (lon.length > 10) then .error .assertionError
  else
    let a : ℚ := toDouble 6378137.0
    let b : ℚ := toDouble 6356752.3142451
    let e2 : ℚ := toDouble (1 - toDouble (lm.sqr b / lm.sqr a))
    let sin2lat := lat.map fun l => lm.sqr (lm.sin (deg2radF l))
    let e2term := sin2lat.map fun s => lm.sqrt (toDouble (1 - toDouble (e2 * s)))
    let dlat := (convolveSameF lm lat tay10F).map deg2radF
    let dlon := (convolveSameF lm lon tay10F).map deg2radF
    let vn := List.zipWith (fun d e => toDouble (toDouble (toDouble (a * toDouble (1 - e2)) * toDouble (d / lm.cube e)) * freq)) dlat e2term
    let ve := List.zipWith (fun d c => toDouble (toDouble (toDouble (a * d) * c) * freq)) dlon
      (List.zipWith (fun l e => toDouble (lm.cos (deg2radF l) / e)) lat e2term)
    .ok (maskEdgesF vn, maskEdgesF ve)

/-- `np.rad2deg`: the product with the constant `180/π`.  Line 70. -/
def rad2degF (x : ℚ) : ℚ := toDouble (x * toDouble (180 / piF))

/-- `ENvel_to_course_heading(ve, vn)`, nav.py lines 57–72, one sample: `(heading, vel)`. -/
def enVelToCourseHeadingF (lm : NavLibm) (ve vn : ℚ) : ℚ × ℚ :=
  (rad2degF (lm.arctan2 ve vn), lm.sqrt (toDouble (lm.sqr ve + lm.sqr vn)))

/-- `rotate_acceleration_EN_to_cl(heading, accE, accN)`, nav.py lines 75–91, one sample: `(ac, al)`. -/
def rotateENtoCLF (lm : NavLibm) (heading accE accN : ℚ) : ℚ × ℚ :=
  let cosa := lm.cos (deg2radF heading)
  let sina := lm.sin (deg2radF heading)
  (toDouble (toDouble (accE * cosa) - toDouble (accN * sina)), toDouble (toDouble (accE * sina) + toDouble (accN * cosa)))

end Shipgrav
