import Verif.Py.Real

/-! Model of `center_diff` and `eotvos_full`, `/repo/shipgrav/grav.py` lines 194–296 and 457–475.  Floats are real numbers. -/

namespace Shipgrav
open Real

/-- `y[2:]` (lines 470, 472). -/
def from2 {α : Type} (y : List α) : List α := y.drop 2
/-- `y[1:-1]` (line 472). -/
def inner {α : Type} (y : List α) : List α := (y.take (y.length - 1)).drop 1
/-- `y[:-2]` (lines 470, 472). -/
def upto2 {α : Type} (y : List α) : List α := y.take (y.length - 2)

/-- `center_diff`, lines 457–475. -/
noncomputable def centerDiff (y : List ℝ) (n : ℤ) (samp : ℝ) : Ret (List ℝ) :=
  if n = 1 then .val (((from2 y).zip (upto2 y)).map fun p => (p.1 - p.2) * (samp / 2))
  else if n = 2 then .val ((((upto2 y).zip (inner y)).zip (from2 y)).map fun p => (p.1.1 - 2 * p.1.2 + p.2) * samp ^ 2)
  else .sentinel

/-- A row of three numbers (lines 260–289). -/
structure Row3 where
  x : ℝ
  y : ℝ
  z : ℝ

/-- `np.cross` of rows (lines 275–286). -/
noncomputable def Row3.cross (u v : Row3) : Row3 := ⟨u.y * v.z - u.z * v.y, u.z * v.x - u.x * v.z, u.x * v.y - u.y * v.x⟩

/-- `2*w` (line 275). -/
noncomputable def Row3.twice (u : Row3) : Row3 := ⟨2 * u.x, 2 * u.y, 2 * u.z⟩

/-- Lines 228–293 for one sample, given the latitude in radians, the height and the differences: the correction in mGal. -/
noncomputable def eotvosRow (a b latr ht dlat ddlat dlon ddlon dht ddht : ℝ) : ℝ :=
  let We := 0.00007292115
  let mps2mgal := 100000
  let ecc := (a - b) / a
  let slat := sin latr
  let clat := cos latr
  let s2lat := sin (2 * latr)
  let c2lat := cos (2 * latr)
  let rp := a * (1 - ecc * slat * slat)
  let drp := -a * dlat * ecc * s2lat
  let ddrp := -a * ddlat * ecc * s2lat - 2 * a * dlat * dlat * ecc * c2lat
  let D := arctan (ecc * s2lat)
  let dD := 2 * dlat * ecc * c2lat
  let ddD := 2 * ddlat * ecc * c2lat - 4 * dlat * dlat * ecc * s2lat
  let r : Row3 := ⟨-rp * sin D, 0, -rp * cos D - ht⟩
  let rdot : Row3 := ⟨-drp * sin D - rp * dD * cos D, 0, -drp * cos D + rp * dD * sin D - dht⟩
  let ci := -ddrp * sin D - 2 * drp * dD * cos D - rp * (ddD * cos D - dD * dD * sin D)
  let ck := -ddrp * cos D + 2 * drp * dD * sin D + rp * (ddD * sin D + dD * dD * cos D) - ddht
  let rdotdot : Row3 := ⟨ci, 0, ck⟩
  let w : Row3 := ⟨(dlon + We) * clat, -dlat, -(dlon + We) * slat⟩
  let wdot : Row3 := ⟨dlon * clat - (dlon + We) * dlat * slat, -ddlat, -ddlon * slat - (dlon + We) * dlat * clat⟩
  let w2xrdot := w.twice.cross rdot
  let wdotxr := wdot.cross r
  let wxr := w.cross r
  let wxwxr := w.cross wxr
  let we : Row3 := ⟨We * clat, 0, -We * slat⟩
  let wexr := we.cross r
  let wexwexr := we.cross wexr
  let az := rdotdot.z + w2xrdot.z + wdotxr.z + wxwxr.z
  (az - wexwexr.z) * mps2mgal

/-- The array behind a result of `center_diff` that is not the sentinel.  Lines 236–241. -/
def Ret.arr : Ret (List ℝ) → List ℝ
  | .val l => l
  | .sentinel => []

/-- `eotvos_full`, lines 194–296.  Arrays of different lengths do not broadcast (the one exception, three samples in one array and more
in another, is left out).  With fewer than three samples the arrays are empty and `E[0]` raises.  `a = 0` would give `nan` everywhere
and is left out too. -/
noncomputable def eotvosFull (lon lat ht : List ℝ) (samp a b : ℝ) : Except PyErr (List ℝ) :=
  if lon.length ≠ lat.length ∨ ht.length ≠ lat.length then .error .valueError
  else
    let latr := lat.map radians
    let lonr := lon.map radians
    let dlat := (centerDiff latr 1 samp).arr
    let ddlat := (centerDiff latr 2 samp).arr
    let dlon := (centerDiff lonr 1 samp).arr
    let ddlon := (centerDiff lonr 2 samp).arr
    let dht := (centerDiff ht 1 samp).arr
    let ddht := (centerDiff ht 2 samp).arr
    let E := (List.range (inner latr).length).map fun (k : ℕ) => eotvosRow a b ((inner latr).getD k 0) ((inner ht).getD k 0) (dlat.getD k 0) (ddlat.getD k 0)
      (dlon.getD k 0) (ddlon.getD k 0) (dht.getD k 0) (ddht.getD k 0)
    match E.head?, E.getLast? with
    | some first, some last => .ok (first :: E ++ [last])
    | _, _ => .error .indexError

end Shipgrav
