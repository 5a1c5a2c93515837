import Verif.Py.Erf
import Verif.Py.Fft

/-!
Thermal structure of the lithosphere (shipgrav/grav.py lines 889–1128).  Arrays of ages or distances, of depths and of isotherms are lists of
real numbers; scalar arguments are Python floats.  An infinite age (spreading rate zero) counts as no value, and so do the infinite depths of
isotherms at the mantle temperature.
-/

namespace Shipgrav
open Real

/-- `secyr` (lines 929, 979, 1034). -/
noncomputable def secyr : ℝ := 365.25 * 24 * 3600

/-- Lines 931–934, 981–984 and 1038–1041: age in seconds. -/
noncomputable def ageSeconds (time : Bool) (u x : ℝ) : Option ℝ :=
  if time then some (x * 1e6 * secyr) else divR |x| (u / secyr)

/-- Line 939 for one node. -/
noncomputable def halfspaceNode (Tm k : ℝ) (t : Option ℝ) (z : ℝ) : Option ℝ := do
  let s ← sqrtR (k * (← t))
  let e ← erfQuot z (2 * s)
  pure (0 + (Tm - 0) * e)

/-- Lines 942–943 and 988–989 for one position; `c` is the factor in front. -/
noncomputable def halfspaceSubsidence (c k : ℝ) (t : Option ℝ) : Option ℝ := do
  let s ← sqrtR (k * (← t) / π)
  pure (c * s)

open Classical in
/-- `therm_halfspace` (lines 889–945).  `X[0, :]` raises when there are no depths. -/
noncomputable def thermHalfspace (x z : List ℝ) (u Tm : ℝ) (time : Bool) (rhom rhow a k : ℝ) : Except PyErr (Mat (Option ℝ) × List (Option ℝ)) :=
  let t := x.map (ageSeconds time u)
  let T : Mat (Option ℝ) := ⟨z.length, x.length, fun i j => halfspaceNode Tm k (t.getD j none) (z.getD i 0)⟩
  if rhom - rhow = 0 then .error .zeroDivisionError
  else if z = [] then .error .indexError
  else
    let c := 2 * rhom * a * (Tm - 0) / (rhom - rhow)
    .ok (T, t.map (halfspaceSubsidence c k))

open Classical in
/-- `therm_Z_halfspace` (lines 948–991) for one isotherm. -/
noncomputable def thermZHalfspace (x : List ℝ) (T u Tm : ℝ) (time : Bool) (rhom rhow a k : ℝ) : Except PyErr (List (Option ℝ) × List (Option ℝ)) :=
  let t := x.map (ageSeconds time u)
  if 0 - Tm = 0 then .error .zeroDivisionError
  else
    let inv := erfcinv ((T - Tm) / (0 - Tm))
    let Z := t.map fun t => do
      let s ← sqrtR (k * (← t))
      pure (2 * s * (← inv))
    if rhom - rhow = 0 then .error .zeroDivisionError
    else
      let c := 2 * rhom * a * (Tm - 0) / (rhom - rhow)
      .ok (Z, t.map (halfspaceSubsidence c k))

/-- Lines 1043–1060: the ten terms at age `t` and depth `z`. -/
noncomputable def plateTerms (zL0 k t z : ℝ) : List ℝ :=
  [ 2 / π * exp (-k * π ^ 2 * t / zL0 ^ 2) * sin (π * z / zL0),
    1 / π * exp (-4 * k * π ^ 2 * t / zL0 ^ 2) * sin (2 * π * z / zL0),
    2 / π / 3 * exp (-9 * k * π ^ 2 * t / zL0 ^ 2) * sin (3 * π * z / zL0),
    2 / π / 4 * exp (-16 * k * π ^ 2 * t / zL0 ^ 2) * sin (4 * π * z / zL0),
    2 / π / 5 * exp (-25 * k * π ^ 2 * t / zL0 ^ 2) * sin (5 * π * z / zL0),
    2 / π / 6 * exp (-36 * k * π ^ 2 * t / zL0 ^ 2) * sin (6 * π * z / zL0),
    2 / π / 7 * exp (-49 * k * π ^ 2 * t / zL0 ^ 2) * sin (7 * π * z / zL0),
    2 / π / 8 * exp (-64 * k * π ^ 2 * t / zL0 ^ 2) * sin (8 * π * z / zL0),
    2 / π / 9 * exp (-81 * k * π ^ 2 * t / zL0 ^ 2) * sin (9 * π * z / zL0),
    2 / π / 10 * exp (-100 * k * π ^ 2 * t / zL0 ^ 2) * sin (10 * π * z / zL0) ]

open Classical in
/-- Lines 1062–1066 for one node: the row is overwritten below the plate. -/
noncomputable def plateNode (zL0 Tm k t z : ℝ) : ℝ :=
  if z > zL0 then Tm else 0 + (Tm - 0) * ((plateTerms zL0 k t z).foldl (· + ·) (z / zL0))

/-- Lines 1068–1072 for one position; `c` is the factor in front. -/
noncomputable def plateSubsidence (c zL0 k t : ℝ) : ℝ :=
  c * (1 / 2 - 4 / π ^ 2 * exp (-k * π ^ 2 * t / zL0 ^ 2) - 4 / (9 * π ^ 2) * exp (-k * 9 * π ^ 2 * t / zL0 ^ 2) -
    4 / (25 * π ^ 2) * exp (-k * 25 * π ^ 2 * t / zL0 ^ 2))

open Classical in
/-- `therm_plate` (lines 994–1074); the plate thickness is not zero.  `t[0, :]` raises when there are no depths. -/
noncomputable def thermPlate (x z : List ℝ) (u zL0 Tm : ℝ) (time : Bool) (rhom rhow a k : ℝ) : Except PyErr (Mat (Option ℝ) × List (Option ℝ)) :=
  let t := x.map (ageSeconds time u)
  let T : Mat (Option ℝ) := ⟨z.length, x.length, fun i j => (t.getD j none).map fun t => plateNode zL0 Tm k t (z.getD i 0)⟩
  if z = [] then .error .indexError
  else if rhom - rhow = 0 then .error .zeroDivisionError
  else
    let c := rhom * a * (Tm - 0) * zL0 / (rhom - rhow)
    .ok (T, t.map fun t => t.map (plateSubsidence c zL0 k))

/-- `np.arange(lo, hi, step)` on floats; a zero step raises.  Line 1118. -/
noncomputable def arangeReal (lo hi step : ℝ) : List ℝ := (List.range ⌈(hi - lo) / step⌉₊).map fun (i : ℕ) => lo + i * step

open Classical in
/-- `np.argmin`: the first index of a smallest element.  Line 1126. -/
noncomputable def argminReal (l : List ℝ) : ℕ := l.findIdx fun v => ∀ w ∈ l, v ≤ w

open Classical in
/-- `therm_Z_plate` (lines 1077–1128).  Where the age has no value the depth has none either. -/
noncomputable def thermZPlate (x T : List ℝ) (u zL0 Tm : ℝ) (time : Bool) (minz maxz zsp rhom rhow a k : ℝ) : Except PyErr (Mat (Option ℝ)) :=
  if zsp = 0 then .error .zeroDivisionError
  else
    let z := arangeReal minz maxz zsp
    match thermPlate x z u zL0 Tm time rhom rhow a k with
    | .error e => .error e
    | .ok (Tp, _) => .ok ⟨T.length, x.length, fun i j =>
        ((List.range z.length).mapM fun r => Tp.at' r j).map fun col => z.getD (argminReal (col.map fun v => |v - T.getD i 0|)) 0⟩

end Shipgrav
