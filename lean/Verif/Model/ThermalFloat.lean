import Verif.Model.Thermal
import Verif.Model.TiltFloat

/-! The functions `therm_halfspace`, `therm_Z_halfspace`, `therm_plate` and `therm_Z_plate` (grav.py lines 889–1128) in double precision: every addition,
subtraction, multiplication and division is rounded; exponential, sine, error function, its inverse, square root and square are those of a
library.  Where the exact model has no value there is none here. -/

namespace Shipgrav

/-- The library functions that are called.  Lines 939, 943, 986, 989, 1043–1060, 1068–1070. -/
structure ThermLibm where
  exp : ℚ → ℚ
  sin : ℚ → ℚ
  erf : ℚ → ℚ
  erfcinv : ℚ → ℚ
  /-- `np.sqrt` and `x**.5` -/
  sqrt : ℚ → ℚ
  /-- `x**2` -/
  sqr : ℚ → ℚ

/-- `secyr` (lines 929, 979, 1034): the products are exact. -/
def secyrF : ℚ := toDouble (toDouble (365.25 * 24) * 3600)

/-- Lines 931–934, 981–984 and 1038–1041: age in seconds. -/
def ageSecondsF (time : Bool) (u x : ℚ) : Option ℚ :=
  if time then some (toDouble (toDouble (x * 1e6) * secyrF))
  else if toDouble (u / secyrF) = 0 then none else some (toDouble (|x| / toDouble (u / secyrF)))

/-- Square root; `nan` for negative numbers.  Lines 939, 943, 986, 989. -/
def sqrtF (lm : ThermLibm) (x : ℚ) : Option ℚ := if 0 ≤ x then some (lm.sqrt x) else none

/-- Line 939: `erf(z / d)`, see `erfQuot`. -/
def erfQuotF (lm : ThermLibm) (z d : ℚ) : Option ℚ :=
  if d = 0 then if z = 0 then none else if 0 < z then some 1 else some (-1)
  else some (lm.erf (toDouble (z / d)))

/-- Line 939 for one node. -/
def halfspaceNodeF (lm : ThermLibm) (Tm k : ℚ) (t : Option ℚ) (z : ℚ) : Option ℚ := do
  let s ← sqrtF lm (toDouble (k * (← t)))
  let e ← erfQuotF lm z (toDouble (2 * s))
  pure (toDouble (0 + toDouble (toDouble (Tm - 0) * e)))

/-- Lines 942 and 988: the factor in front. -/
def halfspaceFactorF (Tm rhom rhow a : ℚ) : ℚ :=
  toDouble (toDouble (toDouble (toDouble (2 * rhom) * a) * toDouble (Tm - 0)) / toDouble (rhom - rhow))

/-- Lines 942–943 and 988–989 for one position; `c` is the factor in front. -/
def halfspaceSubsidenceF (lm : ThermLibm) (c k : ℚ) (t : Option ℚ) : Option ℚ := do
  let s ← sqrtF lm (toDouble (toDouble (k * (← t)) / piF))
  pure (toDouble (c * s))

/-- `therm_halfspace` (lines 889–945). -/
def thermHalfspaceF (lm : ThermLibm) (x z : List ℚ) (u Tm : ℚ) (time : Bool) (rhom rhow a k : ℚ) : Except PyErr (Mat (Option ℚ) × List (Option ℚ)) :=
  let t := x.map (ageSecondsF time u)
  let T : Mat (Option ℚ) := ⟨z.length, x.length, fun i j => halfspaceNodeF lm Tm k (t.getD j none) (z.getD i 0)⟩
  if toDouble (rhom - rhow) = 0 then .error .zeroDivisionError
  else if z = [] then .error .indexError
  else .ok (T, t.map (halfspaceSubsidenceF lm (halfspaceFactorF Tm rhom rhow a) k))

/-- `therm_Z_halfspace` (lines 948–991) for one isotherm. -/
def thermZHalfspaceF (lm : ThermLibm) (x : List ℚ) (T u Tm : ℚ) (time : Bool) (rhom rhow a k : ℚ) : Except PyErr (List (Option ℚ) × List (Option ℚ)) :=
  let t := x.map (ageSecondsF time u)
  if toDouble (0 - Tm) = 0 then .error .zeroDivisionError
  else
    let y := toDouble (toDouble (T - Tm) / toDouble (0 - Tm))
    let inv := if 0 < y ∧ y < 2 then some (lm.erfcinv y) else none
    let Z := t.map fun t => do
      let s ← sqrtF lm (toDouble (k * (← t)))
      pure (toDouble (toDouble (2 * s) * (← inv)))
    if toDouble (rhom - rhow) = 0 then .error .zeroDivisionError
    else .ok (Z, t.map (halfspaceSubsidenceF lm (halfspaceFactorF Tm rhom rhow a) k))

/-- One of lines 1043–1060: `coef*np.exp(mk*(np.pi**2)*t/(zL0**2))*np.sin(p*Z/zL0)`. -/
def plateTermF (lm : ThermLibm) (zL0 t z coef mk p : ℚ) : ℚ :=
  toDouble (toDouble (coef * lm.exp (toDouble (toDouble (toDouble (mk * lm.sqr piF) * t) / lm.sqr zL0))) * lm.sin (toDouble (toDouble (p * z) / zL0)))

/-- Lines 1043–1060: the ten terms at age `t` and depth `z`. -/
def plateTermsF (lm : ThermLibm) (zL0 k t z : ℚ) : List ℚ :=
  [ plateTermF lm zL0 t z (toDouble (2 / piF)) (-k) piF,
    plateTermF lm zL0 t z (toDouble (1 / piF)) (toDouble (-4 * k)) (toDouble (2 * piF)),
    plateTermF lm zL0 t z (toDouble (toDouble (2 / piF) / 3)) (toDouble (-9 * k)) (toDouble (3 * piF)),
    plateTermF lm zL0 t z (toDouble (toDouble (2 / piF) / 4)) (toDouble (-16 * k)) (toDouble (4 * piF)),
    plateTermF lm zL0 t z (toDouble (toDouble (2 / piF) / 5)) (toDouble (-25 * k)) (toDouble (5 * piF)),
    plateTermF lm zL0 t z (toDouble (toDouble (2 / piF) / 6)) (toDouble (-36 * k)) (toDouble (6 * piF)),
    plateTermF lm zL0 t z (toDouble (toDouble (2 / piF) / 7)) (toDouble (-49 * k)) (toDouble (7 * piF)),
    plateTermF lm zL0 t z (toDouble (toDouble (2 / piF) / 8)) (toDouble (-64 * k)) (toDouble (8 * piF)),
    plateTermF lm zL0 t z (toDouble (toDouble (2 / piF) / 9)) (toDouble (-81 * k)) (toDouble (9 * piF)),
    plateTermF lm zL0 t z (toDouble (toDouble (2 / piF) / 10)) (toDouble (-100 * k)) (toDouble (10 * piF)) ]

/-- Lines 1062–1066 for one node: the row is overwritten below the plate. -/
def plateNodeF (lm : ThermLibm) (zL0 Tm k t z : ℚ) : ℚ :=
  if z > zL0 then Tm
  else toDouble (0 + toDouble (toDouble (Tm - 0) * ((plateTermsF lm zL0 k t z).foldl (fun a b => toDouble (a + b)) (toDouble (z / zL0)))))

/-- Lines 1068–1070: `coef*np.exp(mk*(np.pi**2)*t[0, :]/(zL0**2))`. -/
def plateWTermF (lm : ThermLibm) (zL0 t coef mk : ℚ) : ℚ :=
  toDouble (coef * lm.exp (toDouble (toDouble (toDouble (mk * lm.sqr piF) * t) / lm.sqr zL0)))

/-- Lines 1068–1072 for one position; `c` is the factor in front. -/
def plateSubsidenceF (lm : ThermLibm) (c zL0 k t : ℚ) : ℚ :=
  let w2 := plateWTermF lm zL0 t (toDouble (4 / lm.sqr piF)) (-k)
  let w3 := plateWTermF lm zL0 t (toDouble (4 / toDouble (9 * lm.sqr piF))) (toDouble (-k * 9))
  let w4 := plateWTermF lm zL0 t (toDouble (4 / toDouble (25 * lm.sqr piF))) (toDouble (-k * 25))
  toDouble (c * toDouble (toDouble (toDouble (1 / 2 - w2) - w3) - w4))

/-- Line 1072: the factor in front. -/
def plateFactorF (zL0 Tm rhom rhow a : ℚ) : ℚ :=
  toDouble (toDouble (toDouble (toDouble (rhom * a) * toDouble (Tm - 0)) * zL0) / toDouble (rhom - rhow))

/-- `therm_plate` (lines 994–1074); the plate thickness is not zero. -/
def thermPlateF (lm : ThermLibm) (x z : List ℚ) (u zL0 Tm : ℚ) (time : Bool) (rhom rhow a k : ℚ) : Except PyErr (Mat (Option ℚ) × List (Option ℚ)) :=
  let t := x.map (ageSecondsF time u)
  let T : Mat (Option ℚ) := ⟨z.length, x.length, fun i j => (t.getD j none).map fun t => plateNodeF lm zL0 Tm k t (z.getD i 0)⟩
  if z = [] then .error .indexError
  else if toDouble (rhom - rhow) = 0 then .error .zeroDivisionError
  else .ok (T, t.map fun t => t.map (plateSubsidenceF lm (plateFactorF zL0 Tm rhom rhow a) zL0 k))

/-- `np.arange(lo, hi, step)` in double precision: the number of values is found by a rounded division, the second value is the rounded sum, and the
others are the first plus a multiple of the difference of the first two.  Line 1118. -/
def arangeF (lo hi step : ℚ) : List ℚ :=
  let second := toDouble (lo + step)
  (List.range ⌈toDouble (toDouble (hi - lo) / step)⌉₊).map fun (i : ℕ) =>
    if i = 0 then lo else if i = 1 then second else toDouble (lo + toDouble (i * toDouble (second - lo)))

/-- `np.argmin`: the first index of a smallest element.  Line 1126. -/
def argminF (l : List ℚ) : ℕ := l.findIdx fun v => decide (∀ w ∈ l, v ≤ w)

/-- `therm_Z_plate` (lines 1077–1128).  Where the age has no value the depth has none either. -/
def thermZPlateF (lm : ThermLibm) (x T : List ℚ) (u zL0 Tm : ℚ) (time : Bool) (minz maxz zsp rhom rhow a k : ℚ) : Except PyErr (Mat (Option ℚ)) :=
  if zsp = 0 then .error .zeroDivisionError
  else
    let z := arangeF minz maxz zsp
    match thermPlateF lm x z u zL0 Tm time rhom rhow a k with
    | .error e => .error e
    | .ok (Tp, _) => .ok ⟨T.length, x.length, fun i j =>
        ((List.range z.length).mapM fun r => Tp.at' r j).map fun col => z.getD (argminF (col.map fun v => |toDouble (v - T.getD i 0)|)) 0⟩

end Shipgrav
