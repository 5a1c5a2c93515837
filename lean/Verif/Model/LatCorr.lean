import Verif.Py.Real

/-! Model of `free_air_second_order` and `wgs_grav`, `/repo/shipgrav/grav.py` lines 303–333, at one sample. -/

namespace Shipgrav
open Real

/-- `free_air_second_order`, lines 303–318. -/
noncomputable def freeAir (lat ht : ℝ) (freeWater : Bool) : ℝ :=
  let s2lat := sin (radians lat) ^ 2
  if !freeWater then -((0.3087691 - 0.0004398 * s2lat) * ht) + 7.2125e-8 * (ht ^ 2)
  else -((0.22242 - 0.0004398 * s2lat) * ht) + 7.2125e-8 * (ht ^ 2)

/-- `wgs_grav`, lines 321–333.  No value where numpy would give `nan` or `inf`. -/
noncomputable def wgsGrav (lat : ℝ) : Option ℝ := do
  let sinsq := sin (radians lat) ^ 2
  let num := 1 + 0.00193185265241 * sinsq
  let den ← sqrtR (1 - 0.00669437999014 * sinsq)
  let q ← divR num den
  return 978032.53359 * q

end Shipgrav
