import Verif.Model.TiltFloat

/-! `free_air_second_order` and `wgs_grav` once more (`/repo/shipgrav/grav.py` lines 303–333), in double precision, at one sample.  Every addition,
subtraction, multiplication and division is rounded, and so are the constants of the source; the sine, the square root and the square (`x**2`) are those
of a library, and the theorems say what they need of them. -/

namespace Shipgrav

/-- The library functions that are called: `np.sin`, `np.sqrt` and `x**2`.  Lines 313, 329–332. -/
structure LatLibm where
  sin : ℚ → ℚ
  sqrt : ℚ → ℚ
  sqr : ℚ → ℚ

/-- `np.deg2rad`: the product with the constant `π/180`.  Lines 313, 329. -/
def deg2radF (x : ℚ) : ℚ := toDouble (x * toDouble (piF / 180))

/-- `np.sin(np.deg2rad(lat))**2`.  Lines 313, 329. -/
def sinSqF (lm : LatLibm) (lat : ℚ) : ℚ := lm.sqr (lm.sin (deg2radF lat))

/-- `free_air_second_order`, lines 303–318. -/
def freeAirF (lm : LatLibm) (lat ht : ℚ) (freeWater : Bool) : ℚ :=
  let s2lat := sinSqF lm lat
  let c := if !freeWater then toDouble 0.3087691 else toDouble 0.22242
  let first := toDouble (toDouble (c - toDouble (toDouble 0.0004398 * s2lat)) * ht)
  toDouble (-first + toDouble (toDouble 7.2125e-8 * lm.sqr ht))

/-- `wgs_grav`, lines 321–333. -/
def wgsGravF (lm : LatLibm) (lat : ℚ) : ℚ :=
  let sinsq := sinSqF lm lat
  let num := toDouble (1 + toDouble (toDouble 0.00193185265241 * sinsq))
  let den := lm.sqrt (toDouble (1 - toDouble (toDouble 0.00669437999014 * sinsq)))
  toDouble (toDouble 978032.53359 * toDouble (num / den))

end Shipgrav
