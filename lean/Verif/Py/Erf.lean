import Verif.Py.Real
import Mathlib.Analysis.SpecialFunctions.Gaussian.GaussianIntegral
import Mathlib.MeasureTheory.Integral.IntervalIntegral.Basic

/-! `scipy.special.erf` and `scipy.special.erfcinv` on real numbers. -/

namespace Shipgrav

/-- `scipy.special.erf`: `2/√π ∫₀ˣ exp(-t²) dt`. -/
noncomputable def erf (x : ℝ) : ℝ := 2 / √Real.pi * ∫ t in (0 : ℝ)..x, Real.exp (-t ^ 2)

open Classical in
/-- `scipy.special.erfcinv`: the number whose complementary error function `1 - erf` is `y`.  `nan` outside `[0, 2]` and infinite at its ends:
no value. -/
noncomputable def erfcinv (y : ℝ) : Option ℝ := if h : ∃ x, 1 - erf x = y then some h.choose else none

open Classical in
/-- `erf(z / d)`: dividing by zero gives an infinity with the sign of `z`, whose `erf` is 1 or -1, or `nan` for `0 / 0`. -/
noncomputable def erfQuot (z d : ℝ) : Option ℝ :=
  if d = 0 then if z = 0 then none else if 0 < z then some 1 else some (-1)
  else some (erf (z / d))

end Shipgrav
