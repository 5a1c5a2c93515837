import Mathlib.Analysis.SpecialFunctions.Trigonometric.Basic
import Mathlib.Analysis.SpecialFunctions.Pow.Real

/-! Geometry of the WGS84 ellipsoid and central differences, for the navigation theorems. -/

namespace Shipgrav.Spec

/-- WGS84 semi-axes (metres), as in the code. -/
noncomputable def wgsA : ℝ := 6378137.0
noncomputable def wgsB : ℝ := 6356752.3142451
/-- First eccentricity squared. -/
noncomputable def wgsE2 : ℝ := 1 - wgsB ^ 2 / wgsA ^ 2

/-- Meridian radius of curvature at latitude `φ` (radians): `a(1-e²)/(1-e² sin²φ)^{3/2}`. -/
noncomputable def meridianRadius (φ : ℝ) : ℝ :=
  wgsA * (1 - wgsE2) / (Real.sqrt (1 - wgsE2 * Real.sin φ ^ 2)) ^ 3

/-- Radius of the parallel at latitude `φ`: `a cos φ / √(1-e² sin²φ)`. -/
noncomputable def parallelRadius (φ : ℝ) : ℝ :=
  wgsA * Real.cos φ / Real.sqrt (1 - wgsE2 * Real.sin φ ^ 2)

/-- Degrees to radians. -/
noncomputable def rad (deg : ℝ) : ℝ := deg * (Real.pi / 180)

/-- Tenth-order central difference of the sequence `f` at `i ≥ 5`. -/
noncomputable def centralDiff10 (f : ℕ → ℝ) (i : ℕ) : ℝ :=
  5/6 * (f (i+1) - f (i-1)) - 5/21 * (f (i+2) - f (i-2)) + 5/84 * (f (i+3) - f (i-3))
    - 5/504 * (f (i+4) - f (i-4)) + 1/1260 * (f (i+5) - f (i-5))

/-- `n` samples of a sequence. -/
def samples {α : Type} (f : ℕ → α) (n : ℕ) : List α := (List.range n).map f

end Shipgrav.Spec
