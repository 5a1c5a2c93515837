import Mathlib.Analysis.Calculus.ContDiff.Defs
import Mathlib.Analysis.Calculus.Deriv.Basic
import Mathlib.Analysis.SpecialFunctions.Trigonometric.Basic

/-! The gravity field of a rotating body whose surface is a level ellipsoid. -/

namespace Shipgrav.Spec
open Real

/-- Points of space in coordinates `x`, `y` in the plane of the equator and `z` along the axis of rotation. -/
abbrev Space := ℝ × ℝ × ℝ

/-- Left side of the equation of the ellipsoid with half axes `a`, `a`, `b`. -/
noncomputable def ellipsoidForm (a b : ℝ) (p : Space) : ℝ := (p.1 ^ 2 + p.2.1 ^ 2) / a ^ 2 + p.2.2 ^ 2 / b ^ 2

/-- Sum of the second partial derivatives. -/
noncomputable def laplacian (V : Space → ℝ) (p : Space) : ℝ :=
  deriv (deriv fun s => V (s, p.2.1, p.2.2)) p.1 + deriv (deriv fun s => V (p.1, s, p.2.2)) p.2.1 + deriv (deriv fun s => V (p.1, p.2.1, s)) p.2.2

/-- Distance from the centre. -/
noncomputable def centreDistance (p : Space) : ℝ := √(p.1 ^ 2 + p.2.1 ^ 2 + p.2.2 ^ 2)

/-- Gravitational part of the potential `W` of a body that turns with the rate `ω`: `W` without the potential of the centrifugal force. -/
noncomputable def attraction (ω : ℝ) (W : Space → ℝ) (p : Space) : ℝ := W p - ω ^ 2 * (p.1 ^ 2 + p.2.1 ^ 2) / 2

/-- `W` is the gravity potential, on and outside the ellipsoid with half axes `a` and `b`, of a body with `GM` and rate of rotation `ω`
inside it whose surface is level. -/
structure LevelField (a b GM ω : ℝ) (W : Space → ℝ) : Prop where
  /-- Continuous up to the surface. -/
  continuous : ContinuousOn W {p | 1 ≤ ellipsoidForm a b p}
  /-- Twice continuously differentiable outside. -/
  smooth : ∀ p, 1 < ellipsoidForm a b p → ContDiffAt ℝ 2 W p
  /-- No mass outside: Laplace's equation. -/
  harmonic : ∀ p, 1 < ellipsoidForm a b p → laplacian (attraction ω W) p = 0
  /-- The surface is level. -/
  level : ∀ p q, ellipsoidForm a b p = 1 → ellipsoidForm a b q = 1 → W p = W q
  /-- From far away the body attracts like the mass point `GM`. -/
  mass : Filter.Tendsto (fun p => centreDistance p * attraction ω W p) (Filter.cocompact Space) (nhds GM)

/-- The point of the ellipsoid at geodetic latitude `φ` and longitude `lam` (radians). -/
noncomputable def surfacePoint (a b φ lam : ℝ) : Space :=
  let N := a ^ 2 / √(a ^ 2 * cos φ ^ 2 + b ^ 2 * sin φ ^ 2)
  (N * cos φ * cos lam, N * cos φ * sin lam, b ^ 2 / a ^ 2 * N * sin φ)

/-- The upward normal there. -/
noncomputable def upward (φ lam : ℝ) : Space := (cos φ * cos lam, cos φ * sin lam, sin φ)

/-- `γ` is the gravity, positive downward, at the surface point with geodetic latitude `φ` and longitude `lam`. -/
def SurfaceGravity (a b : ℝ) (W : Space → ℝ) (φ lam γ : ℝ) : Prop :=
  HasDerivWithinAt (fun t : ℝ => W (surfacePoint a b φ lam + t • upward φ lam)) (-γ) (Set.Ici 0) 0

/-- `γ` is the gravity along the normal, positive downward, at height `h` above that point. -/
def GravityAbove (a b : ℝ) (W : Space → ℝ) (φ lam h γ : ℝ) : Prop :=
  HasDerivWithinAt (fun t : ℝ => W (surfacePoint a b φ lam + t • upward φ lam)) (-γ) (Set.Ici 0) h

/-! The defining constants of WGS84 (metres, m³/s², 1/s). -/

/-- Half axis in the plane of the equator. -/
noncomputable def wgs84A : ℝ := 6378137
/-- Half axis of rotation, from the flattening 1/298.257223563. -/
noncomputable def wgs84B : ℝ := 6378137 * (1 - 1 / 298.257223563)
/-- Constant of gravitation times the mass of the earth. -/
noncomputable def wgs84GM : ℝ := 3986004.418e8
/-- Rate of rotation. -/
noncomputable def wgs84Rate : ℝ := 7.292115e-5

end Shipgrav.Spec
