import Mathlib.Analysis.Calculus.Deriv.Basic
import Verif.Spec.Eotvos

/-! A platform carried round by the rotating earth, seen from space. -/

namespace Shipgrav.Spec
open Real

/-- Distance from the axis of a point at geodetic latitude `φ` and height `h` over a spheroid of flattening `f`. -/
noncomputable def axisDistance (a f φ h : ℝ) : ℝ := radius a f φ * cos (φ - deviation f φ) + h * cos φ

/-- Distance from the plane of the equator. -/
noncomputable def planeDistance (a f φ h : ℝ) : ℝ := radius a f φ * sin (φ - deviation f φ) + h * sin φ

/-- Angle through which the meridian of the platform has turned in space at time `t`. -/
noncomputable def turned (lam : ℝ → ℝ) (t : ℝ) : ℝ := lam t + earthRate * t

/-- Downward acceleration in space of a platform with latitude `φ t`, longitude `lam t` (radians) and height `h t`: second derivatives of
the three coordinates, along the direction opposite to the normal. -/
noncomputable def downAcceleration (a f : ℝ) (φ lam h : ℝ → ℝ) (t : ℝ) : ℝ :=
  -(deriv (deriv fun s => axisDistance a f (φ s) (h s) * cos (turned lam s)) t * (cos (φ t) * cos (turned lam t)) +
    deriv (deriv fun s => axisDistance a f (φ s) (h s) * sin (turned lam s)) t * (cos (φ t) * sin (turned lam t)) +
    deriv (deriv fun s => planeDistance a f (φ s) (h s)) t * sin (φ t))

/-- What the correction stands for: the downward acceleration in excess of that of a platform that rests at the same place. -/
noncomputable def excessAcceleration (a f : ℝ) (φ lam h : ℝ → ℝ) (t : ℝ) : ℝ :=
  downAcceleration a f φ lam h t - downAcceleration a f (fun _ => φ t) (fun _ => lam t) (fun _ => h t) t

end Shipgrav.Spec
