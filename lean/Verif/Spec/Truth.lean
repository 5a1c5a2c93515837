import Verif.Spec.Inertial
import Verif.Spec.Nav
import Verif.Spec.TideNewton
import Mathlib.Analysis.Calculus.ContDiff.Basic
import Mathlib.Analysis.Calculus.IteratedDeriv.Defs

/-! What a gravimeter without faults reads on board a ship that moves over the turning earth. -/

namespace Shipgrav.Spec
open Real

/-- `x` is how much moon and sun weaken gravity (mGal) at longitude `lon`, latitude `lat` (degrees) on the ellipsoid, `t` microseconds after the epoch: the upward
part of their pull by Newton's law less that at the centre of the earth, times 1.1575 for the yielding of the earth.  Moon and sun stand where
Schureman's elements put them. -/
def TidePull (lon lat : ℝ) (t : ℤ) (x : ℝ) : Prop :=
  ∃ y m d h mi s us a, ValidDate y m d ∧ ValidTime h mi s us ∧ t = utcInstant y m d h mi s us ∧ NearSchureman (centuries y m d h mi s) a ∧
    let up := zenith (lat * (π / 180)) (meridian a lon (hourOfDay h mi s))
    let r := centreDist (lat * (π / 180)) 0
    let moon := V3.scale (1 / invMoon a) (orbitDir (23.452 * (π / 180)) 0.08979719 a.N (moonLong a))
    let sun := V3.scale (1 / invSun a) (eclipticDir (23.452 * (π / 180)) (sunLong a))
    x = 1000 * (1.1575 * (tidalUp 7.3537e25 up r moon + tidalUp 1.993e33 up r sun))

/-- Reading (mGal) at the time `T` of a gravimeter without faults on a ship with longitude `lon` and latitude `lat` (degrees, functions of time in seconds), where
gravity is `g` (m/s²) for an instrument at rest: the downward acceleration of the ship in space, in excess of that at rest, and the tide are missing from it. -/
noncomputable def trueReading (lon lat : ℝ → ℝ) (g pull T : ℝ) : ℝ :=
  100000 * (g - excessAcceleration 6378137 ((6378137 - 6356752.3142) / 6378137) (fun t => rad (lat t)) (fun t => rad (lon t)) (fun _ => 0) T) - pull

/-- A ship under way, without waves: positions in degrees as functions of time in seconds.  22 m/s and 0.1 m/s² to the north. -/
structure Cruise (lon lat : ℝ → ℝ) : Prop where
  smoothLat : ContDiff ℝ 4 lat
  smoothLon : ContDiff ℝ 3 lon
  lat1 : ∀ s, |deriv lat s| ≤ 2e-4
  lon1 : ∀ s, |deriv lon s| ≤ 8e-4
  lat2 : ∀ s, |iteratedDeriv 2 lat s| ≤ 1e-6
  lon2 : ∀ s, |iteratedDeriv 2 lon s| ≤ 1e-6
  lat3 : ∀ s, |iteratedDeriv 3 lat s| ≤ 1e-8
  lon3 : ∀ s, |iteratedDeriv 3 lon s| ≤ 1e-8
  lat4 : ∀ s, |iteratedDeriv 4 lat s| ≤ 1e-10

end Shipgrav.Spec
