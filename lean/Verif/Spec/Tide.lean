import Mathlib.Analysis.SpecialFunctions.Trigonometric.Basic
import Mathlib.Analysis.SpecialFunctions.Sqrt
import Verif.Spec.Calendar

/-! The tide of Longman (1959): vertical tidal acceleration of moon and sun, with their directions given as vectors. -/

namespace Shipgrav.Spec
open Real

/-- Hours since midnight, whole seconds. -/
noncomputable def hourOfDay (h mi s : ℤ) : ℝ := h + mi / 60 + s / 3600

/-- Julian centuries (36525 days) since 1899-12-31 12:00, whole seconds. -/
noncomputable def centuries (y m d : ℕ) (h mi s : ℤ) : ℝ :=
  (((dayNumber y m d : ℤ) - dayNumber 1899 12 31 : ℤ) + (hourOfDay h mi s - 12) / 24) / 36525

/-- A vector with three components. -/
structure V3 where
  x : ℝ
  y : ℝ
  z : ℝ

noncomputable def V3.dot (u v : V3) : ℝ := u.x * v.x + u.y * v.y + u.z * v.z

/-- Rotation about the x axis. -/
noncomputable def rotX (a : ℝ) (v : V3) : V3 := ⟨v.x, cos a * v.y - sin a * v.z, sin a * v.y + cos a * v.z⟩

/-- Rotation about the z axis. -/
noncomputable def rotZ (a : ℝ) (v : V3) : V3 := ⟨cos a * v.x - sin a * v.y, sin a * v.x + cos a * v.y, v.z⟩

/-- The point at this angle on the unit circle of the xy plane. -/
noncomputable def circle (a : ℝ) : V3 := ⟨cos a, sin a, 0⟩

/-- Equatorial direction of the zenith: latitude and right ascension of the meridian. -/
noncomputable def zenith (lat ra : ℝ) : V3 := ⟨cos lat * cos ra, cos lat * sin ra, sin lat⟩

/-- Equatorial direction of a body on the ecliptic (obliquity `ω`) at longitude `l`. -/
noncomputable def eclipticDir (ω l : ℝ) : V3 := rotX ω (circle l)

/-- Equatorial direction of a body at longitude `l` in an orbit with inclination `i` to the ecliptic and ascending node `N`; `l` is
measured along the ecliptic to the node and then along the orbit. -/
noncomputable def orbitDir (ω i N l : ℝ) : V3 := rotX ω (rotZ N (rotX i (circle (l - N))))

/-- Mean longitudes of the moon `s`, its perigee `p`, the sun `h`, the moon's node `N` and the solar perigee `p1`; eccentricity of the
earth's orbit `e1`. -/
structure Astro where
  s : ℝ
  p : ℝ
  h : ℝ
  N : ℝ
  p1 : ℝ
  e1 : ℝ

/-- Degrees, minutes and seconds of arc, in radians. -/
noncomputable def dms (d m s : ℝ) : ℝ := (d + m / 60 + s / 3600) * (π / 180)

/-- The arguments are those of Schureman (1941) at `T` Julian centuries after 1899-12-31 12:00, to at least six digits; the terms in
`T³` may be left out. -/
structure NearSchureman (T : ℝ) (a : Astro) : Prop where
  s : |a.s - (dms 270 26 14.72 + (1336 * (2 * π) + dms 0 0 1108411.20) * T + dms 0 0 9.09 * T ^ 2)| ≤
    2e-8 + 6e-7 * |T| + 1e-9 * T ^ 2
  p : |a.p - (dms 334 19 40.87 + (11 * (2 * π) + dms 0 0 392515.94) * T - dms 0 0 37.24 * T ^ 2 - dms 0 0 0.045 * T ^ 3)| ≤
    2e-8 + 6e-7 * |T| + 1e-9 * T ^ 2 + 1e-9 * |T| ^ 3
  h : |a.h - (dms 279 41 48.04 + dms 0 0 129602768.13 * T + dms 0 0 1.089 * T ^ 2)| ≤ 2e-8 + 6e-7 * |T| + 1e-9 * T ^ 2
  N : |a.N - (dms 259 10 57.12 - (5 * (2 * π) + dms 0 0 482912.63) * T + dms 0 0 7.58 * T ^ 2)| ≤
    2e-8 + 6e-7 * |T| + 1e-9 * T ^ 2
  p1 : |a.p1 - (dms 281 13 15.0 + dms 0 0 6189.03 * T + dms 0 0 1.63 * T ^ 2)| ≤ 2e-8 + 6e-7 * |T| + 1e-9 * T ^ 2
  e1 : a.e1 = 0.01675104 - 0.00004180 * T - 0.000000126 * T ^ 2

/-- Longitude of the moon in its orbit: mean longitude, equation of the centre, evection and variation. -/
noncomputable def moonLong (a : Astro) : ℝ :=
  let e := 0.0549
  let m := 0.074804
  a.s + (2 * e * sin (a.s - a.p) + 5 / 4 * e ^ 2 * sin (2 * (a.s - a.p)) + 15 / 4 * m * e * sin (a.s - 2 * a.h + a.p) +
    11 / 8 * m ^ 2 * sin (2 * (a.s - a.h)))

/-- Longitude of the sun in the ecliptic. -/
noncomputable def sunLong (a : Astro) : ℝ := a.h + 2 * a.e1 * sin (a.h - a.p1)

/-- Inverse distance of the moon in 1/cm. -/
noncomputable def invMoon (a : Astro) : ℝ :=
  let e := 0.0549
  let m := 0.074804
  (1 + (e * cos (a.s - a.p) + e ^ 2 * cos (2 * (a.s - a.p)) + 15 / 8 * m * e * cos (a.s - 2 * a.h + a.p) +
    m ^ 2 * cos (2 * (a.s - a.h))) / (1 - e ^ 2)) / 3.84402e10

/-- Inverse distance of the sun in 1/cm. -/
noncomputable def invSun (a : Astro) : ℝ := (1 + a.e1 * cos (a.h - a.p1) / (1 - a.e1 ^ 2)) / 1.495e13

/-- Distance from the centre of the earth in cm, for a latitude in radians and an altitude in m. -/
noncomputable def centreDist (lat alt : ℝ) : ℝ := 6.378270e8 / √(1 + 0.006738 * sin lat ^ 2) + 100 * alt

/-- Right ascension of the meridian: hour angle of the mean sun plus its longitude. -/
noncomputable def meridian (a : Astro) (lon hour : ℝ) : ℝ := (15 * (hour - 12) + lon) * (π / 180) + a.h

/-- Cosine of the zenith angle of the moon. -/
noncomputable def cosMoon (a : Astro) (lon lat hour : ℝ) : ℝ :=
  (zenith (lat * (π / 180)) (meridian a lon hour)).dot (orbitDir (23.452 * (π / 180)) 0.08979719 a.N (moonLong a))

/-- Cosine of the zenith angle of the sun. -/
noncomputable def cosSun (a : Astro) (lon lat hour : ℝ) : ℝ :=
  (zenith (lat * (π / 180)) (meridian a lon hour)).dot (eclipticDir (23.452 * (π / 180)) (sunLong a))

/-- Lunar tide in mGal: two terms of the tidal potential, and the effect of the elastic earth. -/
noncomputable def lunarTide (a : Astro) (lon lat alt hour : ℝ) : ℝ :=
  let r := centreDist (lat * (π / 180)) alt
  let c := cosMoon a lon lat hour
  let μM := 6.673e-8 * 7.3537e25
  (μM * r * invMoon a ^ 3 * (3 * c ^ 2 - 1) + 3 / 2 * (μM * r ^ 2 * invMoon a ^ 4) * (5 * c ^ 3 - 3 * c)) *
    1000 * (1 + 0.612 - 3 / 2 * 0.303)

/-- Solar tide in mGal. -/
noncomputable def solarTide (a : Astro) (lon lat alt hour : ℝ) : ℝ :=
  let r := centreDist (lat * (π / 180)) alt
  let c := cosSun a lon lat hour
  6.673e-8 * 1.993e33 * r * invSun a ^ 3 * (3 * c ^ 2 - 1) * 1000 * (1 + 0.612 - 3 / 2 * 0.303)

/-- Total, lunar and solar effect are right: total and lunar effect up to `e`, the solar effect up to 1e-11 mGal. -/
def TideWithin (a : Astro) (lon lat alt hour : ℝ) (v : ℚ × ℚ × ℚ) (e : ℝ) : Prop :=
  |(v.1 : ℝ) - (lunarTide a lon lat alt hour + solarTide a lon lat alt hour)| ≤ e ∧ |(v.2.1 : ℝ) - lunarTide a lon lat alt hour| ≤ e ∧
    |(v.2.2 : ℝ) - solarTide a lon lat alt hour| ≤ 1e-11

/-- The moon's node is at least `δ` radians away from longitude 180°. -/
def NodeAway (a : Astro) (δ : ℝ) : Prop := ∀ k : ℤ, δ ≤ |a.N - (2 * k + 1) * π|

end Shipgrav.Spec
