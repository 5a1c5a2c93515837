import Mathlib.Analysis.SpecialFunctions.Trigonometric.Arctan

/-! Vertical acceleration of a platform that moves over a rotating ellipsoid. -/

namespace Shipgrav.Spec
open Real

/-- Latitude, height and their first and second time derivatives, and the rate of longitude; radians, metres, seconds. -/
structure Motion where
  lat : ℝ
  lat1 : ℝ
  lat2 : ℝ
  lon1 : ℝ
  ht : ℝ
  ht1 : ℝ
  ht2 : ℝ

/-- Rotation rate of the earth. -/
noncomputable def earthRate : ℝ := 0.00007292115

/-- Length of the geocentric radius to first order in the flattening `f`. -/
noncomputable def radius (a f lat : ℝ) : ℝ := a * (1 - f * sin lat ^ 2)

/-- Deviation of the normal from the radius. -/
noncomputable def deviation (f lat : ℝ) : ℝ := arctan (f * sin (2 * lat))

/-- Effect of the rotation of the earth and of motion along the parallel. -/
noncomputable def parallelTerm (a b : ℝ) (m : Motion) : ℝ :=
  let f := (a - b) / a
  ((earthRate + m.lon1) ^ 2 - earthRate ^ 2) * cos m.lat *
    (radius a f m.lat * cos (m.lat - deviation f m.lat) + m.ht * cos m.lat)

/-- Effect of motion along the meridian and of vertical motion: acceleration of the point `(-r sin D, -r cos D - h)` of the meridian
plane along the normal, which itself turns with the rate of latitude. -/
noncomputable def meridianTerm (a b : ℝ) (m : Motion) : ℝ :=
  let f := (a - b) / a
  let r := radius a f m.lat
  let r1 := -a * f * sin (2 * m.lat) * m.lat1
  let r2 := -a * f * (sin (2 * m.lat) * m.lat2 + 2 * cos (2 * m.lat) * m.lat1 ^ 2)
  let D := deviation f m.lat
  let D1 := 2 * f * cos (2 * m.lat) * m.lat1
  let D2 := 2 * f * (cos (2 * m.lat) * m.lat2 - 2 * sin (2 * m.lat) * m.lat1 ^ 2)
  let X := -r * sin D
  let X1 := -r1 * sin D - r * cos D * D1
  let Z := -r * cos D - m.ht
  let Z2 := -r2 * cos D + 2 * r1 * sin D * D1 + r * (sin D * D2 + cos D * D1 ^ 2) - m.ht2
  Z2 + 2 * m.lat1 * X1 + m.lat2 * X - m.lat1 ^ 2 * Z

/-- The Eotvos correction in mGal. -/
noncomputable def eotvos (a b : ℝ) (m : Motion) : ℝ := 100000 * (meridianTerm a b m + parallelTerm a b m)

/-- The correction for motion along the parallel of latitude `lat` with `w` degrees per second, in mGal. -/
noncomputable def parallelEotvos (a b lat ht w : ℝ) : ℝ :=
  let φ := lat * (π / 180)
  let ω := w * (π / 180)
  let f := (a - b) / a
  100000 * ((0.00007292115 + ω) ^ 2 - 0.00007292115 ^ 2) * cos φ * (a * (1 - f * sin φ ^ 2) * cos (φ - arctan (f * sin (2 * φ))) + ht * cos φ)

/-- Central differences at sample `k` of a series sampled `samp` times a second. -/
noncomputable def rate (y : ℕ → ℝ) (samp : ℝ) (k : ℕ) : ℝ := (y (k + 1) - y (k - 1)) / 2 * samp
noncomputable def accel (y : ℕ → ℝ) (samp : ℝ) (k : ℕ) : ℝ := (y (k + 1) - 2 * y k + y (k - 1)) * samp ^ 2

/-- The motion at sample `k` of a track in degrees and metres. -/
noncomputable def motionAt (lon lat ht : ℕ → ℝ) (samp : ℝ) (k : ℕ) : Motion where
  lat := lat k * (π / 180)
  lat1 := rate (fun i => lat i * (π / 180)) samp k
  lat2 := accel (fun i => lat i * (π / 180)) samp k
  lon1 := rate (fun i => lon i * (π / 180)) samp k
  ht := ht k
  ht1 := rate ht samp k
  ht2 := accel ht samp k

/-- The series `f 0, …, f (n-1)`. -/
def series (n : ℕ) (f : ℕ → ℝ) : List ℝ := (List.range n).map f

end Shipgrav.Spec
