import Verif.Py.Real
import Verif.Py.Calendar

/-! Model of the tide prediction, `/repo/shipgrav/grav.py` lines 20–187.

Floats are real numbers.  Timestamps are UTC datetimes, given as microseconds since 1970.  A point where numpy would meet a zero divisor
or leave the domain of a function has no value.  `alt` is one altitude for the whole track; for an array of altitudes see `Model/TideAlt`. -/

namespace Shipgrav
open Real

/-- Line 32. -/
def tideOrigin : ℤ := instantUs (ymd2ord 1899 12 31) 12 0 0 0

/-- `_convert_datetime_tidetime`, lines 20–39.  `dt.days` and `dt.seconds` are the normalised parts of the `timedelta`, which leave the
microseconds out; so do `timestamp.hour`, `.minute` and `.second`. -/
noncomputable def tideTime (t : ℤ) : ℝ × ℝ :=
  let dt := t - tideOrigin
  let dtDays : ℤ := dt / 86400000000
  let dtSeconds : ℤ := dt % 86400000000 / 1000000
  let days : ℝ := dtDays + dtSeconds / 3600 / 24
  let hour : ℤ := t / 3600000000 % 24
  let minute : ℤ := t / 60000000 % 60
  let second : ℤ := t / 1000000 % 60
  (days / 36525, hour + minute / 60 + second / 3600)

open Classical in
/-- Lines 80–83: the second `if` contains a comparison instead of an assignment and does nothing. -/
noncomputable def tideHour (t0 : ℝ) : ℝ :=
  let t0 := if t0 < 0 then t0 + 24 else t0
  if 24 ≤ t0 then t0 else t0

/-! Lines 89–101: constants. -/

/-- Line 89. -/
noncomputable def tideMu : ℝ := 6.673e-8
/-- Line 90. -/
noncomputable def tideM : ℝ := 7.3537e25
/-- Line 91. -/
noncomputable def tideS : ℝ := 1.993e33
/-- Line 92. -/
noncomputable def tideE : ℝ := 0.05490
/-- Line 93. -/
noncomputable def tideMm : ℝ := 0.074804
/-- Line 94. -/
noncomputable def tideC : ℝ := 3.84402e10
/-- Line 95. -/
noncomputable def tideC1 : ℝ := 1.495e13
/-- Line 96. -/
noncomputable def tideH2 : ℝ := 0.612
/-- Line 97. -/
noncomputable def tideK2 : ℝ := 0.303
/-- Line 98. -/
noncomputable def tideA : ℝ := 6.378270e8
/-- Line 99. -/
noncomputable def tideI : ℝ := 0.08979719
/-- Line 101. -/
noncomputable def tideOmega : ℝ := radians 23.452

/-- Line 110. -/
noncomputable def tideSm (T : ℝ) : ℝ := 4.720023434 + 8399.709299 * T + 0.0000440696 * (T * T)
/-- Line 112. -/
noncomputable def tideP (T : ℝ) : ℝ := 5.835124713 + 71.01800936 * T - 0.000180545 * (T * T) - 0.00000021817 * (T * T * T)
/-- Line 114. -/
noncomputable def tideH (T : ℝ) : ℝ := 4.88162792 + 628.3319509 * T + 0.00000527962 * (T * T)
/-- Line 116. -/
noncomputable def tideN (T : ℝ) : ℝ := 4.523588564 - 33.75715303 * T + 0.000036749 * (T * T)
/-- Line 144. -/
noncomputable def tideP1 (T : ℝ) : ℝ := 4.908229461 + 0.03000526416 * T + 0.000007902463 * (T * T)
/-- Line 146. -/
noncomputable def tideE1 (T : ℝ) : ℝ := 0.01675104 - 0.0000418 * T - 0.000000126 * (T * T)

/-- Lines 119–132: `I`, `nu` and `alpha` from `N`. -/
noncomputable def nodeAngles (N : ℝ) : Option (ℝ × ℝ × ℝ) := do
  let I ← arccosR (cos tideOmega * cos tideI - sin tideOmega * sin tideI * cos N)
  let q ← divR (sin tideI * sin N) (sin I)
  let nu ← arcsinR q
  let cosAlpha := cos N * cos nu + sin N * sin nu * cos tideOmega
  let sinAlpha ← divR (sin tideOmega * sin N) (sin I)
  let w ← divR sinAlpha (1 + cosAlpha)
  return (I, nu, 2 * arctan w)

/-- Lines 139–140. -/
noncomputable def moonLongitude (sigma s p h : ℝ) : ℝ :=
  sigma + 2 * tideE * sin (s - p) + 5 / 4 * tideE * tideE * sin (2 * (s - p)) +
    15 / 4 * tideMm * tideE * sin (s - 2 * h + p) + 11 / 8 * tideMm * tideMm * sin (2 * (s - h))

/-- Lines 153–154 and 156–158 (with the sun's arguments). -/
noncomputable def cosZenith (lamb I L chi : ℝ) : ℝ :=
  sin lamb * sin I * sin L + cos lamb * (cos (0.5 * I) ^ 2 * cos (L - chi) + sin (0.5 * I) ^ 2 * cos (L + chi))

/-- Lines 162–164. -/
noncomputable def earthRadius (lamb H : ℝ) : Option ℝ := do
  let q ← divR 1 (1 + 0.006738 * sin lamb ^ 2)
  let C ← sqrtR q
  return C * tideA + H

/-- Lines 166 and 170–172. -/
noncomputable def moonDistance (s p h : ℝ) : Option ℝ := do
  let aprime ← divR 1 (tideC * (1 - tideE * tideE))
  let ic ← divR 1 tideC
  divR 1 (ic + aprime * tideE * cos (s - p) + aprime * tideE * tideE * cos (2 * (s - p)) +
    15 / 8 * aprime * tideMm * tideE * cos (s - 2 * h + p) + aprime * tideMm * tideMm * cos (2 * (s - h)))

/-- Lines 168 and 174. -/
noncomputable def sunDistance (e1 h p1 : ℝ) : Option ℝ := do
  let aprime1 ← divR 1 (tideC1 * (1 - e1 * e1))
  let ic ← divR 1 tideC1
  divR 1 (ic + aprime1 * e1 * cos (h - p1))

/-- Lines 102–185 for one point: total, lunar and solar effect. -/
noncomputable def tidePoint (lon lat alt T t0 : ℝ) : Option (ℝ × ℝ × ℝ) := do
  let lamb := radians lat
  let H := alt * 100
  let L := -lon
  let s := tideSm T
  let p := tideP T
  let h := tideH T
  let N := tideN T
  let (I, nu, alpha) ← nodeAngles N
  let t := radians (15 * (t0 - 12) - L)
  let chi := t + h - nu
  let xi := N - alpha
  let sigma := s - xi
  let Lmoon := moonLongitude sigma s p h
  let p1 := tideP1 T
  let e1 := tideE1 T
  let chi1 := t + h
  let Lsun := h + 2 * e1 * sin (h - p1)
  let cosTheta := cosZenith lamb I Lmoon chi
  let cosPhi := cosZenith lamb tideOmega Lsun chi1
  let r ← earthRadius lamb H
  let d ← moonDistance s p h
  let D ← sunDistance e1 h p1
  let u ← divR (tideMu * tideM * r) (d * d * d)
  let v ← divR (tideMu * tideM * r * r) (d * d * d * d)
  let gm := u * (3 * cosTheta ^ 2 - 1) + 3 / 2 * v * (5 * cosTheta ^ 3 - 3 * cosTheta)
  let w ← divR (tideMu * tideS * r) (D * D * D)
  let gs := w * (3 * cosPhi ^ 2 - 1)
  let love := 1 + tideH2 - 1.5 * tideK2
  return ((gm + gs) * 1e3 * love, gm * 1e3 * love, gs * 1e3 * love)

/-- `longman_tide_prediction` with `return_components=True`, lines 42–187; without it only the first of the three is returned. -/
noncomputable def longman (lon lat : List ℝ) (times : List ℤ) (alt : ℝ) : Except PyErr (List (Option (ℝ × ℝ × ℝ))) :=
  if lon.length ≠ lat.length then .error .assertionError
  else if lon.length ≠ times.length then .error .assertionError
  else .ok (((lon.zip lat).zip times).map fun q =>
    let (T, b) := tideTime q.2
    tidePoint q.1.1 q.1.2 alt T (tideHour b))

end Shipgrav
