import Verif.Lemmas.Tide
import Verif.Lemmas.Calendar
import Mathlib.Tactic.FieldSimp
import Mathlib.Tactic.Positivity

/-! The value of the tide model at one point. -/

namespace Shipgrav
open Real Spec

theorem cosZenith_eq (lamb I L ra nu : ℝ) :
    cosZenith lamb I L (ra - nu) = (zenith lamb ra).dot (rotZ nu (rotX I (circle L))) := by
  unfold cosZenith
  have h1 : cos (0.5 * I) ^ 2 = (1 + cos I) / 2 := by
    rw [cos_sq, show 2 * (0.5 * I) = I by ring]; ring
  have h2 : sin (0.5 * I) ^ 2 = (1 - cos I) / 2 := by
    rw [sin_sq, h1]; ring
  rw [h1, h2, cos_sub, cos_add, cos_sub, sin_sub]
  unfold zenith rotZ rotX circle V3.dot
  simp only
  ring

theorem cosZenith_sun (lamb I L ra : ℝ) : cosZenith lamb I L ra = (zenith lamb ra).dot (rotX I (circle L)) := by
  have := cosZenith_eq lamb I L ra 0
  rw [sub_zero] at this
  rw [this]
  unfold rotZ
  simp

theorem earthRadius_ok (lamb alt : ℝ) : earthRadius lamb (alt * 100) = some (centreDist lamb alt) := by
  have h : 0 < 1 + 0.006738 * sin lamb ^ 2 := by nlinarith [sq_nonneg (sin lamb)]
  unfold earthRadius centreDist tideA
  simp only [divR_ok h.ne', Option.bind_eq_bind, Option.bind_some, sqrtR_ok (show (0:ℝ) ≤ 1 / (1 + 0.006738 * sin lamb ^ 2) by positivity)]
  congr 1
  rw [sqrt_div zero_le_one, sqrt_one]
  ring

theorem invMoon_bounds (a : Astro) : 0.92 / 3.84402e10 ≤ invMoon a ∧ invMoon a ≤ 1.0715 / 3.84402e10 := by
  unfold invMoon
  have h1 := neg_one_le_cos (a.s - a.p)
  have h1' := cos_le_one (a.s - a.p)
  have h2 := neg_one_le_cos (2 * (a.s - a.p))
  have h2' := cos_le_one (2 * (a.s - a.p))
  have h3 := neg_one_le_cos (a.s - 2 * a.h + a.p)
  have h3' := cos_le_one (a.s - 2 * a.h + a.p)
  have h4 := neg_one_le_cos (2 * (a.s - a.h))
  have h4' := cos_le_one (2 * (a.s - a.h))
  generalize cos (a.s - a.p) = c1 at *
  generalize cos (2 * (a.s - a.p)) = c2 at *
  generalize cos (a.s - 2 * a.h + a.p) = c3 at *
  generalize cos (2 * (a.s - a.h)) = c4 at *
  simp only
  constructor
  · rw [div_le_div_iff_of_pos_right (by norm_num)]
    rw [← sub_le_iff_le_add', le_div_iff₀ (by norm_num)]
    norm_num
    linarith
  · rw [div_le_div_iff_of_pos_right (by norm_num)]
    rw [← le_sub_iff_add_le', div_le_iff₀ (by norm_num)]
    norm_num
    linarith

theorem moonDistance_ok (a : Astro) : moonDistance a.s a.p a.h = some (1 / invMoon a) := by
  have hpos : 0 < invMoon a := lt_of_lt_of_le (by norm_num) (invMoon_bounds a).1
  have h1 : tideC * (1 - tideE * tideE) ≠ 0 := by unfold tideC tideE; norm_num
  have h2 : tideC ≠ 0 := by unfold tideC; norm_num
  unfold moonDistance
  simp only [divR_ok h1, divR_ok h2, Option.bind_eq_bind, Option.bind_some]
  have e : 1 / tideC + 1 / (tideC * (1 - tideE * tideE)) * tideE * cos (a.s - a.p) +
      1 / (tideC * (1 - tideE * tideE)) * tideE * tideE * cos (2 * (a.s - a.p)) +
      15 / 8 * (1 / (tideC * (1 - tideE * tideE))) * tideMm * tideE * cos (a.s - 2 * a.h + a.p) +
      1 / (tideC * (1 - tideE * tideE)) * tideMm * tideMm * cos (2 * (a.s - a.h)) = invMoon a := by
    unfold invMoon tideC tideE tideMm
    generalize cos (a.s - a.p) = c1
    generalize cos (2 * (a.s - a.p)) = c2
    generalize cos (a.s - 2 * a.h + a.p) = c3
    generalize cos (2 * (a.s - a.h)) = c4
    norm_num
    ring
  rw [e, divR_ok hpos.ne']

theorem invSun_bounds (a : Astro) (h1 : 0 ≤ a.e1) (h2 : a.e1 ≤ 0.018) : 0.9 / 1.495e13 ≤ invSun a ∧ invSun a ≤ 1.02 / 1.495e13 := by
  unfold invSun
  have c1 := neg_one_le_cos (a.h - a.p1)
  have c2 := cos_le_one (a.h - a.p1)
  generalize cos (a.h - a.p1) = c at *
  have h3 : 0 < 1 - a.e1 ^ 2 := by nlinarith
  have h4 : 0.99 ≤ 1 - a.e1 ^ 2 := by nlinarith
  constructor
  · rw [div_le_div_iff_of_pos_right (by norm_num), ← sub_le_iff_le_add', le_div_iff₀ h3]
    nlinarith
  · rw [div_le_div_iff_of_pos_right (by norm_num), ← le_sub_iff_add_le', div_le_iff₀ h3]
    nlinarith

theorem sunDistance_ok (a : Astro) (h1 : 0 ≤ a.e1) (h2 : a.e1 ≤ 0.018) : sunDistance a.e1 a.h a.p1 = some (1 / invSun a) := by
  have hpos : 0 < invSun a := lt_of_lt_of_le (by norm_num) (invSun_bounds a h1 h2).1
  have h3 : 0 < 1 - a.e1 ^ 2 := by nlinarith
  have hc : tideC1 ≠ 0 := by unfold tideC1; norm_num
  have h4 : tideC1 * (1 - a.e1 * a.e1) ≠ 0 := mul_ne_zero hc (by rw [← pow_two]; exact h3.ne')
  unfold sunDistance
  simp only [divR_ok hc, divR_ok h4, Option.bind_eq_bind, Option.bind_some]
  have e : 1 / tideC1 + 1 / (tideC1 * (1 - a.e1 * a.e1)) * a.e1 * cos (a.h - a.p1) = invSun a := by
    unfold invSun
    rw [show (1.495e13 : ℝ) = tideC1 from rfl]
    rw [← pow_two]
    field_simp
  rw [e, divR_ok hpos.ne']

theorem cos_ratCast_ne (q : ℚ) : cos (q : ℝ) ≠ -1 := by
  intro h
  obtain ⟨k, hk⟩ := cos_eq_neg_one_iff.1 h
  apply irrational_pi
  refine ⟨q / (1 + 2 * k), ?_⟩
  have hne : (1 + 2 * (k : ℝ)) ≠ 0 := by
    intro h0
    have : (1 + 2 * k : ℤ) = 0 := by exact_mod_cast h0
    omega
  push_cast
  rw [div_eq_iff hne, ← hk]
  ring

/-- The arguments at `T`. -/
noncomputable def argsAt (T : ℝ) : Astro := ⟨tideSm T, tideP T, tideH T, tideN T, tideP1 T, tideE1 T⟩

theorem cos_tideN_ne (q : ℚ) : cos (tideN q) ≠ -1 := by
  have : tideN q = ((4.523588564 - 33.75715303 * q + 0.000036749 * (q * q) : ℚ) : ℝ) := by
    unfold tideN
    push_cast
    norm_num
  rw [this]
  exact cos_ratCast_ne _

theorem moonLongitude_eq (a : Astro) (x : ℝ) : moonLongitude (a.s - x) a.s a.p a.h = moonLong a - x := by
  unfold moonLongitude moonLong tideE tideMm
  norm_num
  ring

theorem tidePoint_ok (lon lat alt hour : ℝ) (q : ℚ) (h1 : 0 ≤ tideE1 q) (h2 : tideE1 q ≤ 0.018) :
    tidePoint lon lat alt q hour = some (lunarTide (argsAt q) lon lat alt hour + solarTide (argsAt q) lon lat alt hour,
      lunarTide (argsAt q) lon lat alt hour, solarTide (argsAt q) lon lat alt hour) := by
  obtain ⟨I, nu, alpha, hn, hS, g1, g2, g3, g4, g5⟩ := nodeAngles_ok (tideN q) (cos_tideN_ne q)
  have hm := moonDistance_ok (argsAt q)
  have hs := sunDistance_ok (argsAt q) h1 h2
  have pm : 0 < invMoon (argsAt q) := lt_of_lt_of_le (by norm_num) (invMoon_bounds _).1
  have ps : 0 < invSun (argsAt q) := lt_of_lt_of_le (by norm_num) (invSun_bounds _ h1 h2).1
  have ht : radians (15 * (hour - 12) - -lon) + tideH q = meridian (argsAt q) lon hour := by
    unfold meridian radians
    rw [sub_neg_eq_add]
    rfl
  have cm : cosZenith (radians lat) I (moonLongitude (tideSm q - (tideN q - alpha)) (tideSm q) (tideP q) (tideH q))
      (radians (15 * (hour - 12) - -lon) + tideH q - nu) = cosMoon (argsAt q) lon lat hour := by
    have hml : moonLongitude (tideSm q - (tideN q - alpha)) (tideSm q) (tideP q) (tideH q) = moonLong (argsAt q) - (tideN q - alpha) :=
      moonLongitude_eq (argsAt q) _
    rw [ht, cosZenith_eq, hml, ← orbitDir_eq (tideN q) I nu alpha _ hS g1 g2 g3 g4 g5]
    unfold cosMoon
    rw [show moonLong (argsAt q) - (tideN q - alpha) - alpha + tideN q = moonLong (argsAt q) by ring]
    rfl
  have cs : cosZenith (radians lat) tideOmega (tideH q + 2 * tideE1 q * sin (tideH q - tideP1 q))
      (radians (15 * (hour - 12) - -lon) + tideH q) = cosSun (argsAt q) lon lat hour := by
    rw [ht, cosZenith_sun]
    rfl
  replace hm : moonDistance (tideSm q) (tideP q) (tideH q) = some (1 / invMoon (argsAt q)) := hm
  replace hs : sunDistance (tideE1 q) (tideH q) (tideP1 q) = some (1 / invSun (argsAt q)) := hs
  have z1 : 1 / invMoon (argsAt q) * (1 / invMoon (argsAt q)) * (1 / invMoon (argsAt q)) ≠ 0 := by positivity
  have z2 : 1 / invMoon (argsAt q) * (1 / invMoon (argsAt q)) * (1 / invMoon (argsAt q)) * (1 / invMoon (argsAt q)) ≠ 0 := by positivity
  have z3 : 1 / invSun (argsAt q) * (1 / invSun (argsAt q)) * (1 / invSun (argsAt q)) ≠ 0 := by positivity
  unfold tidePoint
  simp only [hn, earthRadius_ok, hm, hs, divR_ok z1, divR_ok z2, divR_ok z3, Option.bind_eq_bind, Option.bind_some, cm, cs]
  unfold lunarTide solarTide
  simp only
  rw [show lat * (π / 180) = radians lat from rfl]
  generalize cosMoon (argsAt q) lon lat hour = c1
  generalize cosSun (argsAt q) lon lat hour = c2
  generalize centreDist (radians lat) alt = r
  generalize invMoon (argsAt q) = im at *
  generalize invSun (argsAt q) = is at *
  unfold tideMu tideM tideS tideH2 tideK2
  have e1 : ∀ x : ℝ, x / (1 / im * (1 / im) * (1 / im)) = x * im ^ 3 := by intro x; field_simp
  have e2 : ∀ x : ℝ, x / (1 / im * (1 / im) * (1 / im) * (1 / im)) = x * im ^ 4 := by intro x; field_simp
  have e3 : ∀ x : ℝ, x / (1 / is * (1 / is) * (1 / is)) = x * is ^ 3 := by intro x; field_simp
  rw [e1, e2, e3]
  have k1 : (1.5 : ℝ) = 3 / 2 := by norm_num
  have k2 : (1e3 : ℝ) = 1000 := by norm_num
  rw [k1, k2]
  generalize (6.673e-8 : ℝ) = mu
  generalize (7.3537e25 : ℝ) = M
  generalize (1.993e33 : ℝ) = S
  generalize (0.612 : ℝ) = h2
  generalize (0.303 : ℝ) = k2
  show some _ = some _
  congr 2
  · ring
  · congr 1
    ring

end Shipgrav
