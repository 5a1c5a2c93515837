import Verif.Props.Tide
import Verif.Spec.TideNewton
import Verif.Lemmas.TidePull

/-! C149: the predicted tide is Newton's law (grav.py 42–188). -/

namespace Shipgrav
open Spec Real

private theorem zenith_unit (lat ra : ℝ) : (zenith lat ra).x ^ 2 + (zenith lat ra).y ^ 2 + (zenith lat ra).z ^ 2 = 1 := by
  have h1 := sin_sq_add_cos_sq lat
  have h2 := sin_sq_add_cos_sq ra
  unfold zenith
  simp only
  linear_combination h1 + cos lat ^ 2 * h2

private theorem dist_pull (m : ℝ) (u v : V3) (hu : u.x ^ 2 + u.y ^ 2 + u.z ^ 2 = 1) (hv : v.x ^ 2 + v.y ^ 2 + v.z ^ 2 = 1) (r i : ℝ) (hi : 0 < i)
    (hQ : 0 < 1 - 2 * u.dot v * (r * i) + (r * i) ^ 2) :
    tidalUp m u r (V3.scale (1 / i) v) =
      6.673e-8 * m * i ^ 2 * ((u.dot v - r * i) / √(1 - 2 * u.dot v * (r * i) + (r * i) ^ 2) ^ 3 - u.dot v) := by
  obtain ⟨x, y, z⟩ := u
  obtain ⟨x', y', z'⟩ := v
  unfold tidalUp massPull V3.sub V3.scale V3.dot at *
  simp only at *
  have hs := sqrt_pos.2 hQ
  have e1 : (1 / i * x' - r * x) * (1 / i * x' - r * x) + (1 / i * y' - r * y) * (1 / i * y' - r * y) + (1 / i * z' - r * z) * (1 / i * z' - r * z) =
      (1 / i) ^ 2 * (1 - 2 * (x * x' + y * y' + z * z') * (r * i) + (r * i) ^ 2) := by
    field_simp
    linear_combination hv + r ^ 2 * i ^ 2 * hu
  have e2 : (1 / i * x' - 0) * (1 / i * x' - 0) + (1 / i * y' - 0) * (1 / i * y' - 0) + (1 / i * z' - 0) * (1 / i * z' - 0) = (1 / i) ^ 2 := by
    field_simp
    linear_combination hv
  rw [e1, e2, sqrt_mul (by positivity), sqrt_sq (by positivity)]
  generalize √(1 - 2 * (x * x' + y * y' + z * z') * (r * i) + (r * i) ^ 2) = Q at *
  field_simp
  linear_combination (-m * r * i) * hu

private theorem centre_range (lat alt : ℝ) (ha : |alt| ≤ 100000) : 0 ≤ centreDist lat alt ∧ centreDist lat alt ≤ 6.47827e8 := by
  unfold centreDist
  have h : (1 : ℝ) ≤ √(1 + 0.006738 * sin lat ^ 2) := by
    rw [one_le_sqrt]; nlinarith [sq_nonneg (sin lat)]
  have h2 : √(1 + 0.006738 * sin lat ^ 2) ≤ 1.01 := by
    rw [sqrt_le_left (by norm_num)]
    have h0 := sin_sq_le_one lat
    generalize sin lat ^ 2 = q at *
    norm_num
    linarith
  have h3 : 6.378270e8 / √(1 + 0.006738 * sin lat ^ 2) ≤ 6.378270e8 := div_le_self (by norm_num) h
  have h4 : 6.378270e8 / 1.01 ≤ 6.378270e8 / √(1 + 0.006738 * sin lat ^ 2) := by gcongr
  obtain ⟨a1, a2⟩ := abs_le.1 ha
  constructor
  · norm_num at h4 ⊢
    linarith
  · norm_num at h3 ⊢
    linarith

private theorem tail_mono (k : ℕ) (x X : ℝ) (h0 : 0 ≤ x) (h : x ≤ X) (hX : X < 1) (b : ℝ) (hb : 0 ≤ b) :
    x ^ k * (x / (1 - x) ^ 2 + b * (1 - x)⁻¹) ≤ X ^ k * (X / (1 - X) ^ 2 + b * (1 - X)⁻¹) := by
  have : 0 < 1 - X := by linarith
  have : 0 < 1 - x := by linarith
  have : 0 ≤ X := h0.trans h
  gcongr

private theorem moon_newton (a : Astro) (lon lat alt hour : ℝ) (ha : |alt| ≤ 100000) :
    |lunarTide a lon lat alt hour - 1157.5 * tidalUp 7.3537e25 (zenith (lat * (π / 180)) (meridian a lon hour)) (centreDist (lat * (π / 180)) alt)
      (V3.scale (1 / invMoon a) (orbitDir (23.452 * (π / 180)) 0.08979719 a.N (moonLong a)))| ≤ 1.1e-4 := by
  obtain ⟨r0, r1⟩ := centre_range (lat * (π / 180)) alt ha
  obtain ⟨i0, i1⟩ := invMoon_bounds a
  have hu : (orbitDir (23.452 * (π / 180)) 0.08979719 a.N (moonLong a)).x ^ 2 + (orbitDir (23.452 * (π / 180)) 0.08979719 a.N (moonLong a)).y ^ 2 +
    (orbitDir (23.452 * (π / 180)) 0.08979719 a.N (moonLong a)).z ^ 2 = 1 := rotX_unit (23.452 * (π / 180)) _ (rotZ_unit a.N _ (rotX_unit 0.08979719 _ (circle_unit (moonLong a - a.N))))
  have hc : |cosMoon a lon lat hour| ≤ 1 := dot_le_one _ _ _ hu
  have i0' : 0 < invMoon a := lt_of_lt_of_le (by norm_num) i0
  have x0 : 0 ≤ centreDist (lat * (π / 180)) alt * invMoon a := by positivity
  have xX : centreDist (lat * (π / 180)) alt * invMoon a ≤ 6.47827e8 * (1.0715 / 3.84402e10) := by gcongr
  have x1 : centreDist (lat * (π / 180)) alt * invMoon a < 1 := xX.trans_lt (by norm_num)
  rw [dist_pull _ _ _ (zenith_unit _ _) hu _ _ i0' (zonal_pos _ hc _ (by rwa [abs_of_nonneg x0]))]
  have hp := (pull_three _ _ hc x0 x1).trans (tail_mono 3 _ _ x0 xX (by norm_num) 4 (by norm_num))
  unfold lunarTide
  change |_ - 1157.5 * (6.673e-8 * 7.3537e25 * invMoon a ^ 2 * ((cosMoon a lon lat hour - centreDist (lat * (π / 180)) alt * invMoon a) /
    √(1 - 2 * cosMoon a lon lat hour * (centreDist (lat * (π / 180)) alt * invMoon a) + (centreDist (lat * (π / 180)) alt * invMoon a) ^ 2) ^ 3 -
      cosMoon a lon lat hour))| ≤ _
  simp only
  generalize centreDist (lat * (π / 180)) alt = r at *
  generalize invMoon a = i at *
  generalize cosMoon a lon lat hour = c at *
  generalize (c - r * i) / √(1 - 2 * c * (r * i) + (r * i) ^ 2) ^ 3 = F at *
  have e : (6.673e-8 * 7.3537e25 * r * i ^ 3 * (3 * c ^ 2 - 1) + 3 / 2 * (6.673e-8 * 7.3537e25 * r ^ 2 * i ^ 4) * (5 * c ^ 3 - 3 * c)) * 1000 *
      (1 + 0.612 - 3 / 2 * 0.303) - 1157.5 * (6.673e-8 * 7.3537e25 * i ^ 2 * (F - c)) =
      -(1157.5 * (6.673e-8 * 7.3537e25 * i ^ 2)) * (F - (c + r * i * (3 * c ^ 2 - 1) + 3 / 2 * (r * i) ^ 2 * (5 * c ^ 3 - 3 * c))) := by
    ring
  rw [e, abs_mul, abs_neg, abs_of_nonneg (by positivity)]
  have hi2 : 1157.5 * (6.673e-8 * 7.3537e25 * i ^ 2) ≤ 1157.5 * (6.673e-8 * 7.3537e25 * (1.0715 / 3.84402e10) ^ 2) := by gcongr
  refine (mul_le_mul hi2 hp (abs_nonneg _) (by norm_num)).trans ?_
  norm_num

private theorem sun_newton (a : Astro) (lon lat alt hour : ℝ) (h1 : 0 ≤ a.e1) (h2 : a.e1 ≤ 0.018) (ha : |alt| ≤ 100000) :
    |solarTide a lon lat alt hour - 1157.5 * tidalUp 1.993e33 (zenith (lat * (π / 180)) (meridian a lon hour)) (centreDist (lat * (π / 180)) alt)
      (V3.scale (1 / invSun a) (eclipticDir (23.452 * (π / 180)) (sunLong a)))| ≤ 5e-6 := by
  obtain ⟨r0, r1⟩ := centre_range (lat * (π / 180)) alt ha
  obtain ⟨i0, i1⟩ := invSun_bounds a h1 h2
  have hu : (eclipticDir (23.452 * (π / 180)) (sunLong a)).x ^ 2 + (eclipticDir (23.452 * (π / 180)) (sunLong a)).y ^ 2 +
    (eclipticDir (23.452 * (π / 180)) (sunLong a)).z ^ 2 = 1 := rotX_unit (23.452 * (π / 180)) _ (circle_unit (sunLong a))
  have hc : |cosSun a lon lat hour| ≤ 1 := dot_le_one _ _ _ hu
  have i0' : 0 < invSun a := lt_of_lt_of_le (by norm_num) i0
  have x0 : 0 ≤ centreDist (lat * (π / 180)) alt * invSun a := by positivity
  have xX : centreDist (lat * (π / 180)) alt * invSun a ≤ 6.47827e8 * (1.02 / 1.495e13) := by gcongr
  have x1 : centreDist (lat * (π / 180)) alt * invSun a < 1 := xX.trans_lt (by norm_num)
  rw [dist_pull _ _ _ (zenith_unit _ _) hu _ _ i0' (zonal_pos _ hc _ (by rwa [abs_of_nonneg x0]))]
  have hp := (pull_two _ _ hc x0 x1).trans (tail_mono 2 _ _ x0 xX (by norm_num) 3 (by norm_num))
  unfold solarTide
  change |_ - 1157.5 * (6.673e-8 * 1.993e33 * invSun a ^ 2 * ((cosSun a lon lat hour - centreDist (lat * (π / 180)) alt * invSun a) /
    √(1 - 2 * cosSun a lon lat hour * (centreDist (lat * (π / 180)) alt * invSun a) + (centreDist (lat * (π / 180)) alt * invSun a) ^ 2) ^ 3 -
      cosSun a lon lat hour))| ≤ _
  simp only
  generalize centreDist (lat * (π / 180)) alt = r at *
  generalize invSun a = i at *
  generalize cosSun a lon lat hour = c at *
  generalize (c - r * i) / √(1 - 2 * c * (r * i) + (r * i) ^ 2) ^ 3 = F at *
  have e : 6.673e-8 * 1.993e33 * r * i ^ 3 * (3 * c ^ 2 - 1) * 1000 * (1 + 0.612 - 3 / 2 * 0.303) - 1157.5 * (6.673e-8 * 1.993e33 * i ^ 2 * (F - c)) =
      -(1157.5 * (6.673e-8 * 1.993e33 * i ^ 2)) * (F - (c + r * i * (3 * c ^ 2 - 1))) := by
    ring
  rw [e, abs_mul, abs_neg, abs_of_nonneg (by positivity)]
  have hi2 : 1157.5 * (6.673e-8 * 1.993e33 * i ^ 2) ≤ 1157.5 * (6.673e-8 * 1.993e33 * (1.02 / 1.495e13) ^ 2) := by gcongr
  refine (mul_le_mul hi2 hp (abs_nonneg _) (by norm_num)).trans ?_
  norm_num

/-- **C149.** The predicted tide (mGal) is the pull of the moon and of the sun by Newton's law at the place of observation less their pull at the
centre of the earth, its upward part, times 1.1575 for the yielding of the elastic earth (1 + 0.612 - 3/2 · 0.303): within 0.00011 mGal for the
moon and 0.000005 mGal for the sun.  Moon and sun are taken at their positions by Schureman's elements. -/
theorem C149_tide_is_newton (y m d : ℕ) (h mi s us : ℤ) (hv : ValidDate y m d) (ht : ValidTime h mi s us) :
    ∃ a, NearSchureman (centuries y m d h mi s) a ∧ ∀ lon lat alt : ℝ, |alt| ≤ 100000 → ∃ g gm gs : ℝ,
      longman [lon] [lat] [utcInstant y m d h mi s us] alt = .ok [some (g, gm, gs)] ∧ g = gm + gs ∧
      let up := zenith (lat * (π / 180)) (meridian a lon (hourOfDay h mi s))
      let r := centreDist (lat * (π / 180)) alt
      let moon := V3.scale (1 / invMoon a) (orbitDir (23.452 * (π / 180)) 0.08979719 a.N (moonLong a))
      let sun := V3.scale (1 / invSun a) (eclipticDir (23.452 * (π / 180)) (sunLong a))
      |gm - 1000 * (1.1575 * tidalUp 7.3537e25 up r moon)| ≤ 1.1e-4 ∧ |gs - 1000 * (1.1575 * tidalUp 1.993e33 up r sun)| ≤ 5e-6 := by
  obtain ⟨a, hn, hg⟩ := C90_tide_value y m d h mi s us hv ht
  refine ⟨a, hn, fun lon lat alt ha => ⟨_, _, _, hg lon lat alt, rfl, ?_⟩⟩
  obtain ⟨r1, r2⟩ := centuries_range y m d h mi s us hv ht
  obtain ⟨e1, e2⟩ := e1_range _ r1 r2
  have he : a.e1 = tideE1 (centuries y m d h mi s) := by
    rw [hn.e1]; unfold tideE1; generalize (0.01675104 : ℝ) = a; norm_num; ring
  have b1 := moon_newton a lon lat alt (hourOfDay h mi s) ha
  have b2 := sun_newton a lon lat alt (hourOfDay h mi s) (by rw [he]; exact e1) (by rw [he]; exact e2) ha
  simp only
  rw [← mul_assoc, ← mul_assoc, show (1000 : ℝ) * 1.1575 = 1157.5 by norm_num]
  exact ⟨b1, b2⟩

-- the pull under the moon: nearly 1e-4 cm/s² upwards, a thousand times the bound
example : 1e-4 < tidalUp 7.3537e25 ⟨1, 0, 0⟩ 6.378e8 ⟨3.84e10, 0, 0⟩ := by
  unfold tidalUp massPull V3.sub V3.scale V3.dot
  have e1 : √(1425983748840000000000 : ℝ) = 37762200000 := by rw [show (1425983748840000000000 : ℝ) = 37762200000 ^ 2 by norm_num]; exact sqrt_sq (by norm_num)
  have e2 : √(1474560000000000000000 : ℝ) = 38400000000 := by rw [show (1474560000000000000000 : ℝ) = 38400000000 ^ 2 by norm_num]; exact sqrt_sq (by norm_num)
  norm_num [e1, e2]
example := C149_tide_is_newton 2023 6 1 12 30 15 500000 (by decide) (by decide)

end Shipgrav
