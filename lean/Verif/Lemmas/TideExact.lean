import Verif.Lemmas.TideFloat

/-! The formulas for every arithmetic, taken with real numbers, are the model of the tide prediction. -/

namespace Shipgrav
open Spec Real

private theorem divR_some {x y z : ℝ} (h : divR x y = some z) : z = x / y := by
  unfold divR at h
  split at h
  · cases h
  · exact (Option.some.inj h).symm

private theorem arccosR_some {x z : ℝ} (h : arccosR x = some z) : z = arccos x := by
  unfold arccosR at h
  split at h
  · exact (Option.some.inj h).symm
  · cases h

private theorem arcsinR_some {x z : ℝ} (h : arcsinR x = some z) : z = arcsin x := by
  unfold arcsinR at h
  split at h
  · exact (Option.some.inj h).symm
  · cases h

private theorem sqrtR_some {x z : ℝ} (h : sqrtR x = some z) : z = √x := by
  unfold sqrtR at h
  split at h
  · exact (Option.some.inj h).symm
  · cases h

theorem exact_args (T : ℝ) : (tideArgsG exactTide T).s = tideSm T ∧ (tideArgsG exactTide T).p = tideP T ∧ (tideArgsG exactTide T).h = tideH T ∧
    (tideArgsG exactTide T).N = tideN T ∧ (tideArgsG exactTide T).p1 = tideP1 T ∧ (tideArgsG exactTide T).e1 = tideE1 T := by
  unfold tideArgsG tideSm tideP tideH tideN tideP1 tideE1 exactTide exactArith
  norm_num

theorem exact_omega : tideOmegaG exactTide = tideOmega := by
  show radians ((23.452 : ℚ) : ℝ) = _
  unfold tideOmega
  norm_num

private theorem lit_i : ((0.08979719 : ℚ) : ℝ) = tideI := by unfold tideI; norm_num

theorem exact_node {N : ℝ} {n : ℝ × ℝ × ℝ} (h : nodeAngles N = some n) : n = nodeAnglesG exactTide N := by
  unfold nodeAngles at h
  simp only [Option.bind_eq_bind, Option.bind_eq_some_iff] at h
  obtain ⟨I, hI, q, hq, nu, hnu, sa, hsa, w, hw, h⟩ := h
  have h' := (Option.some.inj h).symm
  have e : nodeAnglesG exactTide N = (arccos (cos (tideOmegaG exactTide) * cos ((0.08979719 : ℚ) : ℝ) -
      sin (tideOmegaG exactTide) * sin ((0.08979719 : ℚ) : ℝ) * cos N), _, _) := rfl
  rw [h']
  show _ = (_, _, ((2 : ℚ) : ℝ) * arctan (_ / (((1 : ℚ) : ℝ) + _)))
  rw [divR_some hw, divR_some hsa, arcsinR_some hnu, divR_some hq, arccosR_some hI, ← exact_omega, ← lit_i]
  push_cast
  rfl

theorem exact_radius {a H r : ℝ} (h : earthRadius a H = some r) : r = earthRadiusG exactTide a H := by
  unfold earthRadius at h
  simp only [Option.bind_eq_bind, Option.bind_eq_some_iff] at h
  obtain ⟨q, hq, C, hC, h⟩ := h
  rw [← Option.some.inj h, sqrtR_some hC, divR_some hq]
  unfold earthRadiusG tideA exactTide exactArith
  norm_num

theorem exact_moonDistance {s p h d : ℝ} (hd : moonDistance s p h = some d) : d = moonDistanceG exactTide s p h := by
  unfold moonDistance at hd
  simp only [Option.bind_eq_bind, Option.bind_eq_some_iff] at hd
  obtain ⟨q, hq, C, hC, hd⟩ := hd
  rw [divR_some hd, divR_some hC, divR_some hq]
  unfold moonDistanceG tideC tideE tideMm exactTide exactArith
  norm_num

theorem exact_sunDistance {e h p d : ℝ} (hd : sunDistance e h p = some d) : d = sunDistanceG exactTide e h p := by
  unfold sunDistance at hd
  simp only [Option.bind_eq_bind, Option.bind_eq_some_iff] at hd
  obtain ⟨q, hq, C, hC, hd⟩ := hd
  rw [divR_some hd, divR_some hC, divR_some hq]
  unfold sunDistanceG tideC1 exactTide exactArith
  norm_num

/-- The formulas for given arguments are the tide of Longman. -/
theorem exact_fromArgs (lon lat alt hour : ℝ) (a : Astro) (hN : cos a.N ≠ -1) (h1 : 0 ≤ a.e1) (h2 : a.e1 ≤ 0.018) :
    tideFromArgsG exactTide lon lat alt hour ⟨a.s, a.p, a.h, a.N, a.p1, a.e1⟩ =
      (lunarTide a lon lat alt hour + solarTide a lon lat alt hour, lunarTide a lon lat alt hour, solarTide a lon lat alt hour) := by
  obtain ⟨I, nu, alpha, hn, hS, g1, g2, g3, g4, g5⟩ := nodeAngles_ok a.N hN
  have n1 := exact_node hn
  have hm := exact_moonDistance (moonDistance_ok a)
  have hs := exact_sunDistance (sunDistance_ok a h1 h2)
  have hr := exact_radius (earthRadius_ok (radians lat) alt)
  have pm : 0 < invMoon a := lt_of_lt_of_le (by norm_num) (invMoon_bounds _).1
  have ps : 0 < invSun a := lt_of_lt_of_le (by norm_num) (invSun_bounds _ h1 h2).1
  have ht : radians (15 * (hour - 12) - -lon) + a.h = meridian a lon hour := by
    unfold meridian radians
    rw [sub_neg_eq_add]
  have cm : cosZenith (radians lat) I (moonLongitude (a.s - (a.N - alpha)) a.s a.p a.h) (radians (15 * (hour - 12) - -lon) + a.h - nu) = cosMoon a lon lat hour := by
    rw [ht, cosZenith_eq, moonLongitude_eq, ← orbitDir_eq a.N I nu alpha _ hS g1 g2 g3 g4 g5]
    unfold cosMoon
    rw [show moonLong a - (a.N - alpha) - alpha + a.N = moonLong a by ring]
    rfl
  have cs : cosZenith (radians lat) tideOmega (a.h + 2 * a.e1 * sin (a.h - a.p1)) (radians (15 * (hour - 12) - -lon) + a.h) = cosSun a lon lat hour := by
    rw [ht, cosZenith_sun]
    rfl
  have t1 : ((15 : ℚ) : ℝ) = 15 := by norm_num
  have t2 : ((12 : ℚ) : ℝ) = 12 := by norm_num
  have t3 : ((100 : ℚ) : ℝ) = 100 := by norm_num
  have t4 : ((2 : ℚ) : ℝ) = 2 := by norm_num
  have e : tideFromArgsG exactTide lon lat alt hour ⟨a.s, a.p, a.h, a.N, a.p1, a.e1⟩ = tideTotalG exactTide (tideForceG exactTide (centreDist (radians lat) alt)
      (1 / invMoon a) (1 / invSun a) (cosMoon a lon lat hour) (cosSun a lon lat hour)) := by
    rw [← cm, ← cs, hr, hm, hs, ← exact_cosZenith, ← exact_cosZenith, ← exact_moonLongitude, ← exact_omega, ← t1, ← t2, ← t3, ← t4]
    have i1 : I = (nodeAnglesG exactTide a.N).1 := by rw [← n1]
    have i2 : nu = (nodeAnglesG exactTide a.N).2.1 := by rw [← n1]
    have i3 : alpha = (nodeAnglesG exactTide a.N).2.2 := by rw [← n1]
    rw [i1, i2, i3]
    rfl
  rw [e]
  unfold lunarTide solarTide
  simp only
  rw [show lat * (π / 180) = radians lat from rfl]
  generalize cosMoon a lon lat hour = c1
  generalize cosSun a lon lat hour = c2
  generalize centreDist (radians lat) alt = r
  generalize invMoon a = im at *
  generalize invSun a = is at *
  have e1 : ∀ x : ℝ, x / (1 / im * (1 / im) * (1 / im)) = x * im ^ 3 := by intro x; field_simp
  have e2 : ∀ x : ℝ, x / (1 / im * (1 / im) * (1 / im) * (1 / im)) = x * im ^ 4 := by intro x; field_simp
  have e3 : ∀ x : ℝ, x / (1 / is * (1 / is) * (1 / is)) = x * is ^ 3 := by intro x; field_simp
  unfold tideTotalG tideForceG exactTide exactArith
  simp only
  rw [e1, e2, e3]
  have k1 : ((1.5 : ℚ) : ℝ) = 3 / 2 := by norm_num
  have k2 : ((1000 : ℚ) : ℝ) = 1000 := by norm_num
  have k3 : ((6.673e-8 : ℚ) : ℝ) = 6.673e-8 := by norm_num
  have k4 : ((73537000000000000000000000 : ℚ) : ℝ) = 7.3537e25 := by norm_num
  have k5 : ((1993000000000000000000000000000000 : ℚ) : ℝ) = 1.993e33 := by norm_num
  have k6 : ((0.612 : ℚ) : ℝ) = 0.612 := by norm_num
  have k7 : ((0.303 : ℚ) : ℝ) = 0.303 := by norm_num
  have k8 : ((3 / 2 : ℚ) : ℝ) = 3 / 2 := by norm_num
  have k9 : ((1 : ℚ) : ℝ) = 1 := by norm_num
  have k10 : ((3 : ℚ) : ℝ) = 3 := by norm_num
  have k11 : ((5 : ℚ) : ℝ) = 5 := by norm_num
  rw [k1, k2, k3, k4, k5, k6, k7, k8, k9, k10, k11]
  generalize (6.673e-8 : ℝ) = mu
  generalize (7.3537e25 : ℝ) = M
  generalize (1.993e33 : ℝ) = S
  generalize (0.612 : ℝ) = h2
  generalize (0.303 : ℝ) = k2
  refine Prod.ext ?_ (Prod.ext ?_ ?_) <;> simp only <;> ring

/-! ### Dependence on the longitude of the node -/

private theorem prod_lip {x y x' y' d e : ℝ} (hx : |x| ≤ 1) (hy' : |y'| ≤ 1) (h1 : |x - x'| ≤ d) (h2 : |y - y'| ≤ e) : |x * y - x' * y'| ≤ d + e := by
  have : x * y - x' * y' = x * (y - y') + (x - x') * y' := by ring
  rw [this]
  refine (abs_add_le _ _).trans ?_
  rw [abs_mul, abs_mul]
  have a1 := mul_le_mul hx h2 (abs_nonneg _) zero_le_one
  have a2 := mul_le_mul h1 hy' (abs_nonneg _) ((abs_nonneg _).trans h1)
  linarith

private theorem mul_small {x y d : ℝ} (hx : |x| ≤ 1) (hy : |y| ≤ d) : |x * y| ≤ d := by
  rw [abs_mul]
  have := mul_le_mul hx hy (abs_nonneg _) zero_le_one
  linarith

private theorem orbitDir_lip (ω i N N' l : ℝ) : |(orbitDir ω i N l).x - (orbitDir ω i N' l).x| ≤ 4 * |N - N'| ∧
    |(orbitDir ω i N l).y - (orbitDir ω i N' l).y| ≤ 5 * |N - N'| ∧ |(orbitDir ω i N l).z - (orbitDir ω i N' l).z| ≤ 5 * |N - N'| := by
  have c1 := cos_sub_le' N N'
  have s1 := sin_sub_le' N N'
  have c2 : |cos (l - N) - cos (l - N')| ≤ |N - N'| := by
    have := cos_sub_le' (l - N) (l - N')
    rwa [show l - N - (l - N') = -(N - N') by ring, abs_neg] at this
  have s2 : |sin (l - N) - sin (l - N')| ≤ |N - N'| := by
    have := sin_sub_le' (l - N) (l - N')
    rwa [show l - N - (l - N') = -(N - N') by ring, abs_neg] at this
  have hb := abs_cos_le_one ω
  have ha := abs_sin_le_one ω
  have hc := abs_cos_le_one i
  have hs := abs_sin_le_one i
  have p1 := prod_lip (abs_cos_le_one N) (abs_cos_le_one (l - N')) c1 c2
  have p2 := prod_lip (abs_sin_le_one N) (abs_sin_le_one (l - N')) s1 s2
  have p3 := prod_lip (abs_sin_le_one N) (abs_cos_le_one (l - N')) s1 c2
  have p4 := prod_lip (abs_cos_le_one N) (abs_sin_le_one (l - N')) c1 s2
  unfold orbitDir rotX rotZ circle
  simp only [mul_zero, sub_zero, add_zero]
  generalize |N - N'| = D at *
  generalize sin ω = a at *
  generalize cos ω = b at *
  generalize sin i = s at *
  generalize cos i = c at *
  generalize cos N = n at *
  generalize sin N = m at *
  generalize cos N' = n' at *
  generalize sin N' = m' at *
  generalize cos (l - N) = u at *
  generalize sin (l - N) = v at *
  generalize cos (l - N') = u' at *
  generalize sin (l - N') = v' at *
  have q1 := mul_small hc p2
  have q2 := mul_small hc p4
  have q3 := mul_small hs s2
  have f1 : |m * u + n * (c * v) - (m' * u' + n' * (c * v'))| ≤ 4 * D := by
    rw [show m * u + n * (c * v) - (m' * u' + n' * (c * v')) = (m * u - m' * u') + c * (n * v - n' * v') by ring]
    refine (abs_add_le _ _).trans ?_
    linarith
  refine ⟨?_, ?_, ?_⟩
  · rw [show n * u - m * (c * v) - (n' * u' - m' * (c * v')) = (n * u - n' * u') - c * (m * v - m' * v') by ring]
    refine (abs_sub _ _).trans ?_
    linarith
  · have r1 := mul_small hb f1
    have r2 := mul_small ha q3
    rw [show b * (m * u + n * (c * v)) - a * (s * v) - (b * (m' * u' + n' * (c * v')) - a * (s * v')) =
      b * (m * u + n * (c * v) - (m' * u' + n' * (c * v'))) - a * (s * (v - v')) by ring]
    refine (abs_sub _ _).trans ?_
    linarith
  · have r1 := mul_small ha f1
    have r2 := mul_small hb q3
    rw [show a * (m * u + n * (c * v)) + b * (s * v) - (a * (m' * u' + n' * (c * v')) + b * (s * v')) =
      a * (m * u + n * (c * v) - (m' * u' + n' * (c * v'))) + b * (s * (v - v')) by ring]
    refine (abs_add_le _ _).trans ?_
    linarith

/-- The arguments with another longitude of the node. -/
def withNode (a : Astro) (N : ℝ) : Astro := { a with N := N }

theorem cosMoon_lip (a : Astro) (N lon lat hour : ℝ) : |cosMoon (withNode a N) lon lat hour - cosMoon a lon lat hour| ≤ 14 * |N - a.N| := by
  obtain ⟨h1, h2, h3⟩ := orbitDir_lip (23.452 * (π / 180)) 0.08979719 N a.N (moonLong a)
  have e1 : moonLong (withNode a N) = moonLong a := rfl
  have e2 : meridian (withNode a N) lon hour = meridian a lon hour := rfl
  unfold cosMoon
  rw [e1, e2]
  show |(zenith _ _).dot (orbitDir _ _ N _) - _| ≤ _
  generalize orbitDir (23.452 * (π / 180)) 0.08979719 N (moonLong a) = u at *
  generalize orbitDir (23.452 * (π / 180)) 0.08979719 a.N (moonLong a) = w at *
  unfold zenith V3.dot
  simp only
  generalize meridian a lon hour = ra
  generalize lat * (π / 180) = la
  have k1 : |cos la * cos ra| ≤ 1 := by
    rw [abs_mul]; exact mul_le_one₀ (abs_cos_le_one _) (abs_nonneg _) (abs_cos_le_one _)
  have k2 : |cos la * sin ra| ≤ 1 := by
    rw [abs_mul]; exact mul_le_one₀ (abs_cos_le_one _) (abs_nonneg _) (abs_sin_le_one _)
  have r1 := mul_small k1 h1
  have r2 := mul_small k2 h2
  have r3 := mul_small (abs_sin_le_one la) h3
  rw [show cos la * cos ra * u.x + cos la * sin ra * u.y + sin la * u.z - (cos la * cos ra * w.x + cos la * sin ra * w.y + sin la * w.z) =
    cos la * cos ra * (u.x - w.x) + cos la * sin ra * (u.y - w.y) + sin la * (u.z - w.z) by ring]
  refine (abs_add_three _ _ _).trans ?_
  linarith

private theorem cosMoon_le (a : Astro) (lon lat hour : ℝ) : |cosMoon a lon lat hour| ≤ 1 :=
  dot_le_one _ _ _ (rotX_unit _ _ (rotZ_unit _ _ (rotX_unit _ _ (circle_unit _))))

/-- The lunar tide hardly depends on the longitude of the node. -/
theorem lunar_lip (a : Astro) (N lon lat alt hour : ℝ) (halt : |alt| ≤ 10000) :
    |lunarTide (withNode a N) lon lat alt hour - lunarTide a lon lat alt hour| ≤ 16 * |N - a.N| := by
  have hl := cosMoon_lip a N lon lat hour
  have c1 := cosMoon_le (withNode a N) lon lat hour
  have c2 := cosMoon_le a lon lat hour
  obtain ⟨i0, i1⟩ := invMoon_bounds a
  have e1 : invMoon (withNode a N) = invMoon a := rfl
  unfold lunarTide
  simp only
  rw [e1]
  have r0 : 0 ≤ centreDist (lat * (π / 180)) alt ∧ centreDist (lat * (π / 180)) alt ≤ 6.4e8 := by
    unfold centreDist
    have hs := sin_sq_le_one (lat * (π / 180))
    have hs0 := sq_nonneg (sin (lat * (π / 180)))
    generalize sin (lat * (π / 180)) ^ 2 = q at *
    have h1 : (1 : ℝ) ≤ √(1 + 0.006738 * q) := by rw [one_le_sqrt]; nlinarith
    have h2 : √(1 + 0.006738 * q) ≤ 2 := by rw [sqrt_le_left (by norm_num)]; nlinarith
    have h3 : 6.378270e8 / √(1 + 0.006738 * q) ≤ 6.378270e8 := div_le_self (by norm_num) h1
    have h4 : 3e8 ≤ 6.378270e8 / √(1 + 0.006738 * q) := by
      rw [le_div_iff₀ (by linarith)]
      norm_num
      linarith
    have := abs_le.1 halt
    norm_num at *
    constructor <;> linarith
  obtain ⟨r0, r1⟩ := r0
  generalize centreDist (lat * (π / 180)) alt = r at *
  generalize invMoon a = im at *
  generalize cosMoon (withNode a N) lon lat hour = x at *
  generalize cosMoon a lon lat hour = y at *
  have im0 : 0 < im := lt_of_lt_of_le (by norm_num) i0
  have im3 : im ^ 3 ≤ (1.0715 / 3.84402e10) ^ 3 := pow_le_pow_left₀ im0.le i1 3
  have im4 : im ^ 4 ≤ (1.0715 / 3.84402e10) ^ 4 := pow_le_pow_left₀ im0.le i1 4
  have r2 : r ^ 2 ≤ 6.4e8 ^ 2 := pow_le_pow_left₀ r0 r1 2
  have A0 : 0 ≤ 6.673e-8 * 7.3537e25 * r * im ^ 3 := by positivity
  have A1 : 6.673e-8 * 7.3537e25 * r * im ^ 3 ≤ 1e-4 := by
    have := mul_le_mul r1 im3 (by positivity) (by norm_num)
    calc 6.673e-8 * 7.3537e25 * r * im ^ 3 = 6.673e-8 * 7.3537e25 * (r * im ^ 3) := by ring
      _ ≤ 6.673e-8 * 7.3537e25 * (6.4e8 * (1.0715 / 3.84402e10) ^ 3) := mul_le_mul_of_nonneg_left this (by norm_num)
      _ ≤ 1e-4 := by norm_num
  have B0 : 0 ≤ 6.673e-8 * 7.3537e25 * r ^ 2 * im ^ 4 := by positivity
  have B1 : 6.673e-8 * 7.3537e25 * r ^ 2 * im ^ 4 ≤ 1e-5 := by
    have := mul_le_mul r2 im4 (by positivity) (by norm_num)
    calc 6.673e-8 * 7.3537e25 * r ^ 2 * im ^ 4 = 6.673e-8 * 7.3537e25 * (r ^ 2 * im ^ 4) := by ring
      _ ≤ 6.673e-8 * 7.3537e25 * (6.4e8 ^ 2 * (1.0715 / 3.84402e10) ^ 4) := mul_le_mul_of_nonneg_left this (by norm_num)
      _ ≤ 1e-5 := by norm_num
  generalize 6.673e-8 * 7.3537e25 * r * im ^ 3 = A at *
  generalize 6.673e-8 * 7.3537e25 * r ^ 2 * im ^ 4 = B at *
  have hE : (A * (3 * x ^ 2 - 1) + 3 / 2 * B * (5 * x ^ 3 - 3 * x)) * 1000 * (1 + 0.612 - 3 / 2 * 0.303) -
      (A * (3 * y ^ 2 - 1) + 3 / 2 * B * (5 * y ^ 3 - 3 * y)) * 1000 * (1 + 0.612 - 3 / 2 * 0.303) =
      (A * (3 * (x + y)) + 3 / 2 * B * (5 * (x ^ 2 + x * y + y ^ 2) - 3)) * 1157.5 * (x - y) := by ring
  rw [hE, abs_mul]
  have hF : |(A * (3 * (x + y)) + 3 / 2 * B * (5 * (x ^ 2 + x * y + y ^ 2) - 3)) * 1157.5| ≤ 1.1 := by
    have x2 : |x ^ 2| ≤ 1 := by rw [abs_pow]; exact pow_le_one₀ (abs_nonneg _) c1
    have y2 : |y ^ 2| ≤ 1 := by rw [abs_pow]; exact pow_le_one₀ (abs_nonneg _) c2
    have xy : |x * y| ≤ 1 := by rw [abs_mul]; exact mul_le_one₀ c1 (abs_nonneg _) c2
    have g1 : |3 * (x + y)| ≤ 6 := by
      rw [abs_le] at *
      constructor <;> linarith
    have g2 : |5 * (x ^ 2 + x * y + y ^ 2) - 3| ≤ 18 := by
      rw [abs_le] at *
      constructor <;> linarith
    have g3 : |A * (3 * (x + y))| ≤ 1e-4 * 6 := by
      rw [abs_mul, abs_of_nonneg A0]; exact mul_le_mul A1 g1 (abs_nonneg _) (by norm_num)
    have g4 : |3 / 2 * B * (5 * (x ^ 2 + x * y + y ^ 2) - 3)| ≤ 3 / 2 * 1e-5 * 18 := by
      rw [abs_mul, abs_of_nonneg (by positivity)]
      exact mul_le_mul (mul_le_mul_of_nonneg_left B1 (by norm_num)) g2 (abs_nonneg _) (by norm_num)
    rw [abs_mul, abs_of_pos (by norm_num : (0 : ℝ) < 1157.5)]
    have := (abs_add_le (A * (3 * (x + y))) (3 / 2 * B * (5 * (x ^ 2 + x * y + y ^ 2) - 3)))
    norm_num at *
    linarith
  calc _ ≤ 1.1 * |x - y| := mul_le_mul_of_nonneg_right hF (abs_nonneg _)
    _ ≤ _ := by
      have := abs_nonneg (N - a.N)
      linarith only [this, hl]

end Shipgrav
