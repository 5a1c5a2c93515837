import Verif.Lemmas.TideValue

/-! C47–C51, C90, C91: the tide prediction. -/

namespace Shipgrav
open Real Spec

/-- C47.  The time arguments are the Julian centuries since 1899-12-31 12:00 and the hour of the day, both from whole seconds. -/
theorem C47_time_arguments (y m d : ℕ) (h mi s us : ℤ) (hv : ValidDate y m d) (ht : ValidTime h mi s us) :
    tideTime (utcInstant y m d h mi s us) = (centuries y m d h mi s, hourOfDay h mi s) := by
  obtain ⟨t1, t2, t3, t4, t5, t6, t7, t8⟩ := ht
  have e1970 : dayNumber 1970 1 1 = 719163 := by rw [← ymd2ord_eq _ _ _ (by norm_num) (by norm_num) (by norm_num)]; decide +kernel
  have e1899 : dayNumber 1899 12 31 = 693595 := by rw [← ymd2ord_eq _ _ _ (by norm_num) (by norm_num) (by norm_num)]; decide +kernel
  have ho : tideOrigin = -2209032000000000 := by unfold tideOrigin; decide +kernel
  unfold tideTime centuries hourOfDay utcInstant usOfDay dayUs
  rw [e1970, e1899, ho]
  generalize (dayNumber y m d : ℤ) = n
  simp only
  have a1 : ((n - (719163 : ℕ)) * 86400000000 + (h * 3600000000 + mi * 60000000 + s * 1000000 + us)) / 3600000000 % 24 = h := by
    push_cast; omega
  have a2 : ((n - (719163 : ℕ)) * 86400000000 + (h * 3600000000 + mi * 60000000 + s * 1000000 + us)) / 60000000 % 60 = mi := by
    push_cast; omega
  have a3 : ((n - (719163 : ℕ)) * 86400000000 + (h * 3600000000 + mi * 60000000 + s * 1000000 + us)) / 1000000 % 60 = s := by
    push_cast; omega
  rw [a1, a2, a3]
  congr 1
  congr 1
  set dt := ((n - (719163 : ℕ)) * 86400000000 + (h * 3600000000 + mi * 60000000 + s * 1000000 + us)) - -2209032000000000 with hdt
  have key : dt / 86400000000 * 86400 + dt % 86400000000 / 1000000 = (n - 693595) * 86400 + (h * 3600 + mi * 60 + s) - 43200 := by
    rw [hdt]; push_cast; omega
  have keyR : ((dt / 86400000000 : ℤ) : ℝ) * 86400 + ((dt % 86400000000 / 1000000 : ℤ) : ℝ) =
      (n - 693595) * 86400 + (h * 3600 + mi * 60 + s) - 43200 := by exact_mod_cast key
  push_cast
  linarith

/-- C47.  The adjustments for hours outside the day are never taken. -/
theorem C47_hour_in_range (y m d : ℕ) (h mi s us : ℤ) (hv : ValidDate y m d) (ht : ValidTime h mi s us) :
    0 ≤ (tideTime (utcInstant y m d h mi s us)).2 ∧ (tideTime (utcInstant y m d h mi s us)).2 < 24 ∧
      tideHour (tideTime (utcInstant y m d h mi s us)).2 = (tideTime (utcInstant y m d h mi s us)).2 := by
  rw [C47_time_arguments y m d h mi s us hv ht]
  obtain ⟨t1, t2, t3, t4, t5, t6, t7, t8⟩ := ht
  unfold hourOfDay
  have b1 : (0 : ℝ) ≤ h := by exact_mod_cast t1
  have b3 : (0 : ℝ) ≤ mi := by exact_mod_cast t3
  have b5 : (0 : ℝ) ≤ s := by exact_mod_cast t5
  have b2 : (h : ℝ) ≤ 23 := by exact_mod_cast (show h ≤ 23 by omega)
  have b4 : (mi : ℝ) ≤ 59 := by exact_mod_cast (show mi ≤ 59 by omega)
  have b6 : (s : ℝ) ≤ 59 := by exact_mod_cast (show s ≤ 59 by omega)
  have c0 : (0 : ℝ) ≤ h + mi / 60 + s / 3600 := by positivity
  refine ⟨c0, by linarith, ?_⟩
  unfold tideHour
  simp only
  have hn : ¬ ((h : ℝ) + mi / 60 + s / 3600 < 0) := by linarith
  simp only [hn, if_false, ite_self]

/-- C48.  Inputs of different lengths raise `AssertionError`; otherwise there is one output per point. -/
theorem C48_lengths (lon lat : List ℝ) (times : List ℤ) (alt : ℝ) :
    (¬ (lon.length = lat.length ∧ lon.length = times.length) → longman lon lat times alt = .error .assertionError) ∧
    (lon.length = lat.length ∧ lon.length = times.length → ∃ out, longman lon lat times alt = .ok out ∧ out.length = lon.length) := by
  unfold longman
  constructor
  · intro h
    by_cases h1 : lon.length = lat.length
    · rw [if_neg (by simpa using h1), if_pos (fun h2 => h ⟨h1, h2⟩)]
    · rw [if_pos h1]
  · rintro ⟨h1, h2⟩
    rw [if_neg (by simpa using h1), if_neg (by simpa using h2)]
    refine ⟨_, rfl, ?_⟩
    simp only [List.length_map, List.length_zip]
    omega

/-- C48.  The output at a point is the output for that point alone. -/
theorem C48_pointwise (lon lat : List ℝ) (times : List ℤ) (alt : ℝ) (out : List (Option (ℝ × ℝ × ℝ)))
    (h : longman lon lat times alt = .ok out) (k : ℕ) (x y : ℝ) (t : ℤ) (hx : lon[k]? = some x) (hy : lat[k]? = some y)
    (ht : times[k]? = some t) : ∃ v, out[k]? = some v ∧ longman [x] [y] [t] alt = .ok [v] := by
  unfold longman at h ⊢
  split at h
  · cases h
  · split at h
    · cases h
    · injection h with h
      subst h
      rw [if_neg (by simp), if_neg (by simp)]
      refine ⟨_, ?_, rfl⟩
      have : ((lon.zip lat).zip times)[k]? = some ((x, y), t) := by
        rw [List.getElem?_zip_eq_some]
        refine ⟨?_, ht⟩
        rw [List.getElem?_zip_eq_some]
        exact ⟨hx, hy⟩
      rw [List.getElem?_map, this]
      rfl

/-- C48.  The total is the sum of the lunar and the solar part. -/
theorem C48_sum (lon lat : List ℝ) (times : List ℤ) (alt : ℝ) (out : List (Option (ℝ × ℝ × ℝ)))
    (h : longman lon lat times alt = .ok out) (g : ℝ × ℝ × ℝ) (hg : some g ∈ out) : g.1 = g.2.1 + g.2.2 := by
  unfold longman at h
  split at h
  · cases h
  · split at h
    · cases h
    · injection h with h
      subst h
      obtain ⟨q, -, hq⟩ := List.mem_map.1 hg
      simp only at hq
      unfold tidePoint at hq
      simp only [Option.bind_eq_bind, Option.bind_eq_some_iff] at hq
      obtain ⟨_, _, _, _, _, _, _, _, _, _, _, _, _, _, hq⟩ := hq
      replace hq := Option.some.inj hq
      rw [← hq]
      ring

theorem day_range (y m d : ℕ) (hv : ValidDate y m d) : 1 ≤ dayNumber y m d ∧ dayNumber y m d ≤ 3652059 := by
  obtain ⟨h1, h2, h3, h4, h5, h6⟩ := hv
  have hv : ValidDate y m d := ⟨h1, h2, h3, h4, h5, h6⟩
  rw [← ymd2ord_eq y m d h1 h3 h4]
  refine ⟨by unfold ymd2ord; omega, ?_⟩
  have hl : daysBeforeYear y + (if isLeap y then 366 else 365) ≤ 3652059 := by
    have e : daysBeforeYear 10000 = 3652059 := by decide +kernel
    rw [← e]
    exact yearMono y 10000 h1 (by omega)
  have := lastDay y m d h3 h4 (by rw [daysInMonth_eq]; exact h6)
  unfold ymd2ord
  omega

theorem centuries_rat (y m d : ℕ) (h mi s : ℤ) : ∃ q : ℚ, centuries y m d h mi s = q := by
  refine ⟨((((dayNumber y m d : ℤ) - dayNumber 1899 12 31 : ℤ) : ℚ) + ((h + mi / 60 + s / 3600 : ℚ) - 12) / 24) / 36525, ?_⟩
  unfold centuries hourOfDay
  push_cast
  rfl

theorem centuries_range (y m d : ℕ) (h mi s us : ℤ) (hv : ValidDate y m d) (ht : ValidTime h mi s us) :
    -19 ≤ centuries y m d h mi s ∧ centuries y m d h mi s ≤ 82 := by
  have e1899 : dayNumber 1899 12 31 = 693595 := by rw [← ymd2ord_eq _ _ _ (by norm_num) (by norm_num) (by norm_num)]; decide +kernel
  obtain ⟨d1, d2⟩ := day_range y m d hv
  have hh := C47_hour_in_range y m d h mi s us hv ht
  rw [C47_time_arguments y m d h mi s us hv ht] at hh
  obtain ⟨h1, h2, -⟩ := hh
  simp only at h1 h2
  have d1' : (1 : ℝ) ≤ dayNumber y m d := by exact_mod_cast d1
  have d2' : (dayNumber y m d : ℝ) ≤ 3652059 := by exact_mod_cast d2
  unfold centuries
  rw [e1899]
  push_cast
  constructor
  · rw [le_div_iff₀ (by norm_num)]; linarith
  · rw [div_le_iff₀ (by norm_num)]; linarith

theorem e1_range (T : ℝ) (h1 : -19 ≤ T) (h2 : T ≤ 82) : 0 ≤ tideE1 T ∧ tideE1 T ≤ 0.018 := by
  unfold tideE1
  constructor <;> nlinarith

theorem near_schureman (T : ℝ) : NearSchureman T (argsAt T) := by
  have p1 := pi_gt_d20
  have p2 := pi_lt_d20
  have quad : ∀ (a b c x y z : ℝ), |a - x| ≤ 2e-8 → |b - y| ≤ 6e-7 → |c - z| ≤ 1e-9 →
      |a + b * T + c * (T * T) - (x + y * T + z * T ^ 2)| ≤ 2e-8 + 6e-7 * |T| + 1e-9 * T ^ 2 := by
    intro a b c x y z ha hb hc
    have : a + b * T + c * (T * T) - (x + y * T + z * T ^ 2) = (a - x) + (b - y) * T + (c - z) * T ^ 2 := by ring
    rw [this]
    refine (abs_add_three _ _ _).trans ?_
    rw [abs_mul, abs_mul, abs_of_nonneg (sq_nonneg T)]
    gcongr
  have cubic : ∀ (a b c d x y z w : ℝ), |a - x| ≤ 2e-8 → |b - y| ≤ 6e-7 → |c - z| ≤ 1e-9 → |d - w| ≤ 1e-9 →
      |a + b * T + c * (T * T) + d * (T * T * T) - (x + y * T + z * T ^ 2 + w * T ^ 3)| ≤
        2e-8 + 6e-7 * |T| + 1e-9 * T ^ 2 + 1e-9 * |T| ^ 3 := by
    intro a b c d x y z w ha hb hc hd
    have : a + b * T + c * (T * T) + d * (T * T * T) - (x + y * T + z * T ^ 2 + w * T ^ 3) =
      (a + b * T + c * (T * T) - (x + y * T + z * T ^ 2)) + (d - w) * T ^ 3 := by ring
    rw [this]
    refine (abs_add_le _ _).trans ?_
    have h2 : |(d - w) * T ^ 3| ≤ 1e-9 * |T| ^ 3 := by
      rw [abs_mul, abs_pow]
      gcongr
    exact add_le_add (quad a b c x y z ha hb hc) h2
  constructor
  · exact quad _ _ _ _ _ _ (by rw [abs_le]; unfold dms; constructor <;> norm_num <;> linarith)
      (by rw [abs_le]; unfold dms; constructor <;> norm_num <;> linarith)
      (by rw [abs_le]; unfold dms; constructor <;> norm_num <;> linarith)
  · have := cubic 5.835124713 71.01800936 (-0.000180545) (-0.00000021817) (dms 334 19 40.87) (11 * (2 * π) + dms 0 0 392515.94)
      (-dms 0 0 37.24) (-dms 0 0 0.045)
      (by rw [abs_le]; unfold dms; constructor <;> norm_num <;> linarith)
      (by rw [abs_le]; unfold dms; constructor <;> norm_num <;> linarith)
      (by rw [abs_le]; unfold dms; constructor <;> norm_num <;> linarith)
      (by rw [abs_le]; unfold dms; constructor <;> norm_num <;> linarith)
    refine le_trans (le_of_eq ?_) this
    congr 1
    unfold argsAt tideP
    simp only
    ring
  · exact quad _ _ _ _ _ _ (by rw [abs_le]; unfold dms; constructor <;> norm_num <;> linarith)
      (by rw [abs_le]; unfold dms; constructor <;> norm_num <;> linarith)
      (by rw [abs_le]; unfold dms; constructor <;> norm_num <;> linarith)
  · have := quad 4.523588564 (-33.75715303) 0.000036749 (dms 259 10 57.12) (-(5 * (2 * π) + dms 0 0 482912.63)) (dms 0 0 7.58)
      (by rw [abs_le]; unfold dms; constructor <;> norm_num <;> linarith)
      (by rw [abs_le]; unfold dms; constructor <;> norm_num <;> linarith)
      (by rw [abs_le]; unfold dms; constructor <;> norm_num <;> linarith)
    refine le_trans (le_of_eq ?_) this
    congr 1
    unfold argsAt tideN
    simp only
    ring
  · exact quad _ _ _ _ _ _ (by rw [abs_le]; unfold dms; constructor <;> norm_num <;> linarith)
      (by rw [abs_le]; unfold dms; constructor <;> norm_num <;> linarith)
      (by rw [abs_le]; unfold dms; constructor <;> norm_num <;> linarith)
  · show tideE1 T = _
    unfold tideE1
    generalize (0.01675104 : ℝ) = a
    norm_num
    ring

/-- The tide for the arguments of the code. -/
theorem longman_args (y m d : ℕ) (h mi s us : ℤ) (hv : ValidDate y m d) (ht : ValidTime h mi s us) :
    ∀ lon lat alt : ℝ,
      longman [lon] [lat] [utcInstant y m d h mi s us] alt = .ok [some
        (lunarTide (argsAt (centuries y m d h mi s)) lon lat alt (hourOfDay h mi s) + solarTide (argsAt (centuries y m d h mi s)) lon lat alt (hourOfDay h mi s),
          lunarTide (argsAt (centuries y m d h mi s)) lon lat alt (hourOfDay h mi s), solarTide (argsAt (centuries y m d h mi s)) lon lat alt (hourOfDay h mi s))] := by
  intro lon lat alt
  have h1 := C47_time_arguments y m d h mi s us hv ht
  have h2 := C47_hour_in_range y m d h mi s us hv ht
  obtain ⟨q, hq⟩ := centuries_rat y m d h mi s
  obtain ⟨r1, r2⟩ := centuries_range y m d h mi s us hv ht
  obtain ⟨e1, e2⟩ := e1_range _ r1 r2
  rw [hq] at e1 e2
  unfold longman
  rw [if_neg (by simp), if_neg (by simp)]
  simp only [List.zip_cons_cons, List.zip_nil_right, List.map_cons, List.map_nil]
  rw [h2.2.2, h1]
  simp only
  rw [hq, tidePoint_ok lon lat alt _ q e1 e2]

/-- C90.  For every date and time there are mean longitudes, those of Schureman to six digits, from which the tide at every place is the
lunar and solar tide of Longman, with the zenith angles of the moon in its inclined orbit and of the sun. -/
theorem C90_tide_value (y m d : ℕ) (h mi s us : ℤ) (hv : ValidDate y m d) (ht : ValidTime h mi s us) :
    ∃ a, NearSchureman (centuries y m d h mi s) a ∧ ∀ lon lat alt : ℝ,
      longman [lon] [lat] [utcInstant y m d h mi s us] alt = .ok [some
        (lunarTide a lon lat alt (hourOfDay h mi s) + solarTide a lon lat alt (hourOfDay h mi s),
          lunarTide a lon lat alt (hourOfDay h mi s), solarTide a lon lat alt (hourOfDay h mi s))] :=
  ⟨_, near_schureman _, longman_args y m d h mi s us hv ht⟩

/-- C50.  The tide has a value at every point of every track. -/
theorem C50_always_defined (lon lat : List ℝ) (times : List ℤ) (alt : ℝ) (out : List (Option (ℝ × ℝ × ℝ)))
    (htimes : ∀ t ∈ times, ∃ y m d h mi s us, ValidDate y m d ∧ ValidTime h mi s us ∧ t = utcInstant y m d h mi s us)
    (h : longman lon lat times alt = .ok out) : ∀ v ∈ out, v.isSome := by
  intro v hv
  unfold longman at h
  split at h
  · cases h
  · split at h
    · cases h
    · injection h with h
      subst h
      obtain ⟨⟨⟨x, y⟩, t⟩, hm, rfl⟩ := List.mem_map.1 hv
      have htm : t ∈ times := (List.of_mem_zip hm).2
      obtain ⟨y', m, d, h, mi, s, us, w1, w2, hteq⟩ := htimes t htm
      obtain ⟨a, -, ha⟩ := C90_tide_value y' m d h mi s us w1 w2
      have := ha x y alt
      rw [← hteq] at this
      unfold longman at this
      rw [if_neg (by simp), if_neg (by simp)] at this
      simp only [List.zip_cons_cons, List.zip_nil_right, List.map_cons, List.map_nil] at this
      injection this with this
      injection this with this
      simp only
      rw [this]
      rfl

private theorem turn (lon lat alt T hour : ℝ) (k : ℤ) : tidePoint (lon + 360 * k) lat alt T hour = tidePoint lon lat alt T hour := by
  unfold tidePoint
  have e : radians (15 * (hour - 12) - -(lon + 360 * k)) = radians (15 * (hour - 12) - -lon) + k * (2 * π) := by
    unfold radians; ring
  have cz : ∀ lamb I L chi : ℝ, cosZenith lamb I L (chi + k * (2 * π)) = cosZenith lamb I L chi := by
    intro lamb I L chi
    unfold cosZenith
    rw [← sub_sub, cos_sub_int_mul_two_pi, ← add_assoc, cos_add_int_mul_two_pi]
  simp only [e]
  have e2 : ∀ x : ℝ, x + k * (2 * π) + tideH T = (x + tideH T) + k * (2 * π) := by intros; ring
  have e3 : ∀ x nu : ℝ, x + tideH T + k * (2 * π) - nu = (x + tideH T - nu) + k * (2 * π) := by intros; ring
  simp only [e2, e3, cz]

/-- C49.  A whole turn of longitude changes nothing. -/
theorem C49_longitude_mod_360 (lon lat alt : ℝ) (k : ℤ) (t : ℤ) :
    longman [lon + 360 * k] [lat] [t] alt = longman [lon] [lat] [t] alt := by
  unfold longman
  rw [if_neg (by simp), if_neg (by simp), if_neg (by simp), if_neg (by simp)]
  simp only [List.zip_cons_cons, List.zip_nil_right, List.map_cons, List.map_nil]
  rw [turn]

theorem dot_le_one (lat ra : ℝ) (v : V3) (hv : v.x ^ 2 + v.y ^ 2 + v.z ^ 2 = 1) : |(zenith lat ra).dot v| ≤ 1 := by
  have h1 := sin_sq_add_cos_sq lat
  have h2 := sin_sq_add_cos_sq ra
  rw [← sq_le_one_iff_abs_le_one]
  unfold zenith V3.dot
  simp only
  generalize sin lat = a at *
  generalize cos lat = b at *
  generalize sin ra = c at *
  generalize cos ra = e at *
  obtain ⟨x, y, z⟩ := v
  simp only at hv ⊢
  have hu : (b * e) ^ 2 + (b * c) ^ 2 + a ^ 2 = 1 := by
    have : (b * e) ^ 2 + (b * c) ^ 2 = b ^ 2 * (c ^ 2 + e ^ 2) := by ring
    rw [this, h2]; linarith
  generalize b * e = p at *
  generalize b * c = q at *
  nlinarith [sq_nonneg (p * y - q * x), sq_nonneg (p * z - a * x), sq_nonneg (q * z - a * y),
    show (p ^ 2 + q ^ 2 + a ^ 2) * (x ^ 2 + y ^ 2 + z ^ 2) = 1 by rw [hu, hv]; norm_num]

theorem circle_unit (a : ℝ) : (circle a).x ^ 2 + (circle a).y ^ 2 + (circle a).z ^ 2 = 1 := by
  have := sin_sq_add_cos_sq a
  unfold circle
  simp only
  linarith

theorem rotX_unit (a : ℝ) (v : V3) (h : v.x ^ 2 + v.y ^ 2 + v.z ^ 2 = 1) :
    (rotX a v).x ^ 2 + (rotX a v).y ^ 2 + (rotX a v).z ^ 2 = 1 := by
  have := sin_sq_add_cos_sq a
  unfold rotX
  simp only
  linear_combination h + (v.y ^ 2 + v.z ^ 2) * this

theorem rotZ_unit (a : ℝ) (v : V3) (h : v.x ^ 2 + v.y ^ 2 + v.z ^ 2 = 1) :
    (rotZ a v).x ^ 2 + (rotZ a v).y ^ 2 + (rotZ a v).z ^ 2 = 1 := by
  have := sin_sq_add_cos_sq a
  unfold rotZ
  simp only
  linear_combination h + (v.x ^ 2 + v.y ^ 2) * this

private theorem centre_bounds (lat : ℝ) : 0 < centreDist lat 0 ∧ centreDist lat 0 ≤ 6.378270e8 := by
  unfold centreDist
  have h : (1 : ℝ) ≤ √(1 + 0.006738 * sin lat ^ 2) := by
    rw [one_le_sqrt]; nlinarith [sq_nonneg (sin lat)]
  rw [mul_zero, add_zero]
  exact ⟨by positivity, div_le_self (by norm_num) h⟩

theorem lunar_bound (a : Astro) (lon lat hour : ℝ) : |lunarTide a lon lat 0 hour| ≤ 0.17 := by
  obtain ⟨r0, r1⟩ := centre_bounds (lat * (π / 180))
  obtain ⟨i0, i1⟩ := invMoon_bounds a
  have hc : |cosMoon a lon lat hour| ≤ 1 := dot_le_one _ _ _ (rotX_unit _ _ (rotZ_unit _ _ (rotX_unit _ _ (circle_unit _))))
  unfold lunarTide
  simp only
  generalize centreDist (lat * (π / 180)) 0 = r at *
  generalize invMoon a = i at *
  generalize cosMoon a lon lat hour = c at *
  have i0' : 0 ≤ i := le_trans (by norm_num) i0
  obtain ⟨c1, c2⟩ := abs_le.1 hc
  have k1 : |3 * c ^ 2 - 1| ≤ 2 := by rw [abs_le]; constructor <;> nlinarith
  have k2 : |5 * c ^ 3 - 3 * c| ≤ 2 := by
    rw [abs_le]
    constructor
    · nlinarith [mul_nonneg (show 0 ≤ c + 1 by linarith) (show 0 ≤ 5 * c ^ 2 - 5 * c + 2 by nlinarith [sq_nonneg (c - 1/2)])]
    · nlinarith [mul_nonneg (show 0 ≤ 1 - c by linarith) (show 0 ≤ 5 * c ^ 2 + 5 * c + 2 by nlinarith [sq_nonneg (c + 1/2)])]
  have m1 : r * i ^ 3 ≤ 6.378270e8 * (1.0715 / 3.84402e10) ^ 3 := by gcongr
  have m2 : r ^ 2 * i ^ 4 ≤ 6.378270e8 ^ 2 * (1.0715 / 3.84402e10) ^ 4 := by gcongr
  have m1' : 0 ≤ r * i ^ 3 := by positivity
  have m2' : 0 ≤ r ^ 2 * i ^ 4 := by positivity
  rw [mul_assoc, abs_mul]
  have t1 : |6.673e-8 * 7.3537e25 * r * i ^ 3 * (3 * c ^ 2 - 1)| ≤ 6.673e-8 * 7.3537e25 * (6.378270e8 * (1.0715 / 3.84402e10) ^ 3) * 2 := by
    rw [abs_mul, show 6.673e-8 * 7.3537e25 * r * i ^ 3 = 6.673e-8 * 7.3537e25 * (r * i ^ 3) by ring, abs_of_nonneg (by positivity)]
    gcongr
  have t2 : |3 / 2 * (6.673e-8 * 7.3537e25 * r ^ 2 * i ^ 4) * (5 * c ^ 3 - 3 * c)| ≤
      3 / 2 * (6.673e-8 * 7.3537e25 * (6.378270e8 ^ 2 * (1.0715 / 3.84402e10) ^ 4)) * 2 := by
    rw [abs_mul, show 3 / 2 * (6.673e-8 * 7.3537e25 * r ^ 2 * i ^ 4) = 3 / 2 * (6.673e-8 * 7.3537e25 * (r ^ 2 * i ^ 4)) by ring,
      abs_of_nonneg (by positivity)]
    gcongr
  have t3 := (abs_add_le _ _).trans (add_le_add t1 t2)
  have t4 : |(1000 : ℝ) * (1 + 0.612 - 3 / 2 * 0.303)| = 1157.5 := by norm_num
  rw [t4]
  refine (mul_le_mul_of_nonneg_right t3 (by norm_num)).trans ?_
  norm_num

theorem solar_bound (a : Astro) (lon lat hour : ℝ) (h1 : 0 ≤ a.e1) (h2 : a.e1 ≤ 0.018) : |solarTide a lon lat 0 hour| ≤ 0.07 := by
  obtain ⟨r0, r1⟩ := centre_bounds (lat * (π / 180))
  obtain ⟨i0, i1⟩ := invSun_bounds a h1 h2
  have hc : |cosSun a lon lat hour| ≤ 1 := dot_le_one _ _ _ (rotX_unit _ _ (circle_unit _))
  unfold solarTide
  simp only
  generalize centreDist (lat * (π / 180)) 0 = r at *
  generalize invSun a = i at *
  generalize cosSun a lon lat hour = c at *
  have i0' : 0 ≤ i := le_trans (by norm_num) i0
  obtain ⟨c1, c2⟩ := abs_le.1 hc
  have k1 : |3 * c ^ 2 - 1| ≤ 2 := by rw [abs_le]; constructor <;> nlinarith
  have m1 : r * i ^ 3 ≤ 6.378270e8 * (1.02 / 1.495e13) ^ 3 := by gcongr
  have m1' : 0 ≤ r * i ^ 3 := by positivity
  rw [mul_assoc, abs_mul]
  have t1 : |6.673e-8 * 1.993e33 * r * i ^ 3 * (3 * c ^ 2 - 1)| ≤ 6.673e-8 * 1.993e33 * (6.378270e8 * (1.02 / 1.495e13) ^ 3) * 2 := by
    rw [abs_mul, show 6.673e-8 * 1.993e33 * r * i ^ 3 = 6.673e-8 * 1.993e33 * (r * i ^ 3) by ring, abs_of_nonneg (by positivity)]
    gcongr
  have t4 : |(1000 : ℝ) * (1 + 0.612 - 3 / 2 * 0.303)| = 1157.5 := by norm_num
  rw [t4]
  refine (mul_le_mul_of_nonneg_right t1 (by norm_num)).trans ?_
  norm_num

/-- C51.  At sea level the tide is at most 0.24 mGal: 0.17 from the moon and 0.07 from the sun. -/
theorem C51_bounded (lon lat : List ℝ) (times : List ℤ) (out : List (Option (ℝ × ℝ × ℝ)))
    (htimes : ∀ t ∈ times, ∃ y m d h mi s us, ValidDate y m d ∧ ValidTime h mi s us ∧ t = utcInstant y m d h mi s us)
    (h : longman lon lat times 0 = .ok out) : ∀ g, some g ∈ out → |g.1| ≤ 0.24 ∧ |g.2.1| ≤ 0.17 ∧ |g.2.2| ≤ 0.07 := by
  intro g hv
  unfold longman at h
  split at h
  · cases h
  · split at h
    · cases h
    · injection h with h
      subst h
      obtain ⟨⟨⟨x, y⟩, t⟩, hm, hg⟩ := List.mem_map.1 hv
      have htm : t ∈ times := (List.of_mem_zip hm).2
      obtain ⟨y', m, d, h, mi, s, us, w1, w2, hteq⟩ := htimes t htm
      obtain ⟨a, hnear, ha⟩ := C90_tide_value y' m d h mi s us w1 w2
      have := ha x y 0
      rw [← hteq] at this
      unfold longman at this
      rw [if_neg (by simp), if_neg (by simp)] at this
      simp only [List.zip_cons_cons, List.zip_nil_right, List.map_cons, List.map_nil] at this
      injection this with this
      injection this with this
      simp only at hg
      rw [this] at hg
      injection hg with hg
      obtain ⟨r1, r2⟩ := centuries_range y' m d h mi s us w1 w2
      obtain ⟨e1, e2⟩ := e1_range _ r1 r2
      have he : a.e1 = tideE1 (centuries y' m d h mi s) := by
        rw [hnear.e1]; unfold tideE1; generalize (0.01675104 : ℝ) = a; norm_num; ring
      have b1 := lunar_bound a x y (hourOfDay h mi s)
      have b2 := solar_bound a x y (hourOfDay h mi s) (by rw [he]; exact e1) (by rw [he]; exact e2)
      rw [← hg]
      refine ⟨?_, b1, b2⟩
      refine (abs_add_le _ _).trans ?_
      norm_num at b1 b2 ⊢
      linarith

/-! ### The hypotheses can be met -/

private theorem exDate : ValidDate 2023 6 1 := by decide
private theorem exTime : ValidTime 12 30 15 500000 := by decide

example := C90_tide_value 2023 6 1 12 30 15 500000 exDate exTime
example : ∃ g, longman [-150.5] [30] [utcInstant 2023 6 1 12 30 15 500000] 0 = .ok [some g] ∧ |g.1| ≤ 0.24 := by
  obtain ⟨a, -, ha⟩ := C90_tide_value 2023 6 1 12 30 15 500000 exDate exTime
  refine ⟨_, ha _ _ 0, ?_⟩
  exact (C51_bounded _ _ _ _ (by
    intro t ht
    rw [List.mem_singleton] at ht
    exact ⟨_, _, _, _, _, _, _, exDate, exTime, ht⟩) (ha _ _ 0) _ List.mem_cons_self).1

end Shipgrav
