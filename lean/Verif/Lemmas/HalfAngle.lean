import Verif.Lemmas.Interval
import Verif.Lemmas.TideValue

/-! The node of the moon's orbit in double precision: ranges of the constants, and the step from sine and cosine to the angle. -/

namespace Shipgrav
open Spec Real

private theorem omega_range : 0.4092 ≤ radians ((23.452 : ℚ) : ℝ) ∧ radians ((23.452 : ℚ) : ℝ) ≤ 0.4094 := by
  unfold radians
  have h1 := Real.pi_gt_d4
  have h2 := Real.pi_lt_d4
  constructor <;> norm_num <;> linarith

theorem cosOmega_ge : ((0.914 : ℚ) : ℝ) ≤ cos (radians ((23.452 : ℚ) : ℝ)) := by
  obtain ⟨h1, h2⟩ := omega_range
  have h0 : |radians ((23.452 : ℚ) : ℝ)| ≤ 1 := by rw [abs_le]; constructor <;> linarith
  have h := (abs_le.1 (Real.cos_bound h0)).1
  rw [abs_of_nonneg (by linarith)] at h
  generalize radians ((23.452 : ℚ) : ℝ) = x at *
  have x2 : x ^ 2 ≤ 0.4094 ^ 2 := pow_le_pow_left₀ (by linarith) h2 2
  have x4 : x ^ 4 ≤ 0.4094 ^ 4 := pow_le_pow_left₀ (by linarith) h2 4
  norm_num at x2 x4 ⊢
  linarith

theorem cosOmega_le : cos (radians ((23.452 : ℚ) : ℝ)) ≤ ((0.918 : ℚ) : ℝ) := by
  obtain ⟨h1, h2⟩ := omega_range
  have h0 : |radians ((23.452 : ℚ) : ℝ)| ≤ 1 := by rw [abs_le]; constructor <;> linarith
  have h := (abs_le.1 (Real.cos_bound h0)).2
  rw [abs_of_nonneg (by linarith)] at h
  generalize radians ((23.452 : ℚ) : ℝ) = x at *
  have x2 : 0.4092 ^ 2 ≤ x ^ 2 := pow_le_pow_left₀ (by norm_num) h1 2
  have x4 : x ^ 4 ≤ 0.4094 ^ 4 := pow_le_pow_left₀ (by linarith) h2 4
  norm_num at x2 x4 ⊢
  linarith

theorem sinOmega_ge : ((0.396 : ℚ) : ℝ) ≤ sin (radians ((23.452 : ℚ) : ℝ)) := by
  obtain ⟨h1, h2⟩ := omega_range
  have h0 : |radians ((23.452 : ℚ) : ℝ)| ≤ 1 := by rw [abs_le]; constructor <;> linarith
  have h := (abs_le.1 (Real.sin_bound h0)).1
  rw [abs_of_nonneg (by linarith)] at h
  generalize radians ((23.452 : ℚ) : ℝ) = x at *
  have x2 : x ^ 3 ≤ 0.4094 ^ 3 := pow_le_pow_left₀ (by linarith) h2 3
  have x4 : x ^ 5 ≤ 0.4094 ^ 5 := pow_le_pow_left₀ (by linarith) h2 5
  norm_num at x2 x4 ⊢
  linarith

theorem sinOmega_le : sin (radians ((23.452 : ℚ) : ℝ)) ≤ ((0.400 : ℚ) : ℝ) := by
  obtain ⟨h1, h2⟩ := omega_range
  have h0 : |radians ((23.452 : ℚ) : ℝ)| ≤ 1 := by rw [abs_le]; constructor <;> linarith
  have h := (abs_le.1 (Real.sin_bound h0)).2
  rw [abs_of_nonneg (by linarith)] at h
  generalize radians ((23.452 : ℚ) : ℝ) = x at *
  have x2 : 0.4092 ^ 3 ≤ x ^ 3 := pow_le_pow_left₀ (by norm_num) h1 3
  have x4 : x ^ 5 ≤ 0.4094 ^ 5 := pow_le_pow_left₀ (by linarith) h2 5
  norm_num at x2 x4 ⊢
  linarith

theorem cosI_ge : ((0.995 : ℚ) : ℝ) ≤ cos ((0.08979719 : ℚ) : ℝ) := by
  have h := (abs_le.1 (Real.cos_bound (x := ((0.08979719 : ℚ) : ℝ)) (by norm_num))).1
  norm_num at h ⊢
  linarith

theorem cosI_le : cos ((0.08979719 : ℚ) : ℝ) ≤ ((0.997 : ℚ) : ℝ) := by
  have h := (abs_le.1 (Real.cos_bound (x := ((0.08979719 : ℚ) : ℝ)) (by norm_num))).2
  norm_num at h ⊢
  linarith

theorem sinI_ge : ((0.089 : ℚ) : ℝ) ≤ sin ((0.08979719 : ℚ) : ℝ) := by
  have h := (abs_le.1 (Real.sin_bound (x := ((0.08979719 : ℚ) : ℝ)) (by norm_num))).1
  norm_num at h ⊢
  linarith

theorem sinI_le : sin ((0.08979719 : ℚ) : ℝ) ≤ ((0.090 : ℚ) : ℝ) := by
  have h := (abs_le.1 (Real.sin_bound (x := ((0.08979719 : ℚ) : ℝ)) (by norm_num))).2
  norm_num at h ⊢
  linarith

theorem sin_arccos_range {x : ℝ} (h1 : (0.873 : ℝ) ≤ x) (h2 : x ≤ 0.952) : ((0.30 : ℚ) : ℝ) ≤ sin (arccos x) ∧ sin (arccos x) ≤ ((0.49 : ℚ) : ℝ) := by
  rw [Real.sin_arccos]
  constructor
  · apply Real.le_sqrt_of_sq_le
    norm_num
    nlinarith
  · rw [Real.sqrt_le_left (by norm_num)]
    norm_num
    nlinarith

/-- An angle whose sine is small is close to a multiple of half a turn. -/
theorem near_turn {Δ ε : ℝ} (h : |sin Δ| ≤ ε) : ∃ j : ℤ, |Δ - j * π| ≤ 8 / 5 * ε := by
  have hp := Real.pi_pos
  have hp2 := Real.pi_lt_d2
  refine ⟨round (Δ / π), ?_⟩
  obtain ⟨r, hr⟩ : ∃ r, r = Δ - round (Δ / π) * π := ⟨_, rfl⟩
  rw [← hr]
  have h1 : |r| ≤ π / 2 := by
    have := abs_sub_round (Δ / π)
    have e : r = (Δ / π - round (Δ / π)) * π := by rw [hr]; field_simp
    rw [e, abs_mul, abs_of_pos hp]
    calc _ ≤ 1 / 2 * π := mul_le_mul_of_nonneg_right this hp.le
      _ = _ := by ring
  have h2 : |sin r| = |sin Δ| := by
    rw [hr, Real.sin_sub_int_mul_pi, abs_mul, abs_zpow, abs_neg, abs_one, one_zpow, one_mul]
  have h3 : 2 / π * |r| ≤ |sin r| := by
    have h4 := Real.mul_le_sin (abs_nonneg r) h1
    rcases abs_cases r with ⟨e, -⟩ | ⟨e, -⟩
    · rw [e] at h4 ⊢
      exact h4.trans (le_abs_self _)
    · rw [e] at h4 ⊢
      rw [sin_neg] at h4
      exact h4.trans (neg_le_abs _)
  have h5 : 2 / π * |r| ≤ ε := by rw [h2] at h3; exact h3.trans h
  have h6 : |r| ≤ π / 2 * ε := by
    have : |r| = π / 2 * (2 / π * |r|) := by field_simp
    rw [this]
    exact mul_le_mul_of_nonneg_left h5 (by positivity)
  refine h6.trans (mul_le_mul_of_nonneg_right ?_ ((abs_nonneg _).trans h))
  norm_num at hp2
  linarith

/-- Half an angle from its sine `s` and from `X`, one plus its cosine: an angle with the direction of approximations of both is close to it, up to half turns. -/
theorem half_turn {s X s' X' es eX W b : ℝ} (hunit : s ^ 2 = X * (2 - X)) (hX : 0 < X) (hX1 : 2 * (es + eX) ^ 2 ≤ X) (hX2 : |s| ≤ W * X)
    (hs : |s' - s| ≤ es) (hx : |X' - X| ≤ eX) (hb : sin b * X' = cos b * s') : ∃ j : ℤ, |b - arctan (s / X) - j * π| ≤ 8 / 5 * (es + W * eX) := by
  have hes : 0 ≤ es := (abs_nonneg _).trans hs
  have heX : 0 ≤ eX := (abs_nonneg _).trans hx
  obtain ⟨β, hβ⟩ : ∃ β, β = arctan (s / X) := ⟨_, rfl⟩
  rw [← hβ]
  have hcos : 0 < cos β := by rw [hβ]; exact cos_arctan_pos _
  have htan : sin β = s / X * cos β := by
    have h := tan_arctan (s / X)
    rw [← hβ, tan_eq_sin_div_cos, div_eq_iff hcos.ne'] at h
    exact h
  have hsX : X * sin β = s * cos β := by rw [htan]; field_simp
  have hc2 : cos β ^ 2 = X / 2 := by
    have h2 := cos_sq_arctan (s / X)
    rw [← hβ] at h2
    have h3 : 1 + (s / X) ^ 2 = 2 / X := by
      rw [div_pow, hunit]
      field_simp
      ring
    rw [h2, h3]
    field_simp
  have hle : es + eX ≤ cos β := by
    refine le_of_sq_le_sq ?_ hcos.le
    rw [hc2]
    linarith
  have hsin1 := abs_sin_le_one β
  have hcos1 := cos_le_one β
  apply near_turn
  have hu : sin b ^ 2 + cos b ^ 2 = 1 := sin_sq_add_cos_sq b
  obtain ⟨R, hR⟩ : ∃ R, R = X' * cos b + s' * sin b := ⟨_, rfl⟩
  have r1 : X' = R * cos b := by rw [hR]; linear_combination (-X') * hu + sin b * hb
  have r2 : s' = R * sin b := by rw [hR]; linear_combination (-s') * hu - cos b * hb
  have k1 : R * sin (b - β) = (s' - s) * cos β - (X' - X) * sin β := by
    rw [sin_sub]
    linear_combination (-cos β) * r2 + sin β * r1 - hsX
  have k2 : R * cos (b - β) = 2 * cos β + (X' - X) * cos β + (s' - s) * sin β := by
    have : X * cos β + s * sin β = 2 * cos β := by
      rw [htan]
      have : X * cos β + s * (s / X * cos β) = (X ^ 2 + s ^ 2) / X * cos β := by field_simp
      rw [this, hunit]
      field_simp
      ring
    rw [cos_sub]
    linear_combination (-cos β) * r1 - sin β * r2 + this
  have k3 : cos β ≤ |R| := by
    have a1 : |(X' - X) * cos β| ≤ eX := by
      rw [abs_mul, abs_of_pos hcos]
      exact (mul_le_of_le_one_right (abs_nonneg _) hcos1).trans hx
    have a2 : |(s' - s) * sin β| ≤ es := by
      rw [abs_mul]
      exact (mul_le_of_le_one_right (abs_nonneg _) hsin1).trans hs
    have a3 : cos β ≤ R * cos (b - β) := by
      rw [k2]
      linarith [(abs_le.1 a1).1, (abs_le.1 a2).1]
    refine a3.trans ((le_abs_self _).trans ?_)
    rw [abs_mul]
    exact mul_le_of_le_one_right (abs_nonneg _) (abs_cos_le_one _)
  have k4 : |R| * |sin (b - β)| ≤ es * cos β + eX * |sin β| := by
    rw [← abs_mul, k1, sub_eq_add_neg]
    refine (abs_add_le _ _).trans ?_
    rw [abs_neg, abs_mul, abs_mul, abs_of_pos hcos]
    exact add_le_add (mul_le_mul_of_nonneg_right hs hcos.le) (mul_le_mul_of_nonneg_right hx (abs_nonneg _))
  have k5 : |sin β| ≤ W * cos β := by
    rw [htan, abs_mul, abs_of_pos hcos, abs_div, abs_of_pos hX]
    apply mul_le_mul_of_nonneg_right _ hcos.le
    rw [div_le_iff₀ hX]
    exact hX2
  have k6 : cos β * |sin (b - β)| ≤ cos β * (es + W * eX) := by
    have h1 := mul_le_mul_of_nonneg_right k3 (abs_nonneg (sin (b - β)))
    have h2 := mul_le_mul_of_nonneg_left k5 heX
    linarith
  exact le_of_mul_le_mul_left k6 hcos

/-- The angle in double precision.  Although the quotient has a large error when `X` is small, and may even be infinite, the angle has not. -/
theorem half_angle {at' : ℚ → ℚ} {inf : ℚ} (g : ∀ q : ℚ, |(at' q : ℝ) - arctan q| ≤ 1 / 2 ^ 51) (gi : |(inf : ℝ) - π / 2| ≤ 1 / 2 ^ 51)
    {s X : ℝ} {s' X' es es' eX W e : ℚ} (hunit : s ^ 2 = X * (2 - X)) (hX : 0 < X ∧ 2 * ((es' : ℝ) + eX) ^ 2 ≤ X ∧ |s| ≤ W * X)
    (hs : |(s' : ℝ) - s| ≤ (es : ℝ)) (hx : |(X' : ℝ) - X| ≤ (eX : ℝ)) (c : es + vQ * (1 + es) ≤ es' ∧ 8 / 5 * (es' + W * eX) + 2 * vQ ≤ e ∧ e ≤ 1 / 10) :
    ∃ j : ℤ, Iv (-2) 2 e (arctan (s / X) + j * π) (if X' = 0 then (if 0 ≤ s' then inf else -inf) else at' (toDouble (s' / X'))) := by
  obtain ⟨hX0, hX1, hX2⟩ := hX
  obtain ⟨c1, c2, c3⟩ := c
  have hp := Real.pi_pos
  have hp2 := Real.pi_lt_d2
  have c1' : ((es + vQ * (1 + es) : ℚ) : ℝ) ≤ es' := by exact_mod_cast c1
  have c2' : ((8 / 5 * (es' + W * eX) + 2 * vQ : ℚ) : ℝ) ≤ e := by exact_mod_cast c2
  have c3' : (e : ℝ) ≤ ((1 / 10 : ℚ) : ℝ) := by exact_mod_cast c3
  unfold vQ at c1' c2'
  push_cast at c1' c2' c3'
  have hes : (0 : ℝ) ≤ es := (abs_nonneg _).trans hs
  have hs1 : |s| ≤ 1 := by
    rw [← sq_le_one_iff_abs_le_one, hunit]
    nlinarith only [sq_nonneg (X - 1)]
  have hs'1 : |(s' : ℝ)| ≤ 1 + es := by
    have : (s' : ℝ) = s + (s' - s) := by ring
    rw [this]
    exact (abs_add_le _ _).trans (add_le_add hs1 hs)
  -- an angle `b` with the direction, near the value of the library
  have key : ∃ b t : ℝ, |(((if X' = 0 then (if 0 ≤ s' then inf else -inf) else at' (toDouble (s' / X'))) : ℚ) : ℝ) - b| ≤ 1 / 2 ^ 51 ∧ |b| ≤ π / 2 ∧
      sin b * X' = cos b * t ∧ |t - s| ≤ es' := by
    by_cases h0 : X' = 0
    · rw [if_pos h0]
      have hsd : |(s' : ℝ) - s| ≤ es' := by
        have : (0 : ℝ) ≤ 1 / 2 ^ 52 * (1 + es) := by positivity
        linarith
      split
      · refine ⟨π / 2, s', gi, by rw [abs_of_pos (by positivity)], ?_, hsd⟩
        rw [h0, cos_pi_div_two]; simp
      · refine ⟨-(π / 2), s', ?_, by rw [abs_neg, abs_of_pos (by positivity)], ?_, hsd⟩
        · have : ((-inf : ℚ) : ℝ) - -(π / 2) = -(inf - π / 2) := by push_cast; ring
          rw [this, abs_neg]
          exact gi
        · rw [h0, cos_neg, cos_pi_div_two]; simp
    · rw [if_neg h0]
      have h0' : (X' : ℝ) ≠ 0 := by exact_mod_cast h0
      refine ⟨arctan ((toDouble (s' / X') : ℚ) : ℝ), (toDouble (s' / X') : ℚ) * X', g _, ?_, ?_, ?_⟩
      · rw [abs_le]
        exact ⟨(neg_pi_div_two_lt_arctan _).le, (arctan_lt_pi_div_two _).le⟩
      · have h := tan_arctan ((toDouble (s' / X') : ℚ) : ℝ)
        rw [tan_eq_sin_div_cos, div_eq_iff (cos_arctan_pos _).ne'] at h
        rw [h]
        ring
      · have hr := rnd_err (δ := 1 / 2 ^ 52) le_rfl (s' / X') ((s' / X' : ℚ) : ℝ) (e := 0) (by simp) le_rfl
        rw [zero_add, add_zero] at hr
        have h1 : |((toDouble (s' / X') : ℚ) : ℝ) * X' - s'| ≤ 1 / 2 ^ 52 * (1 + es) := by
          have : ((toDouble (s' / X') : ℚ) : ℝ) * X' - s' = (((toDouble (s' / X') : ℚ) : ℝ) - ((s' / X' : ℚ) : ℝ)) * X' := by
            push_cast
            field_simp
          rw [this, abs_mul]
          refine (mul_le_mul_of_nonneg_right hr (abs_nonneg _)).trans ?_
          rw [mul_assoc, ← abs_mul]
          apply mul_le_mul_of_nonneg_left _ (by positivity)
          have : ((s' / X' : ℚ) : ℝ) * X' = s' := by push_cast; field_simp
          rw [this]
          exact hs'1
        have : ((toDouble (s' / X') : ℚ) : ℝ) * X' - s = (((toDouble (s' / X') : ℚ) : ℝ) * X' - s') + (s' - s) := by ring
        rw [this]
        refine (abs_add_le _ _).trans ?_
        linarith
  obtain ⟨b, t, hb1, hb2, hb3, hb4⟩ := key
  generalize (if X' = 0 then (if 0 ≤ s' then inf else -inf) else at' (toDouble (s' / X'))) = z at hb1
  obtain ⟨j, hj⟩ := half_turn hunit hX0 hX1 hX2 hb4 hx hb3
  refine ⟨j, ?_⟩
  have hz : |(z : ℝ) - (arctan (s / X) + j * π)| ≤ e := by
    have : (z : ℝ) - (arctan (s / X) + j * π) = (z - b) + (b - arctan (s / X) - j * π) := by ring
    rw [this]
    refine (abs_add_le _ _).trans ?_
    linarith
  have hb5 := abs_le.1 hb2
  have hj' := abs_le.1 hj
  have hε : 8 / 5 * ((es' : ℝ) + W * eX) ≤ 1 / 10 := by
    have : (0 : ℝ) ≤ 2 * (1 / 2 ^ 52) := by positivity
    linarith
  norm_num at hp2
  refine ⟨?_, ?_, hz⟩
  · push_cast; linarith
  · push_cast; linarith

/-- The inclination of the moon's orbit to the equator, as computed exactly. -/
noncomputable def nodeI (N : ℝ) : ℝ :=
  arccos (cos (radians ((23.452 : ℚ) : ℝ)) * cos ((0.08979719 : ℚ) : ℝ) - sin (radians ((23.452 : ℚ) : ℝ)) * sin ((0.08979719 : ℚ) : ℝ) * cos N)

/-- Right ascension of the node, as computed exactly. -/
noncomputable def nodeNu (N : ℝ) : ℝ := arcsin (sin ((0.08979719 : ℚ) : ℝ) * sin N / sin (nodeI N))

/-- Sine and cosine of `alpha`: they are those of an angle, and far enough from those of 180° unless the node is at 180°. -/
theorem alpha_facts {N σ : ℝ} (h0 : 0 < σ) (h1 : σ ≤ 1) (hc : σ ≤ |sin N| ∨ 0 ≤ cos N) :
    (sin (radians ((23.452 : ℚ) : ℝ)) * sin N / sin (nodeI N)) ^ 2 =
        (((1 : ℚ) : ℝ) + (cos N * cos (nodeNu N) + sin N * sin (nodeNu N) * cos (radians ((23.452 : ℚ) : ℝ)))) *
          (2 - (((1 : ℚ) : ℝ) + (cos N * cos (nodeNu N) + sin N * sin (nodeNu N) * cos (radians ((23.452 : ℚ) : ℝ))))) ∧
      (0 < ((1 : ℚ) : ℝ) + (cos N * cos (nodeNu N) + sin N * sin (nodeNu N) * cos (radians ((23.452 : ℚ) : ℝ))) ∧
        0.32 * σ ^ 2 ≤ ((1 : ℚ) : ℝ) + (cos N * cos (nodeNu N) + sin N * sin (nodeNu N) * cos (radians ((23.452 : ℚ) : ℝ))) ∧
        |sin (radians ((23.452 : ℚ) : ℝ)) * sin N / sin (nodeI N)| ≤
          2.5 / σ * (((1 : ℚ) : ℝ) + (cos N * cos (nodeNu N) + sin N * sin (nodeNu N) * cos (radians ((23.452 : ℚ) : ℝ))))) := by
  have b1 := cosOmega_ge
  have b2 := cosOmega_le
  have a1 := sinOmega_ge
  have a2 := sinOmega_le
  have c1 := cosI_ge
  have c2 := cosI_le
  have s1 := sinI_ge
  have s2 := sinI_le
  have e1 := sin_sq_add_cos_sq (radians ((23.452 : ℚ) : ℝ))
  have e2 := sin_sq_add_cos_sq ((0.08979719 : ℚ) : ℝ)
  have e3 := cos_sq_add_sin_sq N
  have n1 := neg_one_le_cos N
  have n2 := cos_le_one N
  obtain ⟨I, hI⟩ : ∃ I, I = nodeI N := ⟨_, rfl⟩
  obtain ⟨nu, hnu⟩ : ∃ nu, nu = nodeNu N := ⟨_, rfl⟩
  rw [← hI, ← hnu]
  have hI' := hI
  unfold nodeI at hI
  unfold nodeNu at hnu
  rw [← hI'] at hnu
  generalize sin (radians ((23.452 : ℚ) : ℝ)) = a at *
  generalize cos (radians ((23.452 : ℚ) : ℝ)) = b at *
  generalize sin ((0.08979719 : ℚ) : ℝ) = s at *
  generalize cos ((0.08979719 : ℚ) : ℝ) = c at *
  generalize cos N = n at *
  generalize sin N = m at *
  clear hI'
  norm_num at a1 a2 b1 b2 c1 c2 s1 s2
  have hbc1 : 0.909 ≤ b * c := by nlinarith only [b1, c1]
  have hbc2 : b * c ≤ 0.916 := by nlinarith only [b1, b2, c1, c2]
  have has0 : 0 ≤ a * s := by positivity
  have has : a * s ≤ 0.036 := by nlinarith only [a1, a2, s1, s2]
  have hasn : |a * s * n| ≤ 0.036 := by
    rw [abs_mul, abs_of_nonneg has0]
    have : |n| ≤ 1 := abs_le.2 ⟨n1, n2⟩
    nlinarith only [abs_nonneg n, this, has, has0]
  have hx1 : 0.873 ≤ b * c - a * s * n := by have := (abs_le.1 hasn).2; linarith only [this, hbc1]
  have hx2 : b * c - a * s * n ≤ 0.952 := by have := (abs_le.1 hasn).1; linarith only [this, hbc2]
  obtain ⟨S1, S2⟩ := sin_arccos_range hx1 hx2
  rw [← hI] at S1 S2
  norm_num at S1 S2
  have hcosI : cos I = b * c - a * s * n := by rw [hI]; exact cos_arccos (by linarith only [hx1]) (by linarith only [hx2])
  have hsq := node_sq a b s c n m e1 e2 e3
  have hsin2 : sin I ^ 2 = (s * m) ^ 2 + (a * c + b * s * n) ^ 2 := by
    have := sin_sq_add_cos_sq I
    rw [hcosI] at this
    linarith
  clear hI hcosI hx1 hx2 hsq hasn
  generalize sin I = S at *
  have hS : 0 < S := by linarith
  have hcv : 0 < a * c + b * s * n := by
    have h1 : b * s ≤ 0.0827 := by nlinarith only [b1, b2, s1, s2]
    have h2 : 0.39 ≤ a * c := by nlinarith only [a1, c1]
    have h3 : 0 ≤ b * s := by positivity
    have h4 : -(b * s) ≤ b * s * n := by nlinarith only [n1, h3]
    linarith only [h1, h2, h4]
  have hq : |s * m / S| ≤ 1 := by
    rw [abs_div, abs_of_pos hS, div_le_one hS]
    apply abs_le_of_sq_le_sq _ hS.le
    rw [hsin2]
    nlinarith only [sq_nonneg (a * c + b * s * n)]
  have hsnu : sin nu = s * m / S := by rw [hnu]; exact sin_arcsin (abs_le.1 hq).1 (abs_le.1 hq).2
  have hcnu0 : 0 ≤ cos nu := by rw [hnu]; exact cos_arcsin_nonneg _
  have hcnu : cos nu = (a * c + b * s * n) / S := by
    have h1 : cos nu ^ 2 = ((a * c + b * s * n) / S) ^ 2 := by
      have := sin_sq_add_cos_sq nu
      rw [hsnu] at this
      rw [div_pow, eq_div_iff (by positivity)]
      rw [div_pow] at this
      field_simp at this
      rw [hsin2] at this ⊢
      linarith
    exact (sq_eq_sq₀ hcnu0 (by positivity)).1 h1
  have hca : n * cos nu + m * sin nu * b = (a * c * n + b * s) / S := by
    rw [hcnu, hsnu]
    field_simp
    have hm : m ^ 2 = 1 - n ^ 2 := by linarith
    linear_combination (b * s) * hm
  have hunit := node_alpha a b s c n m S hS e1 e2 e3 hsin2
  rw [hca]
  have hpos : 0 ≤ n → 0 ≤ (a * c * n + b * s) / S := fun h => by positivity
  have hsa : 0.808 * |m| ≤ |a * m / S| := by
    rw [abs_div, abs_mul, abs_of_pos hS, abs_of_nonneg (by linarith : 0 ≤ a), le_div_iff₀ hS]
    have h1 : 0.808 * S ≤ a := by linarith only [S2, a1]
    have h2 := mul_le_mul_of_nonneg_right h1 (abs_nonneg m)
    linarith only [h2]
  generalize (a * c * n + b * s) / S = ca at *
  generalize a * m / S = sa at *
  push_cast
  have hu2 : sa ^ 2 = (1 + ca) * (2 - (1 + ca)) := by linarith
  refine ⟨hu2, ?_⟩
  have hge : -1 ≤ ca := by nlinarith only [hunit, sq_nonneg sa, sq_nonneg (ca - 1)]
  have hsa1 : |sa| ≤ 1 := by
    rw [← sq_le_one_iff_abs_le_one]
    nlinarith only [hunit, sq_nonneg ca]
  rw [div_mul_eq_mul_div, le_div_iff₀ h0]
  rcases hc with h | h
  · have k1 : 0.808 * σ ≤ |sa| := (mul_le_mul_of_nonneg_left h (by norm_num)).trans hsa
    have k2 : |sa| ^ 2 / 2 ≤ 1 + ca := by
      rw [sq_abs, hu2]
      nlinarith only [sq_nonneg (1 + ca)]
    have k3 : 0.808 * σ * |sa| ≤ |sa| ^ 2 := by
      rw [sq]
      exact mul_le_mul_of_nonneg_right k1 (abs_nonneg _)
    have k4 : 0.808 * σ * (0.808 * σ) ≤ 0.808 * σ * |sa| := mul_le_mul_of_nonneg_left k1 (by positivity)
    have k5 : 0 < σ ^ 2 := by positivity
    have k6 : 0 < |sa| * σ := mul_pos (lt_of_lt_of_le (by positivity) k1) h0
    refine ⟨by nlinarith only [k2, k3, k4, k5], by nlinarith only [k2, k3, k4, k5], by nlinarith only [k2, k3, k6]⟩
  · have h3 := hpos h
    have h4 : σ ^ 2 ≤ 1 := pow_le_one₀ h0.le h1
    have h5 : |sa| * σ ≤ 1 := by
      calc |sa| * σ ≤ 1 * 1 := mul_le_mul hsa1 h1 h0.le zero_le_one
        _ = 1 := one_mul 1
    refine ⟨by linarith only [h3], by linarith only [h3, h4], by linarith only [h3, h5]⟩

end Shipgrav
