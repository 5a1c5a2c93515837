import Verif.Props.LatCorr
import Verif.Spec.Ellipsoid

/-! C150: the free-air correction and normal gravity belong together (grav.py 303–333). -/

namespace Shipgrav
open Spec Real

private theorem root_ratio (s : ℝ) (h0 : 0 ≤ s) (h1 : s ≤ 1) :
    ∃ ρ, √(1 - wgsE2 * s) = ρ * √(1 - 0.00669437999014 * s) ∧ |ρ - 1| ≤ 1e-10 := by
  have he : |wgsE2 - 0.00669437999014| ≤ 1e-11 := by
    unfold wgsE2 wgsA wgsB
    rw [abs_le]
    constructor <;> norm_num
  obtain ⟨e1, e2⟩ := abs_le.1 he
  have hw : 0.99 ≤ 1 - 0.00669437999014 * s := by norm_num; linarith
  have hW : 0.99 ≤ 1 - wgsE2 * s := by norm_num at *; nlinarith
  have hp : 0 < √(1 - 0.00669437999014 * s) := sqrt_pos.2 (by norm_num at hw ⊢; linarith)
  refine ⟨√(1 - wgsE2 * s) / √(1 - 0.00669437999014 * s), (div_mul_cancel₀ _ hp.ne').symm, ?_⟩
  have hP : 0 < √(1 - wgsE2 * s) := sqrt_pos.2 (by norm_num at hW ⊢; linarith)
  have q1 := sq_sqrt (show 0 ≤ 1 - 0.00669437999014 * s by norm_num at hw ⊢; linarith)
  have q2 := sq_sqrt (show 0 ≤ 1 - wgsE2 * s by norm_num at hW ⊢; linarith)
  have b1 : 0.9 ≤ √(1 - 0.00669437999014 * s) := le_sqrt_of_sq_le (by norm_num at hw ⊢; linarith)
  generalize √(1 - 0.00669437999014 * s) = w at *
  generalize √(1 - wgsE2 * s) = W at *
  have d : (W - w) * (W + w) = (0.00669437999014 - wgsE2) * s := by nlinarith
  have d2 : |W - w| * (W + w) ≤ 1e-11 := by
    rw [← abs_of_pos (add_pos hP hp), ← abs_mul, d, abs_mul, abs_of_nonneg h0, abs_sub_comm]
    calc |wgsE2 - 0.00669437999014| * s ≤ 1e-11 * 1 := by gcongr
      _ = _ := mul_one _
  have : |W - w| * 0.9 ≤ 1e-11 := (mul_le_mul_of_nonneg_left (by linarith) (abs_nonneg _)).trans d2
  rw [show W / w - 1 = (W - w) / w by field_simp, abs_div, abs_of_pos hp, div_le_iff₀ hp]
  have : (1e-10 : ℝ) * 0.9 ≤ 1e-10 * w := by gcongr
  norm_num at *
  linarith

/-- **C150.** The free-air correction is the change of normal gravity with height: its gradient is Bruns' gradient `-γ(1/M + 1/N) - 2ω²`
of the gravity `γ` that `wgs_grav` gives (M, N radii of curvature of the WGS84 ellipsoid, ω the rotation of the earth) and its quadratic term
is `3γ/a²`; up to 0.000012 mGal per metre and the last digits of the quadratic coefficient, at every latitude and height. -/
theorem C150_free_air_gradient (lat h : ℝ) : ∃ γ, wgsGrav lat = some γ ∧
    |freeAir lat h false - (-(γ * (1 / meridianRadius (rad lat) + 1 / normalRadius (rad lat)) + 2 * 7.292115e-5 ^ 2 * 1e5) * h + 3 * γ / wgsA ^ 2 * h ^ 2)| ≤
      1.2e-5 * |h| + 4e-10 * h ^ 2 := by
  have hs0 := sq_nonneg (sin (lat * (π / 180)))
  have hs1 := sin_sq_le_one (lat * (π / 180))
  obtain ⟨ρ, hρ, hρ1⟩ := root_ratio _ hs0 hs1
  obtain ⟨γ, gp, hγ, -, -, g1, g2, g3⟩ := C57_range lat
  refine ⟨γ, hγ, ?_⟩
  have hf := C57_formula lat
  rw [hγ, Option.some.injEq] at hf
  rw [C58_formula]
  unfold meridianRadius normalRadius rad
  rw [hρ]
  have hw0 : 0 < 1 - 0.00669437999014 * sin (lat * (π / 180)) ^ 2 := by norm_num; linarith
  have hw := sqrt_pos.2 hw0
  have q1 := sq_sqrt hw0.le
  have hE : (0 : ℝ) < 1 - wgsE2 := by unfold wgsE2 wgsA wgsB; norm_num
  have hE1 : 1 / (1 - wgsE2) ≤ 1.0067394968 ∧ 1.0067394967 ≤ 1 / (1 - wgsE2) := by
    unfold wgsE2 wgsA wgsB
    constructor <;> norm_num
  have hA : wgsA = 6378137 := by unfold wgsA; norm_num
  have hA0 : (0 : ℝ) < wgsA := by rw [hA]; norm_num
  generalize sin (lat * (π / 180)) ^ 2 = s at *
  generalize √(1 - 0.00669437999014 * s) = w at *
  have hρ0 : 0 < ρ := by have := (abs_le.1 hρ1).1; norm_num at this; linarith
  -- the gradient as a polynomial
  have eg : γ * (1 / (wgsA * (1 - wgsE2) / (ρ * w) ^ 3) + 1 / (wgsA / (ρ * w))) =
      978032.53359 / 6378137 * (1 + 0.00193185265241 * s) * (ρ + ρ ^ 3 * ((1 - 0.00669437999014 * s) * (1 / (1 - wgsE2)))) := by
    rw [hf, ← q1, hA]
    field_simp
    ring
  rw [eg]
  generalize 1 / (1 - wgsE2) = η at *
  obtain ⟨p1, p2⟩ := abs_le.1 hρ1
  have c1 : ρ ≤ 1 + 1e-10 := by linarith
  have c2 : 1 - 1e-10 ≤ ρ := by linarith
  have c3 : ρ ^ 3 ≤ 1 + 4e-10 := (pow_le_pow_left₀ hρ0.le c1 3).trans (by norm_num)
  have c4 : 1 - 4e-10 ≤ ρ ^ 3 := le_trans (by norm_num) (pow_le_pow_left₀ (by norm_num) c2 3)
  obtain ⟨E1, E2⟩ := hE1
  have u1 : ρ ^ 3 * ((1 - 0.00669437999014 * s) * η) ≤ (1 - 0.00669437999014 * s) * 1.0067394968 + 5e-10 := by
    have a1 : (1 - 0.00669437999014 * s) * η ≤ (1 - 0.00669437999014 * s) * 1.0067394968 := by gcongr
    have a2 : ρ ^ 3 * ((1 - 0.00669437999014 * s) * η) ≤ (1 + 4e-10) * ((1 - 0.00669437999014 * s) * 1.0067394968) := by gcongr
    norm_num at *
    nlinarith
  have u2 : (1 - 0.00669437999014 * s) * 1.0067394967 - 5e-10 ≤ ρ ^ 3 * ((1 - 0.00669437999014 * s) * η) := by
    have a1 : (1 - 0.00669437999014 * s) * 1.0067394967 ≤ (1 - 0.00669437999014 * s) * η := by gcongr
    have a2 : (1 - 4e-10) * ((1 - 0.00669437999014 * s) * 1.0067394967) ≤ ρ ^ 3 * ((1 - 0.00669437999014 * s) * η) := by gcongr
    norm_num at *
    nlinarith
  generalize ρ ^ 3 * ((1 - 0.00669437999014 * s) * η) = T at *
  have hk : 0 ≤ 978032.53359 / 6378137 * (1 + 0.00193185265241 * s) := by positivity
  have gr : |(0.3087691 - 0.0004398 * s) - (978032.53359 / 6378137 * (1 + 0.00193185265241 * s) * (ρ + T) + 2 * 7.292115e-5 ^ 2 * 1e5)| ≤ 1.2e-5 := by
    have lo : 978032.53359 / 6378137 * (1 + 0.00193185265241 * s) * (1 - 1e-10 + ((1 - 0.00669437999014 * s) * 1.0067394967 - 5e-10)) ≤
        978032.53359 / 6378137 * (1 + 0.00193185265241 * s) * (ρ + T) := by gcongr
    have hi : 978032.53359 / 6378137 * (1 + 0.00193185265241 * s) * (ρ + T) ≤
        978032.53359 / 6378137 * (1 + 0.00193185265241 * s) * (1 + 1e-10 + ((1 - 0.00669437999014 * s) * 1.0067394968 + 5e-10)) := by gcongr
    generalize 978032.53359 / 6378137 * (1 + 0.00193185265241 * s) * (ρ + T) = G at *
    rw [abs_le]
    norm_num at lo hi ⊢
    constructor <;> nlinarith [mul_nonneg hs0 (sub_nonneg.2 hs1)]
  have qd : |7.2125e-8 - 3 * γ / wgsA ^ 2| ≤ 4e-10 := by
    rw [hA, abs_le]
    norm_num at g1 g3 ⊢
    constructor <;> linarith
  generalize 978032.53359 / 6378137 * (1 + 0.00193185265241 * s) * (ρ + T) + 2 * 7.292115e-5 ^ 2 * 1e5 = G at *
  rw [show -(0.3087691 - 0.0004398 * s) * h + 7.2125e-8 * h ^ 2 - (-G * h + 3 * γ / wgsA ^ 2 * h ^ 2) =
    -(0.3087691 - 0.0004398 * s - G) * h + (7.2125e-8 - 3 * γ / wgsA ^ 2) * h ^ 2 by ring]
  refine (abs_add_le _ _).trans ?_
  rw [abs_mul, abs_mul, abs_neg, abs_of_nonneg (sq_nonneg h)]
  gcongr

/-- **C150.** Under water the gradient is smaller by `4πGρ` with the density of sea water. -/
theorem C150_water_gradient : ∃ ρ : ℝ, 1029 ≤ ρ ∧ ρ ≤ 1030 ∧ ∀ lat h : ℝ,
    freeAir lat h true = freeAir lat h false + 4 * π * 6.673e-11 * ρ * 1e5 * h := by
  refine ⟨0.0863491 / (4 * π * 6.673e-11 * 1e5), ?_, ?_, fun lat h => ?_⟩
  · rw [le_div_iff₀ (by positivity)]
    have := pi_lt_d4
    norm_num at this ⊢
    linarith
  · rw [div_le_iff₀ (by positivity)]
    have := pi_gt_d4
    norm_num at this ⊢
    linarith
  · have := C58_water lat h
    rw [show 4 * π * 6.673e-11 * (0.0863491 / (4 * π * 6.673e-11 * 1e5)) * 1e5 = 0.0863491 by field_simp]
    linarith

-- the radii of curvature at the equator
example : meridianRadius (rad 0) = wgsA * (1 - wgsE2) ∧ normalRadius (rad 0) = wgsA := by
  simp [meridianRadius, normalRadius, rad]

end Shipgrav
