import Verif.Lemmas.TiltCoeffs
import Verif.Model.LatCorr
import Verif.Model.LatCorrFloat

/-! The latitude corrections in double precision. -/

namespace Shipgrav
open Spec Real

theorem deg2radF_err (lat : ℚ) (h : |lat| ≤ 90) : |(deg2radF lat : ℝ) - radians lat| ≤ 5 * (1 / 2 ^ 52) := by
  have n1 := near_toDouble (near_pi.div (near_self 180))
  have n2 := near_toDouble ((near_self lat).mul n1)
  have e := n2.err (by positivity) (by norm_num)
  have h' : |(lat : ℝ)| ≤ 90 := by exact_mod_cast h
  have e2 : (lat : ℝ) * (π / ((180 : ℚ) : ℝ)) = radians lat := by unfold radians; norm_num
  rw [e2] at e
  refine e.trans ?_
  have e3 : |radians (lat : ℝ)| ≤ 1.6 := by
    unfold radians
    have hπ := Real.pi_lt_d2
    have hp := Real.pi_pos
    rw [abs_mul, abs_of_pos (by positivity : 0 < π / 180)]
    calc |(lat : ℝ)| * (π / 180) ≤ 90 * (π / 180) := mul_le_mul_of_nonneg_right h' (by positivity)
      _ ≤ 1.6 := by linarith
  calc _ ≤ 101 / 100 * (0 + (1 / 2 ^ 52 + 0 + 1 / 2 ^ 52) + 1 / 2 ^ 52) * (1.6 : ℝ) := mul_le_mul_of_nonneg_left e3 (by positivity)
    _ ≤ _ := by norm_num

theorem sinSqF_err (lm : LatLibm) (hs : GoodSin lm.sin) (hq : GoodSqr lm.sqr) (lat : ℚ) (h : |lat| ≤ 90) :
    |(sinSqF lm lat : ℝ) - sin (radians lat) ^ 2| ≤ 17 * (1 / 2 ^ 52) := by
  obtain ⟨v, hv⟩ : ∃ v : ℝ, v = 1 / 2 ^ 52 := ⟨_, rfl⟩
  have hv0 : 0 < v := by rw [hv]; positivity
  have hv1 : v ≤ 1 / 10 ^ 6 := by rw [hv]; norm_num
  have e1 := deg2radF_err lat h
  unfold sinSqF
  generalize deg2radF lat = q at e1
  have h' : |(lat : ℝ)| ≤ 90 := by exact_mod_cast h
  have hθ : |radians (lat : ℝ)| ≤ 1.6 := by
    unfold radians
    have hπ := Real.pi_lt_d2
    have hp := Real.pi_pos
    rw [abs_mul, abs_of_pos (by positivity : 0 < π / 180)]
    calc |(lat : ℝ)| * (π / 180) ≤ 90 * (π / 180) := mul_le_mul_of_nonneg_right h' (by positivity)
      _ ≤ 1.6 := by linarith
  generalize radians (lat : ℝ) = θ at e1 hθ
  rw [← hv] at e1 ⊢
  have hq2 : |(q : ℝ)| ≤ 2 := by
    have : (q : ℝ) = θ + (q - θ) := by ring
    rw [this]
    refine (abs_add_le _ _).trans ?_
    norm_num at hv1 hθ ⊢
    linarith
  have e2 : |sin (q : ℝ) - sin θ| ≤ 5 * v := by
    refine le_trans ?_ e1
    have := Real.sin_sub_sin (q : ℝ) θ
    rw [this, abs_mul, abs_mul, abs_two]
    have b1 : |sin (((q : ℝ) - θ) / 2)| ≤ |((q : ℝ) - θ) / 2| := Real.abs_sin_le_abs
    have b2 := Real.abs_cos_le_one (((q : ℝ) + θ) / 2)
    rw [abs_div, abs_two] at b1
    have := mul_le_mul b1 b2 (abs_nonneg _) (by positivity)
    linarith
  have e3 := hs q hq2
  have e4 := hq (lm.sin q)
  generalize lm.sqr (lm.sin q) = w at e4
  generalize lm.sin q = s at e3 e4
  have hv51 : (1 : ℝ) / 2 ^ 51 = 2 * v := by rw [hv]; norm_num
  have hs1 := Real.abs_sin_le_one (q : ℝ)
  have e5 : |(s : ℝ) - sin θ| ≤ 7 * v := by
    have : |sin (q : ℝ)| / 2 ^ 51 ≤ 2 * v := by
      rw [div_eq_mul_one_div, hv51]
      calc |sin (q : ℝ)| * (2 * v) ≤ 1 * (2 * v) := mul_le_mul_of_nonneg_right hs1 (by positivity)
        _ = _ := by ring
    have := e3.trans this
    rw [abs_le] at *
    constructor <;> linarith
  have hσ := Real.abs_sin_le_one θ
  generalize sin θ = σ at e5 hσ
  generalize (s : ℝ) = x at e4 e5
  have e6 : |x ^ 2 - σ ^ 2| ≤ 15 * v := by
    have : x ^ 2 - σ ^ 2 = (x - σ) * (2 * σ + (x - σ)) := by ring
    rw [this, abs_mul]
    have b : |2 * σ + (x - σ)| ≤ 2 + 7 * v := by
      refine (abs_add_le _ _).trans ?_
      rw [abs_mul, abs_two]
      linarith
    have := mul_le_mul e5 b (abs_nonneg _) (by positivity)
    nlinarith
  have hσ2 : σ ^ 2 ≤ 1 := by rw [← sq_abs]; nlinarith [abs_nonneg σ]
  rw [div_eq_mul_one_div, ← hv] at e4
  rw [abs_le] at *
  have : x ^ 2 * v ≤ 2 * v := mul_le_mul_of_nonneg_right (by linarith) hv0.le
  constructor <;> linarith

/-- A rounded constant of the source times the squared sine, rounded. -/
theorem constMul_err {s : ℚ} {σ C : ℝ} (hs : |(s : ℝ) - σ| ≤ 17 * (1 / 2 ^ 52)) (h0 : 0 ≤ σ) (h1 : σ ≤ 1) (c : ℚ) (c0 : 0 ≤ c) (hC : (c : ℝ) ≤ C) :
    |(toDouble (toDouble c * s) : ℝ) - c * σ| ≤ 20 * C * (1 / 2 ^ 52) := by
  obtain ⟨v, hv⟩ : ∃ v : ℝ, v = 1 / 2 ^ 52 := ⟨_, rfl⟩
  have hv0 : 0 < v := by rw [hv]; positivity
  have hv1 : v ≤ 1 / 10 ^ 6 := by rw [hv]; norm_num
  have c0' : (0 : ℝ) ≤ c := by exact_mod_cast c0
  have hCn : 0 ≤ C := c0'.trans hC
  have e1 := toDouble_err c
  rw [← hv] at hs e1 ⊢
  rw [abs_of_nonneg c0'] at e1
  have e1' : |(toDouble c : ℝ) - c| ≤ v * C := e1.trans (mul_le_mul_of_nonneg_left hC hv0.le)
  have hs2 : |(s : ℝ)| ≤ 1 + 17 * v := by
    have : (s : ℝ) = σ + (s - σ) := by ring
    rw [this]
    refine (abs_add_le _ _).trans ?_
    rw [abs_of_nonneg h0]
    linarith
  have hvC : 0 ≤ v * C := by positivity
  have e2 : |((toDouble c * s : ℚ) : ℝ) - c * σ| ≤ 181 / 10 * (v * C) := by
    have : ((toDouble c * s : ℚ) : ℝ) - c * σ = (toDouble c - c) * s + c * (s - σ) := by push_cast; ring
    rw [this]
    refine (abs_add_le _ _).trans ?_
    rw [abs_mul, abs_mul, abs_of_nonneg c0']
    have b1 := mul_le_mul e1' hs2 (abs_nonneg _) hvC
    have b2 := mul_le_mul hC hs (abs_nonneg _) hCn
    have b3 : v * (v * C) ≤ 1 / 10 ^ 6 * (v * C) := mul_le_mul_of_nonneg_right hv1 hvC
    nlinarith
  have e3 : |(c : ℝ) * σ| ≤ C := by
    rw [abs_mul, abs_of_nonneg c0', abs_of_nonneg h0]
    calc (c : ℝ) * σ ≤ C * 1 := mul_le_mul hC h1 h0 hCn
      _ = C := mul_one _
  refine (rnd_err (δ := v) hv.ge _ _ e2 e3).trans ?_
  have b3 : v * (v * C) ≤ 1 / 10 ^ 6 * (v * C) := mul_le_mul_of_nonneg_right hv1 hvC
  nlinarith

/-- Two numbers near 1. -/
theorem near_of_abs {u : ℚ} {x d : ℝ} (hx : 99 / 100 ≤ x) (hd : d ≤ 1 / 100) (h : |(u : ℝ) - x| ≤ d) : Near (21 / 10 * d) u x := by
  have hd0 : 0 ≤ d := (abs_nonneg _).trans h
  have := near_of_rel (u := u) (x := x) (d := 21 / 20 * d) (by linarith) (by linarith) (by
    rw [abs_of_pos (by linarith : 0 < x)]
    refine h.trans ?_
    nlinarith)
  convert this using 1
  ring

end Shipgrav
