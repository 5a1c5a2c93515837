import Mathlib.Analysis.Fourier.Inversion
import Mathlib.Analysis.SpecialFunctions.ImproperIntegrals
import Mathlib.Analysis.Complex.Isometry
import Mathlib.MeasureTheory.Integral.ExpDecay
import Mathlib.MeasureTheory.Measure.Lebesgue.Complex
import Mathlib.MeasureTheory.Measure.Haar.InnerProductSpace
import Mathlib.MeasureTheory.Integral.Prod
import Verif.Spec.Newton

/-! Newton's law for mass that is spread over a plane in waves: the integrals. -/

namespace Shipgrav
open Real MeasureTheory Set Filter Topology FourierTransform

/-! ### The Fourier transform of a Lorentz curve -/

section
variable {z : ℝ}

private theorem f_pos {x : ℝ} (hx : 0 < x) (w : ℝ) : Complex.exp (↑(-2 * π * x * w) * Complex.I) • ((exp (-(z * |x|)) : ℝ) : ℂ) =
    Complex.exp ((-z - 2 * π * w * Complex.I) * x) := by
  rw [abs_of_pos hx, smul_eq_mul, Complex.ofReal_exp, ← Complex.exp_add]
  congr 1
  push_cast
  ring

private theorem f_neg {x : ℝ} (hx : x ≤ 0) (w : ℝ) : Complex.exp (↑(-2 * π * x * w) * Complex.I) • ((exp (-(z * |x|)) : ℝ) : ℂ) =
    Complex.exp ((z - 2 * π * w * Complex.I) * x) := by
  rw [abs_of_nonpos hx, smul_eq_mul, Complex.ofReal_exp, ← Complex.exp_add]
  congr 1
  push_cast
  ring

private theorem re_neg (w : ℝ) : (-z - 2 * π * w * Complex.I : ℂ).re = -z := by simp
private theorem re_pos (w : ℝ) : (z - 2 * π * w * Complex.I : ℂ).re = z := by simp

private theorem laplace_integrable (hz : 0 < z) (w : ℝ) :
    Integrable fun x : ℝ => Complex.exp (↑(-2 * π * x * w) * Complex.I) • ((exp (-(z * |x|)) : ℝ) : ℂ) := by
  rw [← integrableOn_univ, ← Iic_union_Ioi (a := (0 : ℝ))]
  apply IntegrableOn.union
  · exact (integrableOn_exp_mul_complex_Iic (by rw [re_pos]; exact hz) 0).congr_fun (fun x hx => (f_neg hx w).symm) measurableSet_Iic
  · exact (integrableOn_exp_mul_complex_Ioi (by rw [re_neg]; linarith) 0).congr_fun (fun x hx => (f_pos hx w).symm) measurableSet_Ioi

private theorem laplace_fourier (hz : 0 < z) : 𝓕 (fun x : ℝ => ((exp (-(z * |x|)) : ℝ) : ℂ)) = fun w => ((2 * z / (z ^ 2 + (2 * π * w) ^ 2) : ℝ) : ℂ) := by
  ext w
  rw [Real.fourier_real_eq_integral_exp_smul,
    ← intervalIntegral.integral_Iic_add_Ioi (b := (0 : ℝ)) (laplace_integrable hz w).integrableOn (laplace_integrable hz w).integrableOn,
    setIntegral_congr_fun measurableSet_Iic (fun x hx => f_neg hx w), setIntegral_congr_fun measurableSet_Ioi (fun x hx => f_pos hx w),
    integral_exp_mul_complex_Iic (by rw [re_pos]; exact hz), integral_exp_mul_complex_Ioi (by rw [re_neg]; linarith)]
  have h1 : (z - 2 * π * w * Complex.I : ℂ) ≠ 0 := fun h => by
    have := congrArg Complex.re h
    rw [re_pos] at this
    simp at this
    linarith
  have h2 : (-z - 2 * π * w * Complex.I : ℂ) ≠ 0 := fun h => by
    have := congrArg Complex.re h
    rw [re_neg] at this
    simp at this
    linarith
  have h3 : (z ^ 2 + (2 * π * w) ^ 2 : ℝ) ≠ 0 := by positivity
  have h4 : ((z : ℂ) ^ 2 + (2 * π * w) ^ 2) ≠ 0 := by exact_mod_cast h3
  simp only [Complex.ofReal_zero, mul_zero, Complex.exp_zero]
  push_cast
  have e : (z - 2 * π * w * Complex.I : ℂ) * (-z - 2 * π * w * Complex.I) = -((z : ℂ) ^ 2 + (2 * π * w) ^ 2) := by
    have := Complex.I_sq
    linear_combination (4 * π ^ 2 * w ^ 2 : ℂ) * this
  rw [div_add_div _ _ h1 h2, e, div_eq_div_iff (neg_ne_zero.2 h4) h4]
  ring

private theorem lorentz_integrable (hz : 0 < z) : Integrable fun x : ℝ => z / (x ^ 2 + z ^ 2) := by
  have h := (integrable_inv_one_add_sq.comp_div hz.ne').const_mul z⁻¹
  refine h.congr (ae_of_all _ fun x => ?_)
  show z⁻¹ * (1 + (x / z) ^ 2)⁻¹ = _
  field_simp
  ring

/-- `∫ exp(i k x) z/(x² + z²) dx = π exp(-z |k|)`. -/
theorem lorentz_fourier (hz : 0 < z) (k : ℝ) :
    ∫ x : ℝ, Complex.exp (k * x * Complex.I) * ((z / (x ^ 2 + z ^ 2) : ℝ) : ℂ) = ((π * exp (-(z * |k|)) : ℝ) : ℂ) := by
  have hc : Continuous fun x : ℝ => ((exp (-(z * |x|)) : ℝ) : ℂ) := by fun_prop
  have hi : Integrable fun x : ℝ => ((exp (-(z * |x|)) : ℝ) : ℂ) := by
    have := laplace_integrable hz 0
    simpa using this
  have hF : Integrable (𝓕 fun x : ℝ => ((exp (-(z * |x|)) : ℝ) : ℂ)) := by
    rw [laplace_fourier hz]
    have h := ((lorentz_integrable hz).comp_mul_left' (by positivity : (2 * π : ℝ) ≠ 0)).const_mul 2
    refine h.ofReal.congr (ae_of_all _ fun x => ?_)
    show (((2 * (z / ((2 * π * x) ^ 2 + z ^ 2)) : ℝ)) : ℂ) = _
    congr 1
    rw [add_comm ((2 * π * x) ^ 2)]
    ring
  have hinv := congrFun (hc.fourierInv_fourier_eq hi hF) k
  rw [Real.fourierInv_eq', laplace_fourier hz] at hinv
  have hsub := Measure.integral_comp_mul_left (fun x : ℝ => Complex.exp (k * x * Complex.I) * ((z / (x ^ 2 + z ^ 2) : ℝ) : ℂ)) (2 * π)
  have e : ∀ v : ℝ, Complex.exp (↑(2 * π * inner ℝ v k) * Complex.I) • ((2 * z / (z ^ 2 + (2 * π * v) ^ 2) : ℝ) : ℂ) =
      2 * (Complex.exp (k * ((2 * π * v : ℝ) : ℂ) * Complex.I) * ((z / ((2 * π * v) ^ 2 + z ^ 2) : ℝ) : ℂ)) := by
    intro v
    have a1 : (↑(2 * π * inner ℝ v k) * Complex.I : ℂ) = k * ((2 * π * v : ℝ) : ℂ) * Complex.I := by
      rw [RCLike.inner_apply, conj_trivial]
      push_cast
      ring
    have a2 : ((2 * z / (z ^ 2 + (2 * π * v) ^ 2) : ℝ) : ℂ) = 2 * ((z / ((2 * π * v) ^ 2 + z ^ 2) : ℝ) : ℂ) := by
      rw [add_comm (z ^ 2)]
      push_cast
      ring
    rw [a1, a2, smul_eq_mul]
    ring
  simp_rw [e] at hinv
  rw [integral_const_mul, hsub, abs_of_pos (by positivity), Complex.real_smul] at hinv
  have hp : (π : ℂ) ≠ 0 := by exact_mod_cast pi_ne_zero
  rw [Complex.ofReal_mul, ← hinv]
  generalize (∫ y : ℝ, Complex.exp (k * y * Complex.I) * ((z / (y ^ 2 + z ^ 2) : ℝ) : ℂ)) = J
  push_cast
  field_simp

end

/-! ### A line of mass -/

private theorem cube_le {c : ℝ} (hc : 0 < c) (y : ℝ) : 1 / √(y ^ 2 + c) ^ 3 ≤ 1 / c * (√c / (y ^ 2 + √c ^ 2)) := by
  have h0 : 0 < y ^ 2 + c := by positivity
  have h1 : √c ≤ √(y ^ 2 + c) := sqrt_le_sqrt (by nlinarith [sq_nonneg y])
  have h2 : √(y ^ 2 + c) ^ 2 = y ^ 2 + c := sq_sqrt h0.le
  have h3 : √c ^ 2 = c := sq_sqrt hc.le
  have h4 : 0 < √c := sqrt_pos.2 hc
  have h5 : 0 < √(y ^ 2 + c) := sqrt_pos.2 h0
  have e : 1 / c * (√c / (y ^ 2 + √c ^ 2)) = 1 / (√c * (y ^ 2 + c)) := by
    rw [h3]
    nth_rewrite 1 [← h3]
    field_simp
  rw [e, pow_succ, h2]
  apply one_div_le_one_div_of_le (by positivity)
  nlinarith

private theorem cube_continuous {c : ℝ} (hc : 0 < c) : Continuous fun y : ℝ => 1 / √(y ^ 2 + c) ^ 3 := by
  apply Continuous.div continuous_const (by fun_prop)
  intro y
  have : 0 < y ^ 2 + c := by positivity
  positivity

theorem cube_integrable {c : ℝ} (hc : 0 < c) : Integrable fun y : ℝ => 1 / √(y ^ 2 + c) ^ 3 := by
  refine ((lorentz_integrable (sqrt_pos.2 hc)).const_mul (1 / c)).mono' (cube_continuous hc).aestronglyMeasurable (ae_of_all _ fun y => ?_)
  have : 0 < y ^ 2 + c := by positivity
  rw [norm_of_nonneg (by positivity)]
  exact cube_le hc y

private theorem line_deriv {c : ℝ} (hc : 0 < c) (y : ℝ) : HasDerivAt (fun y : ℝ => y / √(y ^ 2 + c) / c) (1 / √(y ^ 2 + c) ^ 3) y := by
  have h0 : 0 < y ^ 2 + c := by positivity
  have h5 : 0 < √(y ^ 2 + c) := sqrt_pos.2 h0
  have h2 : √(y ^ 2 + c) ^ 2 = y ^ 2 + c := sq_sqrt h0.le
  have d1 : HasDerivAt (fun y : ℝ => y ^ 2 + c) (2 * y) y := by
    simpa using (hasDerivAt_pow 2 y).add_const c
  have d2 : HasDerivAt (fun y : ℝ => y / √(y ^ 2 + c) / c) _ y := ((hasDerivAt_id y).div (d1.sqrt h0.ne') h5.ne').div_const c
  refine d2.congr_deriv ?_
  simp only [id]
  field_simp
  rw [h2]
  ring

private theorem line_top {c : ℝ} (hc : 0 < c) : Tendsto (fun y : ℝ => y / √(y ^ 2 + c) / c) atTop (𝓝 (1 / c)) := by
  apply Tendsto.div_const
  have h1 : Tendsto (fun y : ℝ => c / y ^ 2) atTop (𝓝 0) := tendsto_const_nhds.div_atTop (tendsto_pow_atTop (by norm_num))
  have h2 : Tendsto (fun y : ℝ => 1 / √(1 + c / y ^ 2)) atTop (𝓝 (1 / √(1 + 0))) := by
    apply Tendsto.div tendsto_const_nhds _ (by simp)
    exact (continuous_sqrt.tendsto _).comp (tendsto_const_nhds.add h1)
  rw [add_zero, sqrt_one, div_one] at h2
  refine h2.congr' ?_
  filter_upwards [eventually_gt_atTop 0] with y hy
  have e : y ^ 2 + c = y ^ 2 * (1 + c / y ^ 2) := by field_simp
  rw [e, sqrt_mul (by positivity), sqrt_sq hy.le]
  have : 0 < √(1 + c / y ^ 2) := sqrt_pos.2 (by positivity)
  field_simp

private theorem line_bot {c : ℝ} (hc : 0 < c) : Tendsto (fun y : ℝ => y / √(y ^ 2 + c) / c) atBot (𝓝 (-(1 / c))) := by
  have h := ((line_top hc).comp tendsto_neg_atBot_atTop).neg
  refine h.congr fun y => ?_
  show -(-y / √((-y) ^ 2 + c) / c) = _
  rw [neg_sq]
  ring

/-- `∫ dy / (y² + c)^(3/2) = 2/c`. -/
theorem cube_integral {c : ℝ} (hc : 0 < c) : ∫ y : ℝ, 1 / √(y ^ 2 + c) ^ 3 = 2 / c := by
  rw [integral_of_hasDerivAt_of_tendsto (line_deriv hc) (cube_integrable hc) (line_bot hc) (line_top hc)]
  ring

/-! ### A plane of mass -/

section
variable {z : ℝ}

/-- The vertical attraction of a unit mass at `(x, y)` in a plane `z` below, per `G`. -/
noncomputable def pull (z : ℝ) (p : ℝ × ℝ) : ℝ := z / √(p.1 ^ 2 + p.2 ^ 2 + z ^ 2) ^ 3

theorem pull_continuous (hz : 0 < z) : Continuous (pull z) := by
  unfold pull
  apply Continuous.div continuous_const (by fun_prop)
  intro p
  have : 0 < p.1 ^ 2 + p.2 ^ 2 + z ^ 2 := by positivity
  positivity

theorem pull_nonneg (hz : 0 < z) (p : ℝ × ℝ) : 0 ≤ pull z p := by
  have : 0 < p.1 ^ 2 + p.2 ^ 2 + z ^ 2 := by positivity
  unfold pull
  positivity

private theorem pull_eq (x y : ℝ) : pull z (x, y) = z * (1 / √(y ^ 2 + (x ^ 2 + z ^ 2)) ^ 3) := by
  unfold pull
  rw [show x ^ 2 + y ^ 2 + z ^ 2 = y ^ 2 + (x ^ 2 + z ^ 2) by ring]
  ring

private theorem pull_line (hz : 0 < z) (x : ℝ) : ∫ y : ℝ, pull z (x, y) = 2 * (z / (x ^ 2 + z ^ 2)) := by
  simp_rw [pull_eq]
  rw [integral_const_mul, cube_integral (by positivity)]
  ring

theorem pull_integrable (hz : 0 < z) : Integrable (pull z) (volume : Measure (ℝ × ℝ)) := by
  have hm : AEStronglyMeasurable (pull z) (volume : Measure (ℝ × ℝ)) := (pull_continuous hz).aestronglyMeasurable
  rw [Measure.volume_eq_prod] at hm ⊢
  rw [integrable_prod_iff hm]
  constructor
  · refine ae_of_all _ fun x => ?_
    simp_rw [pull_eq]
    exact (cube_integrable (by positivity)).const_mul z
  · have : (fun x : ℝ => ∫ y : ℝ, ‖pull z (x, y)‖) = fun x => 2 * (z / (x ^ 2 + z ^ 2)) := by
      ext x
      rw [← pull_line hz]
      congr 1
      ext y
      exact norm_of_nonneg (pull_nonneg hz _)
    rw [this]
    exact (lorentz_integrable hz).const_mul 2

private theorem wave_integrable (hz : 0 < z) (a b : ℝ) :
    Integrable (fun p : ℝ × ℝ => Complex.exp ((a * p.1 + b * p.2) * Complex.I) * ((pull z p : ℝ) : ℂ)) := by
  refine (pull_integrable hz).mono' ?_ (ae_of_all _ fun p => ?_)
  · have := pull_continuous hz
    exact Continuous.aestronglyMeasurable (by fun_prop)
  · rw [norm_mul, Complex.norm_real, norm_of_nonneg (pull_nonneg hz p)]
    have : ‖Complex.exp ((a * p.1 + b * p.2) * Complex.I)‖ = 1 := by
      have := Complex.norm_exp_ofReal_mul_I (a * p.1 + b * p.2)
      push_cast at this
      exact this
    rw [this, one_mul]

/-- A wave along the first axis. -/
private theorem wave_x (hz : 0 < z) (k : ℝ) :
    ∫ p : ℝ × ℝ, Complex.exp (k * p.1 * Complex.I) * ((pull z p : ℝ) : ℂ) = ((2 * π * exp (-(z * |k|)) : ℝ) : ℂ) := by
  have hi := wave_integrable hz k 0
  simp only [Complex.ofReal_zero, zero_mul, add_zero] at hi
  rw [Measure.volume_eq_prod] at hi ⊢
  rw [integral_prod _ hi]
  simp only
  have : ∀ x : ℝ, ∫ y : ℝ, Complex.exp (k * x * Complex.I) * ((pull z (x, y) : ℝ) : ℂ) =
      2 * (Complex.exp (k * x * Complex.I) * ((z / (x ^ 2 + z ^ 2) : ℝ) : ℂ)) := by
    intro x
    rw [integral_const_mul, integral_complex_ofReal, pull_line hz]
    push_cast
    ring
  simp_rw [this]
  rw [integral_const_mul, lorentz_fourier hz]
  push_cast
  ring

private theorem to_complex (F : ℝ × ℝ → ℂ) : ∫ p : ℝ × ℝ, F p = ∫ q : ℂ, F (q.re, q.im) :=
  (Complex.volume_preserving_equiv_real_prod.integral_comp' F).symm

/-- A wave in any direction. -/
theorem wave_any (hz : 0 < z) (a b : ℝ) :
    ∫ p : ℝ × ℝ, Complex.exp ((a * p.1 + b * p.2) * Complex.I) * ((pull z p : ℝ) : ℂ) = ((2 * π * exp (-(z * √(a ^ 2 + b ^ 2))) : ℝ) : ℂ) := by
  by_cases h0 : a ^ 2 + b ^ 2 = 0
  · have ha : a = 0 := by nlinarith [sq_nonneg a, sq_nonneg b]
    have hb : b = 0 := by nlinarith [sq_nonneg a, sq_nonneg b]
    have := wave_x hz 0
    rw [h0, ha, hb]
    simpa using this
  have hpos : 0 < a ^ 2 + b ^ 2 := lt_of_le_of_ne (by positivity) (Ne.symm h0)
  set κ := √(a ^ 2 + b ^ 2) with hκ
  have hκ0 : 0 < κ := sqrt_pos.2 hpos
  have hκ2 : κ ^ 2 = a ^ 2 + b ^ 2 := sq_sqrt hpos.le
  have hunit : ‖(⟨a / κ, b / κ⟩ : ℂ)‖ = 1 := by
    have : ‖(⟨a / κ, b / κ⟩ : ℂ)‖ ^ 2 = 1 := by
      rw [← Complex.normSq_eq_norm_sq, Complex.normSq_mk]
      field_simp
      linarith
    rw [← sqrt_sq (norm_nonneg (⟨a / κ, b / κ⟩ : ℂ)), this, sqrt_one]
  let u : Circle := ⟨⟨a / κ, b / κ⟩, mem_sphere_zero_iff_norm.2 hunit⟩
  have hrot := (rotation u).measurePreserving.integral_comp' (f := (rotation u).toHomeomorph.toMeasurableEquiv)
    (fun q : ℂ => Complex.exp ((a * q.re + b * q.im) * Complex.I) * ((pull z (q.re, q.im) : ℝ) : ℂ))
  rw [to_complex, ← hrot]
  have hx := wave_x hz κ
  rw [to_complex, abs_of_pos hκ0] at hx
  rw [← hx]
  congr 1
  ext q
  have e1 : ((rotation u).toHomeomorph.toMeasurableEquiv q).re = a / κ * q.re - b / κ * q.im := rfl
  have e2 : ((rotation u).toHomeomorph.toMeasurableEquiv q).im = a / κ * q.im + b / κ * q.re := rfl
  rw [e1, e2]
  congr 1
  · have : a * (a / κ * q.re - b / κ * q.im) + b * (a / κ * q.im + b / κ * q.re) = κ * q.re := by
      field_simp
      rw [hκ2]
      ring
    rw [← Complex.ofReal_mul κ, ← this]
    push_cast
    rfl
  · congr 1
    unfold pull
    have : (a / κ * q.re - b / κ * q.im) ^ 2 + (a / κ * q.im + b / κ * q.re) ^ 2 = q.re ^ 2 + q.im ^ 2 := by
      field_simp
      rw [hκ2]
      ring
    simp only [this]

end

/-! ### Waves of mass -/

open Spec

/-- Real waves. -/
theorem wave_real {z : ℝ} (hz : 0 < z) (a b φ : ℝ) :
    Integrable (fun p : ℝ × ℝ => cos (a * p.1 + b * p.2 + φ) * pull z p) ∧
    ∫ p : ℝ × ℝ, cos (a * p.1 + b * p.2 + φ) * pull z p = 2 * π * exp (-(z * √(a ^ 2 + b ^ 2))) * cos φ := by
  have hre : ∀ p : ℝ × ℝ, cos (a * p.1 + b * p.2 + φ) * pull z p =
      (Complex.exp (φ * Complex.I) * (Complex.exp ((a * p.1 + b * p.2) * Complex.I) * ((pull z p : ℝ) : ℂ))).re := by
    intro p
    rw [← mul_assoc, ← Complex.exp_add, Complex.re_mul_ofReal]
    congr 1
    have : (φ * Complex.I + (a * p.1 + b * p.2) * Complex.I : ℂ) = ((a * p.1 + b * p.2 + φ : ℝ) : ℂ) * Complex.I := by
      push_cast
      ring
    rw [this, Complex.exp_ofReal_mul_I_re]
  have hi := (wave_integrable hz a b).const_mul (Complex.exp (φ * Complex.I))
  simp_rw [hre]
  refine ⟨hi.re, ?_⟩
  have := integral_re hi
  simp only [RCLike.re_to_complex] at this
  rw [this, integral_const_mul, wave_any hz, Complex.re_mul_ofReal, Complex.exp_ofReal_mul_I_re]
  ring

private theorem shift_integral (F : ℝ × ℝ → ℝ) (X Y : ℝ) : ∫ p : ℝ × ℝ, F p = ∫ p : ℝ × ℝ, F (p - (X, Y)) :=
  (integral_sub_right_eq_self F (X, Y)).symm

/-- A sheet whose density is a constant and a sum of waves. -/
theorem sheetPull_waves {z : ℝ} (hz : 0 < z) (M : ℕ) (r0 : ℝ) (A a b φ : ℕ → ℝ) (X Y : ℝ) :
    sheetPull (fun x y => r0 + ∑ m ∈ Finset.range M, A m * cos (a m * x + b m * y + φ m)) z X Y =
      2 * π * (r0 + ∑ m ∈ Finset.range M, A m * (exp (-(z * √(a m ^ 2 + b m ^ 2))) * cos (a m * X + b m * Y + φ m))) := by
  have hw := fun m => wave_real hz (a m) (b m) (a m * X + b m * Y + φ m)
  have h0 := wave_real hz 0 0 0
  simp only [zero_mul, add_zero, cos_zero, one_mul] at h0
  unfold sheetPull
  obtain ⟨F, hF⟩ : ∃ F : ℝ × ℝ → ℝ, F = fun q =>
    r0 * pull z q + ∑ m ∈ Finset.range M, A m * (cos (a m * q.1 + b m * q.2 + (a m * X + b m * Y + φ m)) * pull z q) := ⟨_, rfl⟩
  have e : ∀ p : ℝ × ℝ, (r0 + ∑ m ∈ Finset.range M, A m * cos (a m * p.1 + b m * p.2 + φ m)) *
      (z / √((p.1 - X) ^ 2 + (p.2 - Y) ^ 2 + z ^ 2) ^ 3) =
      F (p - (X, Y)) := by
    intro p
    simp only [hF, pull, Prod.fst_sub, Prod.snd_sub]
    rw [add_mul, Finset.sum_mul]
    congr 1
    refine Finset.sum_congr rfl fun m _ => ?_
    rw [show a m * (p.1 - X) + b m * (p.2 - Y) + (a m * X + b m * Y + φ m) = a m * p.1 + b m * p.2 + φ m by ring]
    ring
  refine (integral_congr_ae (ae_of_all _ e)).trans ((shift_integral F X Y).symm.trans ?_)
  rw [hF, integral_add (h0.1.const_mul _) (integrable_finsetSum _ fun m _ => (hw m).1.const_mul _),
    integral_finsetSum _ fun m _ => (hw m).1.const_mul _, integral_const_mul, h0.2]
  simp_rw [integral_const_mul, (hw _).2]
  rw [mul_add, Finset.mul_sum]
  simp
  congr 1
  · ring
  · exact Finset.sum_congr rfl fun m _ => by ring

private theorem exp_depth {κ : ℝ} (hκ : κ ≠ 0) (z1 z2 : ℝ) : ∫ z in z1..z2, exp (-(z * κ)) = (exp (-κ * z1) - exp (-κ * z2)) / κ := by
  have hd : ∀ z ∈ uIcc z1 z2, HasDerivAt (fun z => -(exp (-(z * κ)) / κ)) (exp (-(z * κ))) z := by
    intro z _
    have h1 : HasDerivAt (fun z : ℝ => -(z * κ)) (-κ) z := by
      have := ((hasDerivAt_id z).mul_const κ).neg
      rw [one_mul] at this
      exact this
    have h2 : HasDerivAt (fun z => -(exp (-(z * κ)) / κ)) _ z := (h1.exp.div_const κ).neg
    refine h2.congr_deriv ?_
    field_simp
  rw [intervalIntegral.integral_eq_sub_of_hasDerivAt hd (Continuous.intervalIntegrable (by fun_prop) _ _)]
  rw [show -(z1 * κ) = -κ * z1 by ring, show -(z2 * κ) = -κ * z2 by ring]
  ring

/-- A layer whose density is a constant and a sum of waves. -/
theorem layerPull_waves {z1 z2 : ℝ} (h0 : 0 ≤ z1) (h12 : z1 ≤ z2) (M : ℕ) (r0 : ℝ) (A a b φ : ℕ → ℝ) (hk : ∀ m < M, √(a m ^ 2 + b m ^ 2) ≠ 0) (X Y : ℝ) :
    layerPull (fun x y => r0 + ∑ m ∈ Finset.range M, A m * cos (a m * x + b m * y + φ m)) z1 z2 X Y =
      2 * π * (r0 * (z2 - z1) + ∑ m ∈ Finset.range M, A m * ((exp (-√(a m ^ 2 + b m ^ 2) * z1) - exp (-√(a m ^ 2 + b m ^ 2) * z2)) / √(a m ^ 2 + b m ^ 2) *
        cos (a m * X + b m * Y + φ m))) := by
  unfold layerPull
  rw [intervalIntegral.integral_of_le h12, setIntegral_congr_fun measurableSet_Ioc
    (fun z hz => sheetPull_waves (lt_of_le_of_lt h0 hz.1) M r0 A a b φ X Y), ← intervalIntegral.integral_of_le h12,
    intervalIntegral.integral_const_mul]
  have hc : ∀ m, Continuous fun z : ℝ => A m * (exp (-(z * √(a m ^ 2 + b m ^ 2))) * cos (a m * X + b m * Y + φ m)) := fun m => by fun_prop
  rw [intervalIntegral.integral_add (by simp) (Continuous.intervalIntegrable (continuous_finsetSum _ fun m _ => hc m) _ _),
    intervalIntegral.integral_finsetSum fun m _ => (hc m).intervalIntegrable _ _]
  congr 2
  · rw [intervalIntegral.integral_const, smul_eq_mul, mul_comm]
  · refine Finset.sum_congr rfl fun m hm => ?_
    rw [intervalIntegral.integral_const_mul, intervalIntegral.integral_mul_const, exp_depth (hk m (Finset.mem_range.1 hm))]

end Shipgrav
