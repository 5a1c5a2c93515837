import Verif.Lemmas.Erf
import Verif.Spec.Thermal
import Mathlib.MeasureTheory.Integral.IntegralEqImproper
import Mathlib.Analysis.SpecialFunctions.Integrals.Basic

/-! Heat lost below a point of the sea floor. -/

namespace Shipgrav
open Spec Topology Filter MeasureTheory

/-- `erfc y ≤ exp(-y²) / (y √π)`. -/
theorem erfc_le (y : ℝ) (hy : 0 < y) : 1 - erf y ≤ Real.exp (-y ^ 2) / (√Real.pi * y) := by
  have hp : 0 < √Real.pi := Real.sqrt_pos.mpr Real.pi_pos
  obtain ⟨g, hg⟩ : ∃ g : ℝ → ℝ, g = fun y => Real.exp (-y ^ 2) / (√Real.pi * y) - (1 - erf y) := ⟨_, rfl⟩
  have hd : ∀ x : ℝ, 0 < x → HasDerivAt g (-(Real.exp (-x ^ 2) / (√Real.pi * x ^ 2))) x := by
    intro x hx
    rw [hg]
    have h1 : HasDerivAt (fun x : ℝ => Real.exp (-x ^ 2)) (Real.exp (-x ^ 2) * (-(2 * x))) x := by
      have := (((hasDerivAt_id x).pow 2).neg).exp
      refine this.congr_deriv ?_
      simp
    have h2 : HasDerivAt (fun x : ℝ => √Real.pi * x) (√Real.pi * 1) x := (hasDerivAt_id x).const_mul _
    have h3 := (h1.div h2 (by positivity)).sub ((erf_hasDerivAt x).const_sub 1)
    refine h3.congr_deriv ?_
    field_simp
    ring
  have hanti : ∀ a b : ℝ, 0 < a → a ≤ b → g b ≤ g a := by
    intro a b ha hab
    have : AntitoneOn g (Set.Ici a) := by
      apply antitoneOn_of_deriv_nonpos (convex_Ici a)
      · intro x hx
        exact (hd x (lt_of_lt_of_le ha hx)).continuousAt.continuousWithinAt
      · intro x hx
        rw [interior_Ici] at hx
        exact (hd x (ha.trans hx)).differentiableAt.differentiableWithinAt
      · intro x hx
        rw [interior_Ici] at hx
        have hx0 : 0 < x := ha.trans hx
        rw [(hd x hx0).deriv]
        have : 0 < Real.exp (-x ^ 2) / (√Real.pi * x ^ 2) := by positivity
        linarith
    exact this Set.self_mem_Ici hab hab
  have hlim : Tendsto g atTop (𝓝 0) := by
    rw [hg]
    have h1 : Tendsto (fun x : ℝ => Real.exp (-x ^ 2) / (√Real.pi * x)) atTop (𝓝 0) := by
      have hb : Tendsto (fun x : ℝ => 1 / (√Real.pi * x)) atTop (𝓝 0) := by
        simp only [one_div]
        exact tendsto_inv_atTop_zero.comp ((tendsto_id (α := ℝ)).const_mul_atTop hp)
      refine squeeze_zero' ?_ ?_ hb
      · filter_upwards [eventually_gt_atTop (0 : ℝ)] with x hx
        positivity
      · filter_upwards [eventually_gt_atTop (0 : ℝ)] with x hx
        apply div_le_div_of_nonneg_right _ (by positivity)
        rw [Real.exp_le_one_iff]
        nlinarith
    have h2 := h1.sub (erf_tendsto.const_sub 1)
    simpa using h2
  have hge : 0 ≤ g y := by
    apply le_of_tendsto hlim
    filter_upwards [eventually_ge_atTop y] with x hx
    exact hanti y x hy hx
  rw [hg] at hge
  simp only at hge
  linarith

/-- `∫₀^∞ erfc(z / d) dz = d / √π`. -/
theorem integral_erfc (d : ℝ) (hd : 0 < d) : ∫ z in Set.Ioi (0 : ℝ), (1 - erf (z / d)) = d / √Real.pi := by
  have hp : 0 < √Real.pi := Real.sqrt_pos.mpr Real.pi_pos
  obtain ⟨F, hF⟩ : ∃ F : ℝ → ℝ, F = fun z => z * (1 - erf (z / d)) - d * (Real.exp (-(z / d) ^ 2) / √Real.pi) := ⟨_, rfl⟩
  have hder : ∀ z ∈ Set.Ici (0 : ℝ), HasDerivAt F (1 - erf (z / d)) z := by
    intro z _
    rw [hF]
    have h0 : HasDerivAt (fun z : ℝ => z / d) (1 / d) z := (hasDerivAt_id z).div_const d
    have h1 : HasDerivAt (fun z : ℝ => Real.exp (-(z / d) ^ 2)) (Real.exp (-(z / d) ^ 2) * (-(2 * (z / d) * (1 / d)))) z := by
      have := ((h0.pow 2).neg).exp
      refine this.congr_deriv ?_
      simp
    have h2 := (erf_hasDerivAt (z / d)).comp z h0
    have h3 := ((hasDerivAt_id z).mul (h2.const_sub 1)).sub ((h1.div_const (√Real.pi)).const_mul d)
    refine h3.congr_deriv ?_
    simp only [Function.comp, id]
    field_simp
    ring
  have hlim : Tendsto F atTop (𝓝 0) := by
    have he : Tendsto (fun z : ℝ => d * (Real.exp (-(z / d) ^ 2) / √Real.pi)) atTop (𝓝 0) := by
      have h1 : Tendsto (fun z : ℝ => (z / d) ^ 2) atTop atTop :=
        (tendsto_pow_atTop two_ne_zero).comp ((tendsto_id (α := ℝ)).atTop_div_const hd)
      have h2 := ((Real.tendsto_exp_neg_atTop_nhds_zero.comp h1).div_const (√Real.pi)).const_mul d
      rw [zero_div, mul_zero] at h2
      exact h2
    have hz : Tendsto (fun z : ℝ => z * (1 - erf (z / d))) atTop (𝓝 0) := by
      refine squeeze_zero' ?_ ?_ he
      · filter_upwards [eventually_gt_atTop (0 : ℝ)] with z hz
        exact mul_nonneg hz.le (sub_nonneg.mpr (erf_lt_one _).le)
      · filter_upwards [eventually_gt_atTop (0 : ℝ)] with z hz
        have h := mul_le_mul_of_nonneg_left (erfc_le (z / d) (div_pos hz hd)) hz.le
        refine h.trans (le_of_eq ?_)
        field_simp
    rw [hF]
    simpa using hz.sub he
  rw [integral_Ioi_of_hasDerivAt_of_nonneg' hder (fun z _ => sub_nonneg.mpr (erf_lt_one _).le) hlim, hF]
  simp [erf_zero]
  ring

/-- One sine of the plate, over its thickness. -/
theorem integral_sine (n : ℕ) (hn : 0 < n) (L : ℝ) (hL : 0 < L) :
    ∫ z in (0 : ℝ)..L, Real.sin (n * Real.pi * z / L) = L / (n * Real.pi) * (1 - (-1) ^ n) := by
  have hn0 : (0 : ℝ) < n := by exact_mod_cast hn
  have hp := Real.pi_pos
  have h : (fun z : ℝ => Real.sin (n * Real.pi * z / L)) = fun z => Real.sin (n * Real.pi / L * z) := by
    funext z; congr 1; ring
  rw [h, intervalIntegral.integral_comp_mul_left (fun z => Real.sin z) (by positivity : n * Real.pi / L ≠ 0), integral_sin]
  rw [mul_zero, Real.cos_zero, div_mul_cancel₀ _ hL.ne', Real.cos_nat_mul_pi, smul_eq_mul, inv_div]

/-- The cooling series of the plate, over its thickness. -/
theorem integral_series (N : ℕ) (L k t : ℝ) (hL : 0 < L) :
    ∫ z in (0 : ℝ)..L, (1 - plateSeries N L k t z) =
      L * (1 / 2 - ∑ n ∈ Finset.Icc 1 N, 2 / (n * Real.pi) ^ 2 * (1 - (-1) ^ n) * Real.exp (-(n * Real.pi / L) ^ 2 * k * t)) := by
  unfold plateSeries
  have hi : ∀ n ∈ Finset.Icc 1 N, IntervalIntegrable (fun z : ℝ => 2 / (n * Real.pi) * Real.exp (-(n * Real.pi / L) ^ 2 * k * t) *
      Real.sin (n * Real.pi * z / L)) volume 0 L := by
    intro n _
    apply Continuous.intervalIntegrable
    fun_prop
  have hsum : IntervalIntegrable (fun z : ℝ => ∑ n ∈ Finset.Icc 1 N, 2 / (n * Real.pi) * Real.exp (-(n * Real.pi / L) ^ 2 * k * t) *
      Real.sin (n * Real.pi * z / L)) volume 0 L := by
    apply Continuous.intervalIntegrable
    fun_prop
  have hlin : IntervalIntegrable (fun z : ℝ => z / L) volume 0 L := by
    apply Continuous.intervalIntegrable
    fun_prop
  rw [intervalIntegral.integral_sub (by simp) (hlin.add hsum), intervalIntegral.integral_add hlin hsum, intervalIntegral.integral_finset_sum hi]
  have h1 : ∫ z in (0 : ℝ)..L, z / L = L / 2 := by
    rw [intervalIntegral.integral_div, integral_id]
    field_simp
    ring
  rw [h1]
  have h2 : ∑ n ∈ Finset.Icc 1 N, ∫ z in (0 : ℝ)..L, 2 / (n * Real.pi) * Real.exp (-(n * Real.pi / L) ^ 2 * k * t) *
      Real.sin (n * Real.pi * z / L) =
      L * ∑ n ∈ Finset.Icc 1 N, 2 / (n * Real.pi) ^ 2 * (1 - (-1) ^ n) * Real.exp (-(n * Real.pi / L) ^ 2 * k * t) := by
    rw [Finset.mul_sum]
    apply Finset.sum_congr rfl
    intro n hn
    have hn1 := (Finset.mem_Icc.mp hn).1
    have hn0 : (n : ℝ) ≠ 0 := by exact_mod_cast (by omega : n ≠ 0)
    rw [intervalIntegral.integral_const_mul, integral_sine n hn1 L hL]
    have hp := Real.pi_ne_zero
    field_simp
  rw [h2]
  simp
  ring

end Shipgrav
