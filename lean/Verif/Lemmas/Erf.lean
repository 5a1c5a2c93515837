import Verif.Py.Erf
import Mathlib.MeasureTheory.Integral.IntervalIntegral.FundThmCalculus
import Mathlib.MeasureTheory.Integral.IntegralEqImproper
import Mathlib.Analysis.Calculus.Deriv.MeanValue
import Mathlib.Topology.Order.IntermediateValue

/-! Helper lemmas on the error function. -/

namespace Shipgrav
open Filter Topology MeasureTheory

theorem erf_hasDerivAt (x : ℝ) : HasDerivAt erf (2 / √Real.pi * Real.exp (-x ^ 2)) x := by
  have hc : Continuous fun t : ℝ => Real.exp (-t ^ 2) := by fun_prop
  have h := intervalIntegral.integral_hasDerivAt_right (hc.intervalIntegrable 0 x) (hc.stronglyMeasurableAtFilter _ _) hc.continuousAt
  exact h.const_mul (2 / √Real.pi)

theorem erf_zero : erf 0 = 0 := by simp [erf]

theorem erf_continuous : Continuous erf := continuous_iff_continuousAt.mpr fun x => (erf_hasDerivAt x).continuousAt

theorem erf_strictMono : StrictMono erf := by
  apply strictMono_of_deriv_pos
  intro x
  rw [(erf_hasDerivAt x).deriv]
  positivity

theorem erf_neg (x : ℝ) : erf (-x) = -erf x := by
  unfold erf
  have h : ∫ t in (0 : ℝ)..(-x), Real.exp (-t ^ 2) = -∫ t in (0 : ℝ)..x, Real.exp (-t ^ 2) := by
    have := intervalIntegral.integral_comp_neg (a := 0) (b := x) (fun t : ℝ => Real.exp (-t ^ 2))
    simp only [neg_sq, neg_zero] at this
    rw [this, intervalIntegral.integral_symm]
  rw [h]; ring

theorem erf_tendsto : Tendsto erf atTop (𝓝 1) := by
  have hint : IntegrableOn (fun t : ℝ => Real.exp (-t ^ 2)) (Set.Ioi 0) := by
    have := integrable_exp_neg_mul_sq (b := 1) one_pos
    simp only [neg_mul, one_mul] at this
    exact this.integrableOn
  have h := intervalIntegral_tendsto_integral_Ioi 0 hint tendsto_id
  have hv : ∫ t in Set.Ioi (0 : ℝ), Real.exp (-t ^ 2) = √Real.pi / 2 := by
    have := integral_gaussian_Ioi 1
    simp only [neg_mul, one_mul, div_one] at this
    exact this
  rw [hv] at h
  have := h.const_mul (2 / √Real.pi)
  have hp : √Real.pi ≠ 0 := by positivity
  rw [show 2 / √Real.pi * (√Real.pi / 2) = 1 by field_simp] at this
  exact this

theorem erf_lt_one (x : ℝ) : erf x < 1 := by
  have h1 : erf x < erf (x + 1) := erf_strictMono (by linarith)
  have h2 : erf (x + 1) ≤ 1 := erf_strictMono.monotone.ge_of_tendsto erf_tendsto _
  linarith

theorem neg_one_lt_erf (x : ℝ) : -1 < erf x := by
  have := erf_lt_one (-x)
  rw [erf_neg] at this
  linarith

/-- Every number between -1 and 1 is a value. -/
theorem erf_surj (y : ℝ) (h1 : -1 < y) (h2 : y < 1) : ∃ x, erf x = y := by
  have hb : Tendsto erf atBot (𝓝 (-1)) := by
    have h := (erf_tendsto.comp tendsto_neg_atBot_atTop).neg
    refine h.congr fun x => ?_
    simp [erf_neg]
  obtain ⟨a, ha⟩ := (hb.eventually (gt_mem_nhds h1)).exists
  obtain ⟨b, hb⟩ := (erf_tendsto.eventually (lt_mem_nhds h2)).exists
  have := mem_range_of_exists_le_of_exists_ge erf_continuous ⟨a, ha.le⟩ ⟨b, hb.le⟩
  exact this

/-- `erfcinv` inside its domain. -/
theorem erfcinv_spec (y : ℝ) (h1 : 0 < y) (h2 : y < 2) : ∃ x, erfcinv y = some x ∧ erf x = 1 - y := by
  have hex : ∃ x, 1 - erf x = y := by
    obtain ⟨x, hx⟩ := erf_surj (1 - y) (by linarith) (by linarith)
    exact ⟨x, by linarith⟩
  refine ⟨hex.choose, ?_, ?_⟩
  · unfold erfcinv
    rw [dif_pos hex]
  · have := hex.choose_spec
    linarith

theorem erfcinv_erf (x : ℝ) : erfcinv (1 - erf x) = some x := by
  obtain ⟨x', h, hx'⟩ := erfcinv_spec (1 - erf x) (by linarith [erf_lt_one x]) (by linarith [neg_one_lt_erf x])
  have : x' = x := erf_strictMono.injective (by linarith)
  rw [h, this]

end Shipgrav
