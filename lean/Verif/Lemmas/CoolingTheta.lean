import Verif.Lemmas.CoolingTail
import Verif.Lemmas.CoolingUnique
import Verif.Lemmas.CoolingHalfspace
import Mathlib.NumberTheory.LSeries.HurwitzZetaEven

/-! The gradient of temperature in a cooling plate as a sum over images: it exceeds that of the half-space at every depth. -/

namespace Shipgrav
open Spec Topology Filter Set MeasureTheory HurwitzZeta

/-- Gradient of temperature with depth in a half-space of unit temperature. -/
noncomputable def halfspaceGrad (k t z : ℝ) : ℝ := Real.exp (-(z ^ 2 / (4 * (k * t)))) / √(Real.pi * (k * t))

theorem halfspaceGrad_pos {k t : ℝ} (hk : 0 < k) (ht : 0 < t) (z : ℝ) : 0 < halfspaceGrad k t z := by
  unfold halfspaceGrad
  have := Real.pi_pos
  positivity

theorem halfspace_hasDerivAt {k t : ℝ} (hk : 0 < k) (ht : 0 < t) (z : ℝ) :
    HasDerivAt (fun z => erf (z / (2 * √(k * t)))) (halfspaceGrad k t z) z := by
  have hkt : 0 < k * t := mul_pos hk ht
  have h := (erf_hasDerivAt (z / (2 * √(k * t)))).comp z ((hasDerivAt_id z).div_const (2 * √(k * t)))
  refine h.congr_deriv ?_
  unfold halfspaceGrad
  rw [Real.sqrt_mul Real.pi_pos.le, div_pow, mul_pow, Real.sq_sqrt hkt.le]
  have hp : √Real.pi ≠ 0 := (Real.sqrt_pos.mpr Real.pi_pos).ne'
  have hs : √(k * t) ≠ 0 := (Real.sqrt_pos.mpr hkt).ne'
  field_simp
  norm_num
  ring

theorem plateLimitZ_cosKernel {L k t : ℝ} (hL : 0 < L) (hk : 0 < k) (ht : 0 < t) (z : ℝ) :
    plateLimitZ L k t z = 1 / L * cosKernel ((z / (2 * L) : ℝ) : UnitAddCircle) (Real.pi * (k * t) / L ^ 2) := by
  have hp := Real.pi_pos
  have hs : 0 < Real.pi * (k * t) / L ^ 2 := by positivity
  have h := (hasSum_nat_cosKernel₀ (z / (2 * L)) hs).mul_left (1 / L)
  have e : ∀ n : ℕ, 1 / L * (2 * Real.cos (2 * Real.pi * (z / (2 * L)) * (n + 1)) * Real.exp (-Real.pi * (n + 1) ^ 2 * (Real.pi * (k * t) / L ^ 2))) =
      plateAmp L k t n * plateWave L n * Real.cos (plateWave L n * z) := by
    intro n
    unfold plateAmp plateWave
    have hn : (n : ℝ) + 1 ≠ 0 := by positivity
    rw [show 2 * Real.pi * (z / (2 * L)) * ((n : ℝ) + 1) = (n + 1) * Real.pi / L * z by field_simp,
      show -Real.pi * ((n : ℝ) + 1) ^ 2 * (Real.pi * (k * t) / L ^ 2) = -((n + 1) * Real.pi / L) ^ 2 * k * t by field_simp]
    generalize Real.exp _ = X
    generalize Real.cos _ = Y
    field_simp
  simp only [e] at h
  unfold plateLimitZ
  rw [h.tsum_eq]
  ring

/-- The gradient in the plate exceeds that in the half-space. -/
theorem halfspaceGrad_lt {L k t : ℝ} (hL : 0 < L) (hk : 0 < k) (ht : 0 < t) (z : ℝ) : halfspaceGrad k t z < plateLimitZ L k t z := by
  have hp := Real.pi_pos
  have hkt : 0 < k * t := mul_pos hk ht
  rw [plateLimitZ_cosKernel hL hk ht]
  obtain ⟨s, hs⟩ : ∃ s, s = Real.pi * (k * t) / L ^ 2 := ⟨_, rfl⟩
  have hs0 : 0 < s := by rw [hs]; positivity
  rw [← hs]
  have hfe := evenKernel_functional_equation ((z / (2 * L) : ℝ) : UnitAddCircle) (1 / s)
  rw [one_div_one_div] at hfe
  have hsum := hasSum_int_evenKernel (z / (2 * L)) (one_div_pos.mpr hs0)
  have hle := sum_le_hasSum {0, 1} (fun n _ => (Real.exp_pos _).le) hsum
  rw [Finset.sum_pair (by norm_num)] at hle
  have hpos : 0 < Real.exp (-Real.pi * (((1 : ℤ) : ℝ) + z / (2 * L)) ^ 2 * (1 / s)) := Real.exp_pos _
  have h0 : Real.exp (-Real.pi * (((0 : ℤ) : ℝ) + z / (2 * L)) ^ 2 * (1 / s)) = Real.exp (-(z ^ 2 / (4 * (k * t)))) := by
    congr 1
    rw [hs]
    push_cast
    field_simp
    ring
  rw [h0] at hle
  rw [← Real.sqrt_eq_rpow] at hfe
  have hr : 0 < √(1 / s) := Real.sqrt_pos.mpr (one_div_pos.mpr hs0)
  have hc : cosKernel ((z / (2 * L) : ℝ) : UnitAddCircle) s = √(1 / s) * evenKernel ((z / (2 * L) : ℝ) : UnitAddCircle) (1 / s) := by
    rw [hfe]
    field_simp
  have hsq : √(1 / s) = L / √(Real.pi * (k * t)) := by
    rw [hs, one_div_div, Real.sqrt_div (by positivity), Real.sqrt_sq hL.le]
  rw [hc, hsq]
  unfold halfspaceGrad
  have hq : 0 < √(Real.pi * (k * t)) := Real.sqrt_pos.mpr (by positivity)
  rw [show 1 / L * (L / √(Real.pi * (k * t)) * evenKernel ((z / (2 * L) : ℝ) : UnitAddCircle) (1 / s)) =
    evenKernel ((z / (2 * L) : ℝ) : UnitAddCircle) (1 / s) / √(Real.pi * (k * t)) by field_simp]
  exact div_lt_div_of_pos_right (by linarith) hq

theorem plateLimitZ_pos {L k t : ℝ} (hL : 0 < L) (hk : 0 < k) (ht : 0 < t) (z : ℝ) : 0 < plateLimitZ L k t z :=
  (halfspaceGrad_pos hk ht z).trans (halfspaceGrad_lt hL hk ht z)

/-- Temperature increases with depth. -/
theorem plateLimit_strictMono {L k t : ℝ} (hL : 0 < L) (hk : 0 < k) (ht : 0 < t) : StrictMono (plateLimit L k t) :=
  strictMono_of_hasDerivAt_pos (plateLimit_z hL hk ht) (plateLimitZ_pos hL hk ht)

/-- So does the excess over the half-space. -/
theorem plate_sub_halfspace_strictMono {L k t : ℝ} (hL : 0 < L) (hk : 0 < k) (ht : 0 < t) :
    StrictMono (fun z => plateLimit L k t z - erf (z / (2 * √(k * t)))) :=
  strictMono_of_hasDerivAt_pos (fun z => (plateLimit_z hL hk ht z).sub (halfspace_hasDerivAt hk ht z))
    (fun z => sub_pos.mpr (halfspaceGrad_lt hL hk ht z))

theorem plateLimit_zero (L k t : ℝ) : plateLimit L k t 0 = 0 := by simp [plateLimit]

theorem plateLimit_base {L k t : ℝ} (hL : 0 < L) (hk : 0 < k) (ht : 0 < t) : plateLimit L k t L = 1 := by
  simpa using (plateLimit_cooling hL hk 1).base t ht

/-- Temperature rises by at least the gradient at the base of the half-space. -/
theorem plateLimit_rise {L k t : ℝ} (hL : 0 < L) (hk : 0 < k) (ht : 0 < t) {y z : ℝ} (hy : 0 ≤ y) (hyz : y ≤ z) (hz : z ≤ L) :
    halfspaceGrad k t L * (z - y) ≤ plateLimit L k t z - plateLimit L k t y := by
  have hm : MonotoneOn (fun z => plateLimit L k t z - halfspaceGrad k t L * z) (Icc 0 L) := by
    refine monotoneOn_of_hasDerivWithinAt_nonneg (f' := fun z => plateLimitZ L k t z - halfspaceGrad k t L) (convex_Icc 0 L) ?_ ?_ ?_
    · exact fun z _ => ((plateLimit_z hL hk ht z).sub ((hasDerivAt_id z).const_mul _)).continuousAt.continuousWithinAt
    · intro z _
      have := (plateLimit_z hL hk ht z).sub ((hasDerivAt_id z).const_mul (halfspaceGrad k t L))
      exact (this.congr_deriv (by simp)).hasDerivWithinAt
    · intro z hz
      rw [interior_Icc] at hz
      have h1 := halfspaceGrad_lt hL hk ht z
      have h2 : halfspaceGrad k t L ≤ halfspaceGrad k t z := by
        unfold halfspaceGrad
        have hkt : 0 < k * t := mul_pos hk ht
        gcongr
        exacts [hz.1.le, hz.2.le]
      beta_reduce
      linarith
  have := hm ⟨hy, hyz.trans hz⟩ ⟨hy.trans hyz, hz⟩ hyz
  simp only at this
  linarith

end Shipgrav
