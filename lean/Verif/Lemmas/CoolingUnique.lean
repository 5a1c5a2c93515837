import Verif.Spec.CoolingPlate
import Mathlib.Analysis.Calculus.ParametricIntervalIntegral
import Mathlib.Analysis.Calculus.Deriv.MeanValue
import Mathlib.Analysis.Calculus.Deriv.Pow
import Mathlib.Analysis.Calculus.Deriv.Add
import Mathlib.Analysis.Calculus.Deriv.Mul
import Mathlib.MeasureTheory.Integral.IntervalIntegral.IntegrationByParts

/-! Two plates that cool alike are the same: the square of the difference does not grow. -/

namespace Shipgrav
open Spec Topology Filter Set MeasureTheory

private theorem slice {L : ℝ} {F : ℝ → ℝ → ℝ} (h : ContinuousOn (fun p : ℝ × ℝ => F p.1 p.2) (Ioi 0 ×ˢ Icc 0 L)) {t : ℝ} (ht : 0 < t) :
    ContinuousOn (F t) (Icc 0 L) := by
  have : ContinuousOn (fun z : ℝ => ((t, z) : ℝ × ℝ)) (Icc 0 L) := by fun_prop
  exact h.comp this (fun z hz => ⟨ht, hz⟩)

/-- A solution with zero boundary values: the energy does not grow. -/
private theorem energy_antitone {L k : ℝ} (hL : 0 < L) (hk : 0 ≤ k) {D Dz Dzz : ℝ → ℝ → ℝ}
    (h0 : ∀ t > 0, D t 0 = 0) (h1 : ∀ t > 0, D t L = 0)
    (hc : ContinuousOn (fun p : ℝ × ℝ => D p.1 p.2) (Ioi 0 ×ˢ Icc 0 L)) (hczz : ContinuousOn (fun p : ℝ × ℝ => Dzz p.1 p.2) (Ioi 0 ×ˢ Icc 0 L))
    (hd : ∀ t > 0, ∀ z ∈ Icc 0 L, HasDerivWithinAt (D t) (Dz t z) (Icc 0 L) z ∧ HasDerivWithinAt (Dz t) (Dzz t z) (Icc 0 L) z ∧
      HasDerivAt (fun s => D s z) (k * Dzz t z) t) :
    AntitoneOn (fun t => ∫ z in (0 : ℝ)..L, (D t z) ^ 2) (Ioi 0) := by
  have hI : uIoc (0 : ℝ) L = Ioc 0 L := uIoc_of_le hL.le
  have hint : ∀ {f : ℝ → ℝ}, ContinuousOn f (Icc 0 L) → IntervalIntegrable f volume 0 L := fun hf =>
    ContinuousOn.intervalIntegrable (by rwa [uIcc_of_le hL.le])
  have hmeas : ∀ {f : ℝ → ℝ}, ContinuousOn f (Icc 0 L) → AEStronglyMeasurable f (volume.restrict (uIoc (0 : ℝ) L)) := fun hf => by
    rw [hI]; exact (hf.mono Ioc_subset_Icc_self).aestronglyMeasurable measurableSet_Ioc
  have key : ∀ t > 0, HasDerivAt (fun t => ∫ z in (0 : ℝ)..L, (D t z) ^ 2) (∫ z in (0 : ℝ)..L, 2 * D t z * (k * Dzz t z)) t := by
    intro t ht
    have hK : IsCompact (Icc (t / 2) (2 * t) ×ˢ Icc (0 : ℝ) L) := isCompact_Icc.prod isCompact_Icc
    have hsub : Icc (t / 2) (2 * t) ×ˢ Icc (0 : ℝ) L ⊆ Ioi 0 ×ˢ Icc 0 L :=
      prod_mono (fun s hs => lt_of_lt_of_le (by positivity) hs.1) subset_rfl
    have hcF : ContinuousOn (fun p : ℝ × ℝ => 2 * D p.1 p.2 * (k * Dzz p.1 p.2)) (Icc (t / 2) (2 * t) ×ˢ Icc (0 : ℝ) L) :=
      ((continuousOn_const.mul hc).mul (continuousOn_const.mul hczz)).mono hsub
    obtain ⟨C, hC⟩ := hK.exists_bound_of_continuousOn hcF
    refine (intervalIntegral.hasDerivAt_integral_of_dominated_loc_of_deriv_le (F := fun t z => (D t z) ^ 2)
      (F' := fun t z => 2 * D t z * (k * Dzz t z)) (s := Icc (t / 2) (2 * t)) (bound := fun _ => C) ?_ ?_ ?_ ?_ ?_ ?_ ?_).2
    · exact Icc_mem_nhds (by linarith) (by linarith)
    · filter_upwards [lt_mem_nhds ht] with s hs
      exact hmeas ((slice hc hs).pow 2)
    · exact hint ((slice hc ht).pow 2)
    · exact hmeas ((continuousOn_const.mul (slice hc ht)).mul (continuousOn_const.mul (slice hczz ht)))
    · refine Eventually.of_forall fun z hz s hs => ?_
      rw [hI] at hz
      exact hC (s, z) ⟨hs, Ioc_subset_Icc_self hz⟩
    · exact intervalIntegrable_const
    · refine Eventually.of_forall fun z hz s hs => ?_
      rw [hI] at hz
      have hs0 : 0 < s := lt_of_lt_of_le (by positivity) hs.1
      have := ((hd s hs0 z (Ioc_subset_Icc_self hz)).2.2).pow 2
      refine this.congr_deriv ?_
      push_cast; ring
  have hneg : ∀ t > 0, ∫ z in (0 : ℝ)..L, 2 * D t z * (k * Dzz t z) ≤ 0 := by
    intro t ht
    have hcz : ContinuousOn (Dz t) (Icc 0 L) := fun z hz => ((hd t ht z hz).2.1).continuousWithinAt
    have hp : ∫ z in (0 : ℝ)..L, D t z * Dzz t z = D t L * Dz t L - D t 0 * Dz t 0 - ∫ z in (0 : ℝ)..L, Dz t z * Dz t z := by
      refine intervalIntegral.integral_mul_deriv_eq_deriv_mul_of_hasDerivWithinAt ?_ ?_ (hint hcz) (hint (slice hczz ht))
      · intro z hz; rw [uIcc_of_le hL.le] at hz ⊢; exact (hd t ht z hz).1
      · intro z hz; rw [uIcc_of_le hL.le] at hz ⊢; exact (hd t ht z hz).2.1
    have hsq : 0 ≤ ∫ z in (0 : ℝ)..L, Dz t z * Dz t z := intervalIntegral.integral_nonneg hL.le fun z _ => mul_self_nonneg _
    have : ∫ z in (0 : ℝ)..L, 2 * D t z * (k * Dzz t z) = 2 * k * ∫ z in (0 : ℝ)..L, D t z * Dzz t z := by
      rw [← intervalIntegral.integral_const_mul]
      congr 1; ext z; ring
    rw [this, hp, h0 t ht, h1 t ht]
    nlinarith
  refine antitoneOn_of_deriv_nonpos (convex_Ioi 0) ?_ ?_ ?_
  · exact fun t ht => (key t ht).continuousAt.continuousWithinAt
  · rw [interior_Ioi]; exact fun t ht => (key t ht).differentiableAt.differentiableWithinAt
  · rw [interior_Ioi]; exact fun t ht => by rw [(key t ht).deriv]; exact hneg t ht

/-- At most one temperature. -/
theorem CoolingPlate.unique {L k Tm : ℝ} (hL : 0 < L) (hk : 0 ≤ k) {T T' : ℝ → ℝ → ℝ} (h : CoolingPlate L k Tm T) (h' : CoolingPlate L k Tm T') :
    ∀ t > 0, ∀ z ∈ Icc 0 L, T t z = T' t z := by
  obtain ⟨Tz, Tzz, hcz, hd⟩ := h.heat
  obtain ⟨Tz', Tzz', hcz', hd'⟩ := h'.heat
  have hint : ∀ {f : ℝ → ℝ}, ContinuousOn f (Icc 0 L) → IntervalIntegrable f volume 0 L := fun hf =>
    ContinuousOn.intervalIntegrable (by rwa [uIcc_of_le hL.le])
  have hanti := energy_antitone (D := fun t z => T t z - T' t z) (Dz := fun t z => Tz t z - Tz' t z) (Dzz := fun t z => Tzz t z - Tzz' t z) hL hk
    (fun t ht => by rw [h.top t ht, h'.top t ht, sub_zero]) (fun t ht => by rw [h.base t ht, h'.base t ht, sub_self])
    (h.continuous.sub h'.continuous) (hcz.sub hcz')
    (fun t ht z hz => ⟨(hd t ht z hz).1.sub (hd' t ht z hz).1, (hd t ht z hz).2.1.sub (hd' t ht z hz).2.1,
      ((hd t ht z hz).2.2.sub (hd' t ht z hz).2.2).congr_deriv (by ring)⟩)
  have hzero : ∀ t > 0, ∫ z in (0 : ℝ)..L, (T t z - T' t z) ^ 2 = 0 := by
    intro t ht
    refine le_antisymm ?_ (intervalIntegral.integral_nonneg hL.le fun z _ => sq_nonneg _)
    have hlim : Tendsto (fun s => 2 * (∫ z in (0 : ℝ)..L, (T s z - Tm) ^ 2) + 2 * ∫ z in (0 : ℝ)..L, (T' s z - Tm) ^ 2) (𝓝[>] 0) (𝓝 0) := by
      simpa using (h.start.const_mul 2).add (h'.start.const_mul 2)
    refine ge_of_tendsto hlim ?_
    have hev : ∀ᶠ s in 𝓝[>] (0 : ℝ), s ∈ Ioo 0 t := Ioo_mem_nhdsGT ht
    filter_upwards [hev] with s hs
    refine (hanti hs.1 ht hs.2.le).trans ?_
    have c1 := slice h.continuous hs.1
    have c2 := slice h'.continuous hs.1
    have i1 : IntervalIntegrable (fun z => 2 * (T s z - Tm) ^ 2) volume 0 L := hint (by fun_prop)
    have i2 : IntervalIntegrable (fun z => 2 * (T' s z - Tm) ^ 2) volume 0 L := hint (by fun_prop)
    have i3 : IntervalIntegrable (fun z => (T s z - T' s z) ^ 2) volume 0 L := hint (by fun_prop)
    rw [← intervalIntegral.integral_const_mul, ← intervalIntegral.integral_const_mul, ← intervalIntegral.integral_add i1 i2]
    refine intervalIntegral.integral_mono_on hL.le i3 (i1.add i2) fun z _ => ?_
    nlinarith [sq_nonneg (T s z - Tm + (T' s z - Tm))]
  intro t ht z hz
  have hcD : ContinuousOn (fun z => (T t z - T' t z) ^ 2) (Icc 0 L) := ((slice h.continuous ht).sub (slice h'.continuous ht)).pow 2
  by_contra hne
  have hpos : 0 < ∫ z in (0 : ℝ)..L, (T t z - T' t z) ^ 2 :=
    intervalIntegral.integral_pos hL hcD (fun _ _ => sq_nonneg _) ⟨z, hz, by have := sub_ne_zero.mpr hne; positivity⟩
  exact hpos.ne' (hzero t ht)

end Shipgrav
