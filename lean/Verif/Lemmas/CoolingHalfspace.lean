import Verif.Spec.CoolingHalfspace
import Verif.Lemmas.Erf
import Mathlib.Analysis.Calculus.ParametricIntervalIntegral
import Mathlib.Analysis.Calculus.Deriv.MeanValue
import Mathlib.Analysis.Calculus.Deriv.Pow
import Mathlib.Analysis.Calculus.Deriv.Add
import Mathlib.Analysis.Calculus.Deriv.Mul
import Mathlib.Analysis.Calculus.Deriv.Inv
import Mathlib.Analysis.SpecialFunctions.Sqrt
import Mathlib.Analysis.SpecialFunctions.ExpDeriv
import Mathlib.MeasureTheory.Integral.DominatedConvergence
import Mathlib.MeasureTheory.Integral.IntervalIntegral.IntegrationByParts

/-! Two half-spaces that cool alike are the same: the square of the difference, weighted down to the depth `R`, grows no faster than `1 / R`. -/

namespace Shipgrav
open Spec Topology Filter Set MeasureTheory

private theorem slice {R : ℝ} {F : ℝ → ℝ → ℝ} (h : ContinuousOn (fun p : ℝ × ℝ => F p.1 p.2) (Ioi 0 ×ˢ Ici 0)) {t : ℝ} (ht : 0 < t) :
    ContinuousOn (F t) (Icc 0 R) := by
  have : ContinuousOn (fun z : ℝ => ((t, z) : ℝ × ℝ)) (Icc 0 R) := by fun_prop
  exact h.comp this (fun z hz => ⟨ht, hz.1⟩)

/-- Weighted energy of a bounded solution that vanishes at the top. -/
private theorem energy_antitone {R k B : ℝ} (hR : 0 < R) (hk : 0 ≤ k) {D Dz Dzz : ℝ → ℝ → ℝ}
    (h0 : ∀ t > 0, D t 0 = 0) (hB : ∀ t > 0, ∀ z ≥ 0, |D t z| ≤ B)
    (hc : ContinuousOn (fun p : ℝ × ℝ => D p.1 p.2) (Ioi 0 ×ˢ Ici 0)) (hczz : ContinuousOn (fun p : ℝ × ℝ => Dzz p.1 p.2) (Ioi 0 ×ˢ Ici 0))
    (hd : ∀ t > 0, ∀ z ≥ 0, HasDerivWithinAt (D t) (Dz t z) (Ici 0) z ∧ HasDerivWithinAt (Dz t) (Dzz t z) (Ici 0) z ∧
      HasDerivAt (fun s => D s z) (k * Dzz t z) t) :
    AntitoneOn (fun t => (∫ z in (0 : ℝ)..R, (1 - z / R) ^ 2 * (D t z) ^ 2) - 2 * k * (B ^ 2 / R) * t) (Ioi 0) := by
  have hI : uIoc (0 : ℝ) R = Ioc 0 R := uIoc_of_le hR.le
  have hint : ∀ {f : ℝ → ℝ}, ContinuousOn f (Icc 0 R) → IntervalIntegrable f volume 0 R := fun hf =>
    ContinuousOn.intervalIntegrable (by rwa [uIcc_of_le hR.le])
  have hmeas : ∀ {f : ℝ → ℝ}, ContinuousOn f (Icc 0 R) → AEStronglyMeasurable f (volume.restrict (uIoc (0 : ℝ) R)) := fun hf => by
    rw [hI]; exact (hf.mono Ioc_subset_Icc_self).aestronglyMeasurable measurableSet_Ioc
  have key : ∀ t > 0, HasDerivAt (fun t => ∫ z in (0 : ℝ)..R, (1 - z / R) ^ 2 * (D t z) ^ 2)
      (∫ z in (0 : ℝ)..R, (1 - z / R) ^ 2 * (2 * D t z * (k * Dzz t z))) t := by
    intro t ht
    have hK : IsCompact (Icc (t / 2) (2 * t) ×ˢ Icc (0 : ℝ) R) := isCompact_Icc.prod isCompact_Icc
    have hsub : Icc (t / 2) (2 * t) ×ˢ Icc (0 : ℝ) R ⊆ Ioi 0 ×ˢ Ici 0 :=
      prod_mono (fun s hs => lt_of_lt_of_le (by positivity) hs.1) (fun z hz => hz.1)
    have hcF : ContinuousOn (fun p : ℝ × ℝ => (1 - p.2 / R) ^ 2 * (2 * D p.1 p.2 * (k * Dzz p.1 p.2))) (Icc (t / 2) (2 * t) ×ˢ Icc (0 : ℝ) R) :=
      ContinuousOn.mul (by fun_prop) (((continuousOn_const.mul hc).mul (continuousOn_const.mul hczz)).mono hsub)
    obtain ⟨C, hC⟩ := hK.exists_bound_of_continuousOn hcF
    have s1 := slice (R := R) hc ht
    have s2 := slice (R := R) hczz ht
    refine (intervalIntegral.hasDerivAt_integral_of_dominated_loc_of_deriv_le (F := fun t z => (1 - z / R) ^ 2 * (D t z) ^ 2)
      (F' := fun t z => (1 - z / R) ^ 2 * (2 * D t z * (k * Dzz t z))) (s := Icc (t / 2) (2 * t)) (bound := fun _ => C) ?_ ?_ ?_ ?_ ?_ ?_ ?_).2
    · exact Icc_mem_nhds (by linarith) (by linarith)
    · filter_upwards [lt_mem_nhds ht] with s hs
      have s3 := slice (R := R) hc hs
      exact hmeas (by fun_prop)
    · exact hint (by fun_prop)
    · exact hmeas (by fun_prop)
    · refine Eventually.of_forall fun z hz s hs => ?_
      rw [hI] at hz
      exact hC (s, z) ⟨hs, Ioc_subset_Icc_self hz⟩
    · exact intervalIntegrable_const
    · refine Eventually.of_forall fun z hz s hs => ?_
      rw [hI] at hz
      have hs0 : 0 < s := lt_of_lt_of_le (by positivity) hs.1
      have := (((hd s hs0 z hz.1.le).2.2).pow 2).const_mul ((1 - z / R) ^ 2)
      refine this.congr_deriv ?_
      push_cast; ring
  have hle : ∀ t > 0, ∫ z in (0 : ℝ)..R, (1 - z / R) ^ 2 * (2 * D t z * (k * Dzz t z)) ≤ 2 * k * (B ^ 2 / R) := by
    intro t ht
    have s1 := slice (R := R) hc ht
    have s2 := slice (R := R) hczz ht
    have hm : Icc (0 : ℝ) R ⊆ Ici 0 := fun z hz => hz.1
    have hcz : ContinuousOn (Dz t) (Icc 0 R) := fun z hz => (((hd t ht z hz.1).2.1).mono hm).continuousWithinAt
    have hp : ∫ z in (0 : ℝ)..R, ((1 - z / R) ^ 2 * D t z) * Dzz t z = ((1 - R / R) ^ 2 * D t R) * Dz t R - ((1 - 0 / R) ^ 2 * D t 0) * Dz t 0 -
        ∫ z in (0 : ℝ)..R, (2 * (1 - z / R) * (-(1 / R)) * D t z + (1 - z / R) ^ 2 * Dz t z) * Dz t z := by
      refine intervalIntegral.integral_mul_deriv_eq_deriv_mul_of_hasDerivWithinAt ?_ ?_ (hint (by fun_prop)) (hint s2)
      · intro z hz
        rw [uIcc_of_le hR.le] at hz ⊢
        have h1 : HasDerivAt (fun z : ℝ => 1 - z / R) (-(1 / R)) z := ((hasDerivAt_id z).div_const R).const_sub 1
        have h2 := ((h1.pow 2).hasDerivWithinAt (s := Icc 0 R)).mul ((hd t ht z hz.1).1.mono hm)
        refine h2.congr_deriv ?_
        simp only [Pi.pow_apply]
        push_cast
        ring
      · intro z hz; rw [uIcc_of_le hR.le] at hz ⊢; exact (hd t ht z hz.1).2.1.mono hm
    have hsq : -(∫ z in (0 : ℝ)..R, (2 * (1 - z / R) * (-(1 / R)) * D t z + (1 - z / R) ^ 2 * Dz t z) * Dz t z) ≤ B ^ 2 / R := by
      rw [← intervalIntegral.integral_neg]
      have hb : ∫ _ in (0 : ℝ)..R, B ^ 2 / R ^ 2 = B ^ 2 / R := by
        rw [intervalIntegral.integral_const, smul_eq_mul]
        field_simp
        ring
      rw [← hb]
      refine intervalIntegral.integral_mono_on hR.le (hint (by fun_prop)) intervalIntegrable_const fun z hz => ?_
      have h1 : D t z ^ 2 ≤ B ^ 2 := sq_le_sq.mpr ((hB t ht z hz.1).trans (le_abs_self B))
      have h2 : D t z ^ 2 / R ^ 2 ≤ B ^ 2 / R ^ 2 := div_le_div_of_nonneg_right h1 (sq_nonneg R)
      refine le_trans ?_ h2
      have h3 := sq_nonneg ((1 - z / R) * Dz t z - D t z / R)
      have e : -((2 * (1 - z / R) * (-(1 / R)) * D t z + (1 - z / R) ^ 2 * Dz t z) * Dz t z) =
          D t z ^ 2 / R ^ 2 - ((1 - z / R) * Dz t z - D t z / R) ^ 2 := by ring
      rw [e]
      linarith
    have : ∫ z in (0 : ℝ)..R, (1 - z / R) ^ 2 * (2 * D t z * (k * Dzz t z)) = 2 * k * ∫ z in (0 : ℝ)..R, ((1 - z / R) ^ 2 * D t z) * Dzz t z := by
      rw [← intervalIntegral.integral_const_mul]
      congr 1; ext z; ring
    rw [this, hp, h0 t ht, div_self hR.ne']
    refine mul_le_mul_of_nonneg_left ?_ (by positivity)
    linarith
  have key2 : ∀ t > 0, HasDerivAt (fun t => (∫ z in (0 : ℝ)..R, (1 - z / R) ^ 2 * (D t z) ^ 2) - 2 * k * (B ^ 2 / R) * t)
      ((∫ z in (0 : ℝ)..R, (1 - z / R) ^ 2 * (2 * D t z * (k * Dzz t z))) - 2 * k * (B ^ 2 / R)) t := fun t ht =>
    (key t ht).sub (by simpa using (hasDerivAt_id t).const_mul (2 * k * (B ^ 2 / R)))
  refine antitoneOn_of_deriv_nonpos (convex_Ioi 0) ?_ ?_ ?_
  · exact fun t ht => (key2 t ht).continuousAt.continuousWithinAt
  · rw [interior_Ioi]; exact fun t ht => (key2 t ht).differentiableAt.differentiableWithinAt
  · rw [interior_Ioi]; exact fun t ht => by rw [(key2 t ht).deriv]; exact sub_nonpos.mpr (hle t ht)

/-- At most one temperature. -/
theorem CoolingHalfspace.unique {k Tm : ℝ} (hk : 0 ≤ k) {T T' : ℝ → ℝ → ℝ} (h : CoolingHalfspace k Tm T) (h' : CoolingHalfspace k Tm T') :
    ∀ t > 0, ∀ z ≥ 0, T t z = T' t z := by
  obtain ⟨Tz, Tzz, hcz, hd⟩ := h.heat
  obtain ⟨Tz', Tzz', hcz', hd'⟩ := h'.heat
  obtain ⟨B, hB⟩ := h.bounded
  obtain ⟨B', hB'⟩ := h'.bounded
  have hint : ∀ {R : ℝ} {f : ℝ → ℝ}, 0 ≤ R → ContinuousOn f (Icc 0 R) → IntervalIntegrable f volume 0 R := fun hR hf =>
    ContinuousOn.intervalIntegrable (by rwa [uIcc_of_le hR])
  intro t ht z hz
  have hE : ∀ R > 0, ∫ z in (0 : ℝ)..R, (1 - z / R) ^ 2 * (T t z - T' t z) ^ 2 ≤ 2 * k * ((B + B') ^ 2 / R) * t := by
    intro R hR
    have hanti := energy_antitone (B := B + B') (D := fun t z => T t z - T' t z) (Dz := fun t z => Tz t z - Tz' t z)
      (Dzz := fun t z => Tzz t z - Tzz' t z) hR hk
      (fun t ht => by rw [h.top t ht, h'.top t ht, sub_zero])
      (fun t ht z hz => (abs_sub _ _).trans (add_le_add (hB t ht z hz) (hB' t ht z hz)))
      (h.continuous.sub h'.continuous) (hcz.sub hcz')
      (fun t ht z hz => ⟨(hd t ht z hz).1.sub (hd' t ht z hz).1, (hd t ht z hz).2.1.sub (hd' t ht z hz).2.1,
        ((hd t ht z hz).2.2.sub (hd' t ht z hz).2.2).congr_deriv (by ring)⟩)
    have hlim : Tendsto (fun s => 2 * (∫ z in (0 : ℝ)..R, (T s z - Tm) ^ 2) + 2 * (∫ z in (0 : ℝ)..R, (T' s z - Tm) ^ 2)) (𝓝[>] 0) (𝓝 0) := by
      simpa using ((h.start R hR).const_mul 2).add ((h'.start R hR).const_mul 2)
    rw [← sub_nonpos]
    refine ge_of_tendsto hlim ?_
    filter_upwards [Ioo_mem_nhdsGT ht] with s hs
    refine (hanti hs.1 ht hs.2.le).trans ?_
    have c1 := slice (R := R) h.continuous hs.1
    have c2 := slice (R := R) h'.continuous hs.1
    have i1 : IntervalIntegrable (fun z => 2 * (T s z - Tm) ^ 2) volume 0 R := hint hR.le (by fun_prop)
    have i2 : IntervalIntegrable (fun z => 2 * (T' s z - Tm) ^ 2) volume 0 R := hint hR.le (by fun_prop)
    have i3 : IntervalIntegrable (fun z => (1 - z / R) ^ 2 * (T s z - T' s z) ^ 2) volume 0 R := hint hR.le (by fun_prop)
    have hs0 : 0 ≤ 2 * k * ((B + B') ^ 2 / R) * s := by have := hs.1; positivity
    refine (sub_le_self _ hs0).trans ?_
    rw [← intervalIntegral.integral_const_mul, ← intervalIntegral.integral_const_mul, ← intervalIntegral.integral_add i1 i2]
    refine intervalIntegral.integral_mono_on hR.le i3 (i1.add i2) fun z hz => ?_
    have hw0 : 0 ≤ 1 - z / R := sub_nonneg.mpr ((div_le_one hR).mpr hz.2)
    have hw1 : 1 - z / R ≤ 1 := sub_le_self _ (div_nonneg hz.1 hR.le)
    have hw : (1 - z / R) ^ 2 * (T s z - T' s z) ^ 2 ≤ (T s z - T' s z) ^ 2 := mul_le_of_le_one_left (sq_nonneg _) (pow_le_one₀ hw0 hw1)
    nlinarith [sq_nonneg (T s z - Tm + (T' s z - Tm))]
  have hz1 : 0 < z + 1 := by linarith
  have hcD : ∀ R, ContinuousOn (fun z => (T t z - T' t z) ^ 2) (Icc 0 R) := fun R => ((slice h.continuous ht).sub (slice h'.continuous ht)).pow 2
  have hzero : ∫ z in (0 : ℝ)..(z + 1), (T t z - T' t z) ^ 2 ≤ 0 := by
    have hlim : Tendsto (fun R : ℝ => 4 * (2 * k * ((B + B') ^ 2 / R) * t)) atTop (𝓝 0) := by
      have : Tendsto (fun R : ℝ => (4 * 2 * k * (B + B') ^ 2 * t) / R) atTop (𝓝 0) := tendsto_const_nhds.div_atTop tendsto_id
      refine this.congr fun R => ?_
      ring
    refine ge_of_tendsto hlim ?_
    filter_upwards [eventually_ge_atTop (2 * (z + 1))] with R hR
    have hR0 : 0 < R := by linarith
    have c1 := slice (R := R) h.continuous ht
    have c2 := slice (R := R) h'.continuous ht
    have i1 : IntervalIntegrable (fun z => (1 - z / R) ^ 2 * (T t z - T' t z) ^ 2) volume 0 R := hint hR0.le (by fun_prop)
    have hsub : uIcc 0 (z + 1) ⊆ uIcc 0 R := by
      rw [uIcc_of_le hz1.le, uIcc_of_le hR0.le]
      exact Icc_subset_Icc_right (by linarith)
    have i2 := i1.mono_set hsub
    have hm : ∫ z in (0 : ℝ)..(z + 1), (1 - z / R) ^ 2 * (T t z - T' t z) ^ 2 ≤ ∫ z in (0 : ℝ)..R, (1 - z / R) ^ 2 * (T t z - T' t z) ^ 2 :=
      intervalIntegral.integral_mono_interval le_rfl hz1.le (by linarith) (Eventually.of_forall fun z => by positivity) i1
    have h4 : ∫ z in (0 : ℝ)..(z + 1), (T t z - T' t z) ^ 2 ≤ ∫ z in (0 : ℝ)..(z + 1), 4 * ((1 - z / R) ^ 2 * (T t z - T' t z) ^ 2) := by
      refine intervalIntegral.integral_mono_on hz1.le (hint hz1.le (hcD _)) (i2.const_mul 4) fun y hy => ?_
      have : y / R ≤ 1 / 2 := by rw [div_le_iff₀ hR0]; linarith [hy.2]
      have h5 : 1 ≤ 4 * (1 - y / R) ^ 2 := by nlinarith
      nlinarith [sq_nonneg (T t y - T' t y)]
    rw [intervalIntegral.integral_const_mul] at h4
    have := hE R hR0
    linarith
  by_contra hne
  have hpos : 0 < ∫ z in (0 : ℝ)..(z + 1), (T t z - T' t z) ^ 2 :=
    intervalIntegral.integral_pos hz1 (hcD _) (fun _ _ => sq_nonneg _) ⟨z, ⟨hz, by linarith⟩, by have := sub_ne_zero.mpr hne; positivity⟩
  linarith

/-- The solution. -/
noncomputable def halfspaceTemp (k Tm t z : ℝ) : ℝ := Tm * erf (z / (2 * √(k * t)))

/-- Its first derivative in depth. -/
private noncomputable def tempZ (k Tm t z : ℝ) : ℝ := Tm * (2 / √Real.pi * Real.exp (-(z / (2 * √(k * t))) ^ 2) * (1 / (2 * √(k * t))))

/-- Its second derivative in depth. -/
private noncomputable def tempZZ (k Tm t z : ℝ) : ℝ :=
  Tm * (2 / √Real.pi * (Real.exp (-(z / (2 * √(k * t))) ^ 2) * (-(2 * (z / (2 * √(k * t))) * (1 / (2 * √(k * t)))))) * (1 / (2 * √(k * t))))

theorem halfspaceTemp_cooling {k : ℝ} (hk : 0 < k) (Tm : ℝ) : CoolingHalfspace k Tm (halfspaceTemp k Tm) where
  top t _ := by simp [halfspaceTemp, erf_zero]
  bounded := ⟨|Tm|, fun t _ z _ => by
    unfold halfspaceTemp
    rw [abs_mul]
    exact mul_le_of_le_one_right (abs_nonneg _) (abs_le.mpr ⟨(neg_one_lt_erf _).le, (erf_lt_one _).le⟩)⟩
  continuous := by
    have hne : ∀ p ∈ Ioi (0 : ℝ) ×ˢ Ici (0 : ℝ), 2 * √(k * p.1) ≠ 0 := fun p hp => by
      have : 0 < p.1 := hp.1
      positivity
    have h1 : ContinuousOn (fun p : ℝ × ℝ => p.2 / (2 * √(k * p.1))) (Ioi 0 ×ˢ Ici 0) := ContinuousOn.div (by fun_prop) (by fun_prop) hne
    exact continuousOn_const.mul (erf_continuous.comp_continuousOn h1)
  heat := by
    refine ⟨tempZ k Tm, tempZZ k Tm, ?_, fun t ht z hz => ⟨?_, ?_, ?_⟩⟩
    · have hne : ∀ p ∈ Ioi (0 : ℝ) ×ˢ Ici (0 : ℝ), 2 * √(k * p.1) ≠ 0 := fun p hp => by
        have : 0 < p.1 := hp.1
        positivity
      have h1 : ContinuousOn (fun p : ℝ × ℝ => p.2 / (2 * √(k * p.1))) (Ioi 0 ×ˢ Ici 0) := ContinuousOn.div (by fun_prop) (by fun_prop) hne
      have h2 : ContinuousOn (fun p : ℝ × ℝ => 1 / (2 * √(k * p.1))) (Ioi 0 ×ˢ Ici 0) := ContinuousOn.div (by fun_prop) (by fun_prop) hne
      unfold tempZZ
      fun_prop
    · have h1 : HasDerivAt (fun z : ℝ => z / (2 * √(k * t))) (1 / (2 * √(k * t))) z := (hasDerivAt_id z).div_const _
      exact (((erf_hasDerivAt _).comp z h1).const_mul Tm).hasDerivWithinAt
    · have h1 : HasDerivAt (fun z : ℝ => z / (2 * √(k * t))) (1 / (2 * √(k * t))) z := (hasDerivAt_id z).div_const _
      have h2 := ((((h1.pow 2).neg.exp).const_mul (2 / √Real.pi)).mul_const (1 / (2 * √(k * t)))).const_mul Tm
      refine (h2.congr_deriv ?_).hasDerivWithinAt
      unfold tempZZ
      simp
    · have hkt : 0 < k * t := by have : 0 < t := ht; positivity
      have hs : 0 < √(k * t) := by positivity
      have h1 : HasDerivAt (fun s : ℝ => k * s) k t := by simpa using (hasDerivAt_id t).const_mul k
      have h2 := (h1.sqrt hkt.ne').const_mul 2
      have h3 : HasDerivAt (fun s => z / (2 * √(k * s))) (-(z * (2 * (k / (2 * √(k * t))))) / (2 * √(k * t)) ^ 2) t := by
        have := (hasDerivAt_const t z).div h2 (by positivity)
        refine this.congr_deriv ?_
        ring
      refine (((erf_hasDerivAt _).comp t h3).const_mul Tm).congr_deriv ?_
      unfold tempZZ
      generalize Real.exp (-(z / (2 * √(k * t))) ^ 2) = E
      generalize √(k * t) = S at hs
      have hpi : √Real.pi ≠ 0 := by have := Real.pi_pos; positivity
      field_simp
  start R hR := by
    suffices h : Tendsto (fun t => ∫ z in (0 : ℝ)..R, (halfspaceTemp k Tm t z - Tm) ^ 2) (𝓝[>] 0) (𝓝 (∫ _ in (0 : ℝ)..R, (0 : ℝ))) by simpa using h
    refine intervalIntegral.tendsto_integral_filter_of_dominated_convergence (fun _ => (2 * |Tm|) ^ 2) ?_ ?_ ?_ ?_
    · refine Eventually.of_forall fun t => Continuous.aestronglyMeasurable ?_
      have : Continuous fun z : ℝ => z / (2 * √(k * t)) := by fun_prop
      exact ((continuous_const.mul (erf_continuous.comp this)).sub continuous_const).pow 2
    · refine Eventually.of_forall fun t => Eventually.of_forall fun z _ => ?_
      rw [norm_pow]
      refine pow_le_pow_left₀ (norm_nonneg _) ?_ 2
      rw [Real.norm_eq_abs, show halfspaceTemp k Tm t z - Tm = Tm * (erf (z / (2 * √(k * t))) - 1) by unfold halfspaceTemp; ring, abs_mul, mul_comm 2 |Tm|]
      refine mul_le_mul_of_nonneg_left ?_ (abs_nonneg _)
      have h1 := neg_one_lt_erf (z / (2 * √(k * t)))
      have h2 := erf_lt_one (z / (2 * √(k * t)))
      rw [abs_le]
      constructor <;> linarith
    · exact intervalIntegrable_const
    · refine Eventually.of_forall fun z hz => ?_
      rw [uIoc_of_le hR.le] at hz
      have hd : Tendsto (fun t : ℝ => 2 * √(k * t)) (𝓝[>] 0) (𝓝[>] 0) := by
        refine tendsto_nhdsWithin_iff.mpr ⟨?_, ?_⟩
        · have : Tendsto (fun t : ℝ => 2 * √(k * t)) (𝓝 0) (𝓝 (2 * √(k * 0))) := Continuous.tendsto (by fun_prop) 0
          rw [mul_zero, Real.sqrt_zero, mul_zero] at this
          exact this.mono_left nhdsWithin_le_nhds
        · filter_upwards [self_mem_nhdsWithin] with t ht
          have : 0 < t := ht
          show 0 < 2 * √(k * t)
          positivity
      have hi : Tendsto (fun t : ℝ => z / (2 * √(k * t))) (𝓝[>] 0) atTop := by
        simp only [div_eq_mul_inv]
        exact (tendsto_inv_nhdsGT_zero.comp hd).const_mul_atTop hz.1
      have := (((erf_tendsto.comp hi).const_mul Tm).sub_const Tm).pow 2
      simpa [halfspaceTemp] using this

end Shipgrav
