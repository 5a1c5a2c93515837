import Verif.Spec.CoolingPlate
import Mathlib.Analysis.Calculus.SmoothSeries
import Mathlib.Analysis.Normed.Group.Tannery
import Mathlib.Analysis.SpecificLimits.Normed
import Mathlib.Analysis.SpecialFunctions.Trigonometric.Deriv
import Mathlib.Analysis.SpecialFunctions.ExpDeriv
import Mathlib.NumberTheory.ZetaValues
import Mathlib.MeasureTheory.Integral.IntervalIntegral.FundThmCalculus
import Mathlib.MeasureTheory.Integral.DominatedConvergence

/-! The cooling series of a plate with all its terms. -/

namespace Shipgrav
open Spec Topology Filter Set MeasureTheory

/-- Wavenumber `(n+1)π/L`. -/
noncomputable def plateWave (L : ℝ) (n : ℕ) : ℝ := (n + 1) * Real.pi / L

/-- Amplitude of the wave `n` at time `t`. -/
noncomputable def plateAmp (L k t : ℝ) (n : ℕ) : ℝ := 2 / ((n + 1) * Real.pi) * Real.exp (-(plateWave L n) ^ 2 * k * t)

/-- The sum of all terms. -/
noncomputable def plateLimit (L k t z : ℝ) : ℝ := z / L + ∑' n, plateAmp L k t n * Real.sin (plateWave L n * z)

theorem plateWave_pos {L : ℝ} (hL : 0 < L) (n : ℕ) : 0 < plateWave L n := by unfold plateWave; have := Real.pi_pos; positivity

theorem plateAmp_pos (L k t : ℝ) (n : ℕ) : 0 < plateAmp L k t n := by unfold plateAmp; have := Real.pi_pos; positivity

theorem plateAmp_anti {L k s t : ℝ} (hk : 0 ≤ k) (h : s ≤ t) (n : ℕ) : plateAmp L k t n ≤ plateAmp L k s n := by
  unfold plateAmp
  have := Real.pi_pos
  refine mul_le_mul_of_nonneg_left (Real.exp_le_exp.mpr ?_) (by positivity)
  have : 0 ≤ (plateWave L n) ^ 2 * k := by positivity
  nlinarith

/-- Everything that is summed decreases fast. -/
theorem plate_summable {L k t : ℝ} (hL : 0 < L) (hk : 0 < k) (ht : 0 < t) (p : ℕ) : Summable fun n => plateAmp L k t n * (plateWave L n) ^ p := by
  have hp := Real.pi_pos
  obtain ⟨r, hr⟩ : ∃ r, r = Real.exp (-((Real.pi / L) ^ 2 * k * t)) := ⟨_, rfl⟩
  have hr0 : 0 < r := hr ▸ Real.exp_pos _
  have hr1 : r < 1 := by rw [hr, Real.exp_lt_one_iff]; have : 0 < (Real.pi / L) ^ 2 * k * t := by positivity
                         linarith
  have hs : Summable fun n : ℕ => ((n : ℝ)) ^ p * r ^ n := summable_pow_mul_geometric_of_norm_lt_one p (by rwa [Real.norm_of_nonneg hr0.le])
  have hs1 := ((summable_nat_add_iff 1).mpr hs).mul_left (2 / Real.pi * (Real.pi / L) ^ p)
  refine Summable.of_nonneg_of_le (fun n => mul_nonneg (plateAmp_pos L k t n).le (pow_nonneg (plateWave_pos hL n).le p)) (fun n => ?_) hs1
  unfold plateAmp plateWave
  have e1 : Real.exp (-((n + 1) * Real.pi / L) ^ 2 * k * t) ≤ r ^ (n + 1) := by
    rw [hr, ← Real.exp_nat_mul]
    refine Real.exp_le_exp.mpr ?_
    have h0 : 0 ≤ (Real.pi / L) ^ 2 * k * t := by positivity
    have h1 : (1 : ℝ) ≤ n + 1 := by have : (0 : ℝ) ≤ n := Nat.cast_nonneg n
                                    linarith
    push_cast
    have e : -((n + 1) * Real.pi / L) ^ 2 * k * t = -(((n : ℝ) + 1) ^ 2 * ((Real.pi / L) ^ 2 * k * t)) := by ring
    rw [e]
    generalize (Real.pi / L) ^ 2 * k * t = X at h0
    have h2 : 0 ≤ ((n : ℝ) + 1) * n := by positivity
    nlinarith [mul_nonneg h2 h0]
  have e2 : 2 / (((n : ℝ) + 1) * Real.pi) ≤ 2 / Real.pi := by
    refine div_le_div_of_nonneg_left (by norm_num) hp ?_
    have : (0 : ℝ) ≤ n := Nat.cast_nonneg n
    nlinarith
  have e3 : ((n + 1) * Real.pi / L) ^ p = (Real.pi / L) ^ p * ((n : ℝ) + 1) ^ p := by rw [← mul_pow]; congr 1; ring
  rw [e3]
  calc 2 / (((n : ℝ) + 1) * Real.pi) * Real.exp (-((n + 1) * Real.pi / L) ^ 2 * k * t) * ((Real.pi / L) ^ p * ((n : ℝ) + 1) ^ p)
      ≤ 2 / Real.pi * r ^ (n + 1) * ((Real.pi / L) ^ p * ((n : ℝ) + 1) ^ p) := by gcongr
    _ = 2 / Real.pi * (Real.pi / L) ^ p * (((n + 1 : ℕ) : ℝ) ^ p * r ^ (n + 1)) := by push_cast; ring

theorem plate_summable0 {L k t : ℝ} (hL : 0 < L) (hk : 0 < k) (ht : 0 < t) : Summable fun n => plateAmp L k t n := by
  simpa using plate_summable hL hk ht 0

private theorem abs_mul_sin_le (a : ℝ) (ha : 0 ≤ a) (x : ℝ) : ‖a * Real.sin x‖ ≤ a := by
  rw [norm_mul, Real.norm_of_nonneg ha]
  exact mul_le_of_le_one_right ha (Real.abs_sin_le_one x)

private theorem abs_mul_cos_le (a : ℝ) (ha : 0 ≤ a) (x : ℝ) : ‖a * Real.cos x‖ ≤ a := by
  rw [norm_mul, Real.norm_of_nonneg ha]
  exact mul_le_of_le_one_right ha (Real.abs_cos_le_one x)

theorem plate_terms_summable {L k t : ℝ} (hL : 0 < L) (hk : 0 < k) (ht : 0 < t) (z : ℝ) : Summable fun n => plateAmp L k t n * Real.sin (plateWave L n * z) :=
  Summable.of_norm_bounded (plate_summable0 hL hk ht) fun n => abs_mul_sin_le _ (plateAmp_pos L k t n).le _

/-- First derivative in depth. -/
noncomputable def plateLimitZ (L k t z : ℝ) : ℝ := 1 / L + ∑' n, plateAmp L k t n * plateWave L n * Real.cos (plateWave L n * z)

/-- Second derivative in depth. -/
noncomputable def plateLimitZZ (L k t z : ℝ) : ℝ := ∑' n, -(plateAmp L k t n * plateWave L n ^ 2 * Real.sin (plateWave L n * z))

private theorem lin_deriv (w z : ℝ) : HasDerivAt (fun y : ℝ => w * y) w z := by simpa using (hasDerivAt_id z).const_mul w

theorem plateLimit_z {L k t : ℝ} (hL : 0 < L) (hk : 0 < k) (ht : 0 < t) (z : ℝ) : HasDerivAt (plateLimit L k t) (plateLimitZ L k t z) z := by
  have h1 := hasDerivAt_tsum (u := fun n => plateAmp L k t n * plateWave L n) (g := fun n z => plateAmp L k t n * Real.sin (plateWave L n * z))
    (g' := fun n z => plateAmp L k t n * plateWave L n * Real.cos (plateWave L n * z)) (y₀ := 0)
    (by simpa using plate_summable hL hk ht 1)
    (fun n y => ((lin_deriv (plateWave L n) y).sin.const_mul _).congr_deriv (by ring))
    (fun n y => abs_mul_cos_le _ (mul_nonneg (plateAmp_pos L k t n).le (plateWave_pos hL n).le) _) (plate_terms_summable hL hk ht 0) z
  exact ((hasDerivAt_id z).div_const L).add h1

theorem plateLimit_zz {L k t : ℝ} (hL : 0 < L) (hk : 0 < k) (ht : 0 < t) (z : ℝ) : HasDerivAt (plateLimitZ L k t) (plateLimitZZ L k t z) z := by
  have h1 := hasDerivAt_tsum (u := fun n => plateAmp L k t n * plateWave L n ^ 2)
    (g := fun n z => plateAmp L k t n * plateWave L n * Real.cos (plateWave L n * z))
    (g' := fun n z => -(plateAmp L k t n * plateWave L n ^ 2 * Real.sin (plateWave L n * z))) (y₀ := 0)
    (plate_summable hL hk ht 2)
    (fun n y => ((lin_deriv (plateWave L n) y).cos.const_mul _).congr_deriv (by ring))
    (fun n y => by rw [norm_neg]; exact abs_mul_sin_le _ (mul_nonneg (plateAmp_pos L k t n).le (sq_nonneg _)) _)
    (Summable.of_norm_bounded (by simpa using plate_summable hL hk ht 1)
      fun n => abs_mul_cos_le _ (mul_nonneg (plateAmp_pos L k t n).le (plateWave_pos hL n).le) _) z
  unfold plateLimitZ plateLimitZZ
  simpa using h1.const_add (1 / L)

theorem plateLimit_t {L k t : ℝ} (hL : 0 < L) (hk : 0 < k) (ht : 0 < t) (z : ℝ) :
    HasDerivAt (fun s => plateLimit L k s z) (k * plateLimitZZ L k t z) t := by
  have hs : 0 < t / 2 := by linarith
  have h1 := hasDerivAt_tsum_of_isPreconnected (u := fun n => k * (plateAmp L k (t / 2) n * plateWave L n ^ 2)) (t := Ioi (t / 2))
    (g := fun n s => plateAmp L k s n * Real.sin (plateWave L n * z))
    (g' := fun n s => k * -(plateAmp L k s n * plateWave L n ^ 2 * Real.sin (plateWave L n * z))) (y₀ := t) (y := t)
    ((plate_summable hL hk hs 2).mul_left k) isOpen_Ioi isPreconnected_Ioi
    (fun n s _ => by
      have h0 : HasDerivAt (fun s : ℝ => -(plateWave L n) ^ 2 * k * s) (-(plateWave L n) ^ 2 * k) s := lin_deriv _ _
      unfold plateAmp
      exact ((h0.exp.const_mul _).mul_const _).congr_deriv (by ring))
    (fun n s hs' => by
      rw [norm_mul, Real.norm_of_nonneg hk.le, norm_neg]
      refine mul_le_mul_of_nonneg_left ?_ hk.le
      refine (abs_mul_sin_le _ (mul_nonneg (plateAmp_pos L k s n).le (sq_nonneg _)) _).trans ?_
      exact mul_le_mul_of_nonneg_right (plateAmp_anti hk.le (le_of_lt hs') n) (sq_nonneg _))
    (show t ∈ Ioi (t / 2) from by simp [ht]) (plate_terms_summable hL hk ht z) (show t ∈ Ioi (t / 2) from by simp [ht])
  rw [tsum_mul_left] at h1
  unfold plateLimit
  exact h1.const_add (z / L)

private theorem local_cont {L : ℝ} {F : ℝ → ℝ → ℝ}
    (h : ∀ s > 0, ContinuousOn (fun p : ℝ × ℝ => F p.1 p.2) (Ioi s ×ˢ univ)) : ContinuousOn (fun p : ℝ × ℝ => F p.1 p.2) (Ioi 0 ×ˢ Icc 0 L) := by
  rintro ⟨t, z⟩ ⟨ht, -⟩
  have ht : 0 < t := ht
  have h1 := h (t / 2) (by linarith)
  exact (h1.continuousAt ((isOpen_Ioi.prod isOpen_univ).mem_nhds ⟨(by simp [ht] : t ∈ Ioi (t / 2)), mem_univ _⟩)).continuousWithinAt

theorem plateLimit_cont {L k : ℝ} (hL : 0 < L) (hk : 0 < k) : ContinuousOn (fun p : ℝ × ℝ => plateLimit L k p.1 p.2) (Ioi 0 ×ˢ Icc 0 L) := by
  refine local_cont fun s hs => ?_
  unfold plateLimit
  refine ContinuousOn.add (by fun_prop) ?_
  refine continuousOn_tsum (u := fun n => plateAmp L k s n) (fun n => ?_) (plate_summable0 hL hk hs) (fun n p hp => ?_)
  · unfold plateAmp; fun_prop
  · exact (abs_mul_sin_le _ (plateAmp_pos L k p.1 n).le _).trans (plateAmp_anti hk.le (le_of_lt hp.1) n)

theorem plateLimitZZ_cont {L k : ℝ} (hL : 0 < L) (hk : 0 < k) : ContinuousOn (fun p : ℝ × ℝ => plateLimitZZ L k p.1 p.2) (Ioi 0 ×ˢ Icc 0 L) := by
  refine local_cont fun s hs => ?_
  unfold plateLimitZZ
  refine continuousOn_tsum (u := fun n => plateAmp L k s n * plateWave L n ^ 2) (fun n => ?_) (plate_summable hL hk hs 2) (fun n p hp => ?_)
  · unfold plateAmp; fun_prop
  · rw [norm_neg]
    refine (abs_mul_sin_le _ (mul_nonneg (plateAmp_pos L k p.1 n).le (sq_nonneg _)) _).trans ?_
    exact mul_le_mul_of_nonneg_right (plateAmp_anti hk.le (le_of_lt hp.1) n) (sq_nonneg _)

/-! ### The beginning -/

private theorem sin_wave_L {L : ℝ} (hL : 0 < L) (n : ℕ) : Real.sin (plateWave L n * L) = 0 := by
  rw [show plateWave L n * L = ((n + 1 : ℕ) : ℝ) * Real.pi by unfold plateWave; push_cast; field_simp, Real.sin_nat_mul_pi]

private theorem int_ramp {L : ℝ} (hL : 0 < L) (n : ℕ) : ∫ z in (0 : ℝ)..L, (z / L - 1) * Real.sin (plateWave L n * z) = -(1 / plateWave L n) := by
  have hw := (plateWave_pos hL n).ne'
  have hL0 := hL.ne'
  have hd : ∀ z ∈ uIcc 0 L, HasDerivAt (fun z => -(z / L - 1) * (Real.cos (plateWave L n * z) / plateWave L n) + Real.sin (plateWave L n * z) / (L * plateWave L n ^ 2))
      ((z / L - 1) * Real.sin (plateWave L n * z)) z := by
    intro z _
    have h1 : HasDerivAt (fun z : ℝ => -(z / L - 1)) (-(1 / L)) z := (((hasDerivAt_id z).div_const L).sub_const 1).neg
    have h2 := (lin_deriv (plateWave L n) z).cos.div_const (plateWave L n)
    have h3 := (lin_deriv (plateWave L n) z).sin.div_const (L * plateWave L n ^ 2)
    refine ((h1.mul h2).add h3).congr_deriv ?_
    field_simp
    ring
  rw [intervalIntegral.integral_eq_sub_of_hasDerivAt hd (Continuous.intervalIntegrable (by fun_prop) _ _), sin_wave_L hL]
  simp [div_self hL0]

private theorem int_sq {L : ℝ} (hL : 0 < L) (n : ℕ) : ∫ z in (0 : ℝ)..L, Real.sin (plateWave L n * z) ^ 2 = L / 2 := by
  have hw := (plateWave_pos hL n).ne'
  have hd : ∀ z ∈ uIcc 0 L, HasDerivAt (fun z => z / 2 - Real.sin (plateWave L n * z) * Real.cos (plateWave L n * z) / (2 * plateWave L n))
      (Real.sin (plateWave L n * z) ^ 2) z := by
    intro z _
    have h1 := (hasDerivAt_id z).div_const 2
    have h2 := ((lin_deriv (plateWave L n) z).sin.mul (lin_deriv (plateWave L n) z).cos).div_const (2 * plateWave L n)
    refine (h1.sub h2).congr_deriv ?_
    have := Real.sin_sq_add_cos_sq (plateWave L n * z)
    field_simp
    linarith
  rw [intervalIntegral.integral_eq_sub_of_hasDerivAt hd (Continuous.intervalIntegrable (by fun_prop) _ _), sin_wave_L hL]
  simp

private theorem int_cross {L : ℝ} (hL : 0 < L) {m n : ℕ} (h : m ≠ n) :
    ∫ z in (0 : ℝ)..L, Real.sin (plateWave L m * z) * Real.sin (plateWave L n * z) = 0 := by
  have hm := plateWave_pos hL m
  have hn := plateWave_pos hL n
  have hne : plateWave L m ^ 2 - plateWave L n ^ 2 ≠ 0 := by
    rw [sub_ne_zero]
    intro he
    have := (pow_left_inj₀ hm.le hn.le (by norm_num : (2 : ℕ) ≠ 0)).mp he
    unfold plateWave at this
    have hp := Real.pi_ne_zero
    have hL0 := hL.ne'
    field_simp at this
    exact h (by exact_mod_cast (by linarith : (m : ℝ) = n))
  have hd : ∀ z ∈ uIcc 0 L, HasDerivAt (fun z => (plateWave L n * (Real.sin (plateWave L m * z) * Real.cos (plateWave L n * z)) -
      plateWave L m * (Real.cos (plateWave L m * z) * Real.sin (plateWave L n * z))) / (plateWave L m ^ 2 - plateWave L n ^ 2))
      (Real.sin (plateWave L m * z) * Real.sin (plateWave L n * z)) z := by
    intro z _
    have h1 := ((lin_deriv (plateWave L m) z).sin.mul (lin_deriv (plateWave L n) z).cos).const_mul (plateWave L n)
    have h2 := ((lin_deriv (plateWave L m) z).cos.mul (lin_deriv (plateWave L n) z).sin).const_mul (plateWave L m)
    refine ((h1.sub h2).div_const _).congr_deriv ?_
    field_simp
    ring
  rw [intervalIntegral.integral_eq_sub_of_hasDerivAt hd (Continuous.intervalIntegrable (by fun_prop) _ _), sin_wave_L hL, sin_wave_L hL]
  simp

/-- The deviation from the initial temperature, with `N` terms. -/
private noncomputable def dev (L k t : ℝ) (N : ℕ) (z : ℝ) : ℝ := z / L - 1 + ∑ n ∈ Finset.range N, plateAmp L k t n * Real.sin (plateWave L n * z)

private theorem dev_cont (L k t : ℝ) (N : ℕ) : Continuous (dev L k t N) := by unfold dev; fun_prop

private theorem dev_sin {L k t : ℝ} (hL : 0 < L) (N n : ℕ) (h : N ≤ n) :
    ∫ z in (0 : ℝ)..L, dev L k t N z * Real.sin (plateWave L n * z) = -(1 / plateWave L n) := by
  induction N with
  | zero =>
    rw [← int_ramp hL n]
    simp [dev]
  | succ N ih =>
    have e : ∀ z, dev L k t (N + 1) z * Real.sin (plateWave L n * z) = dev L k t N z * Real.sin (plateWave L n * z) +
        plateAmp L k t N * (Real.sin (plateWave L N * z) * Real.sin (plateWave L n * z)) := by
      intro z; unfold dev; rw [Finset.sum_range_succ]; ring
    simp only [e]
    rw [intervalIntegral.integral_add, ih (by omega), intervalIntegral.integral_const_mul, int_cross hL (by omega), mul_zero, add_zero]
    · exact Continuous.intervalIntegrable ((dev_cont L k t N).mul (by fun_prop)) _ _
    · exact Continuous.intervalIntegrable (by fun_prop) _ _

/-- The share of wave `n` in the initial heat. -/
private noncomputable def share (L : ℝ) (n : ℕ) : ℝ := 2 * L / ((n + 1) * Real.pi) ^ 2

private theorem dev_sq {L k t : ℝ} (hL : 0 < L) (N : ℕ) : ∫ z in (0 : ℝ)..L, dev L k t N z ^ 2 =
    L / 3 - ∑ n ∈ Finset.range N, share L n * (1 - (1 - Real.exp (-(plateWave L n) ^ 2 * k * t)) ^ 2) := by
  have hL0 := hL.ne'
  have hp := Real.pi_ne_zero
  induction N with
  | zero =>
    simp only [dev, Finset.range_zero, Finset.sum_empty, add_zero, sub_zero]
    have hd : ∀ z ∈ uIcc 0 L, HasDerivAt (fun z => (z / L - 1) ^ 3 * (L / 3)) ((z / L - 1) ^ 2) z := by
      intro z _
      have h1 : HasDerivAt (fun z : ℝ => z / L - 1) (1 / L) z := ((hasDerivAt_id z).div_const L).sub_const 1
      refine ((h1.pow 3).mul_const (L / 3)).congr_deriv ?_
      push_cast
      field_simp
    rw [intervalIntegral.integral_eq_sub_of_hasDerivAt hd (Continuous.intervalIntegrable (by fun_prop) _ _), div_self hL0]
    norm_num
  | succ N ih =>
    have e : ∀ z, dev L k t (N + 1) z ^ 2 = dev L k t N z ^ 2 + 2 * plateAmp L k t N * (dev L k t N z * Real.sin (plateWave L N * z)) +
        plateAmp L k t N ^ 2 * Real.sin (plateWave L N * z) ^ 2 := by
      intro z; unfold dev; rw [Finset.sum_range_succ]; ring
    have c0 := dev_cont L k t N
    simp only [e]
    rw [intervalIntegral.integral_add (Continuous.intervalIntegrable (by fun_prop) _ _) (Continuous.intervalIntegrable (by fun_prop) _ _),
      intervalIntegral.integral_add (Continuous.intervalIntegrable (by fun_prop) _ _) (Continuous.intervalIntegrable (by fun_prop) _ _), ih,
      intervalIntegral.integral_const_mul, intervalIntegral.integral_const_mul, dev_sin hL N N le_rfl, int_sq hL, Finset.sum_range_succ]
    have e4 : share L N = 2 * L / ((N + 1) * Real.pi) ^ 2 := rfl
    unfold plateAmp
    rw [e4]
    generalize Real.exp (-(plateWave L N) ^ 2 * k * t) = q
    generalize ∑ n ∈ Finset.range N, share L n * (1 - (1 - Real.exp (-(plateWave L n) ^ 2 * k * t)) ^ 2) = S
    unfold plateWave
    have hN : (N : ℝ) + 1 ≠ 0 := by positivity
    field_simp
    ring

private theorem share_sum {L : ℝ} : HasSum (share L) (L / 3) := by
  have h := (hasSum_nat_add_iff' (f := fun n : ℕ => (1 : ℝ) / (n : ℝ) ^ 2) 1).mpr hasSum_zeta_two
  simp only [Finset.range_one, Finset.sum_singleton, Nat.cast_zero] at h
  have h2 := h.mul_left (2 * L / Real.pi ^ 2)
  have hp := Real.pi_ne_zero
  have e1 : share L = fun n : ℕ => 2 * L / Real.pi ^ 2 * (1 / ((n + 1 : ℕ) : ℝ) ^ 2) := by
    funext n; unfold share; push_cast; field_simp
  have e2 : L / 3 = 2 * L / Real.pi ^ 2 * (Real.pi ^ 2 / 6 - 1 / 0 ^ 2) := by
    norm_num; field_simp; ring
  rw [e1, e2]
  exact h2

private theorem share_nonneg {L : ℝ} (hL : 0 < L) (n : ℕ) : 0 ≤ share L n := by unfold share; positivity

/-- The square of the deviation, all terms. -/
private theorem dev_total {L k t : ℝ} (hL : 0 < L) (hk : 0 < k) (ht : 0 < t) :
    ∫ z in (0 : ℝ)..L, (plateLimit L k t z - 1) ^ 2 = ∑' n, share L n * (1 - Real.exp (-(plateWave L n) ^ 2 * k * t)) ^ 2 := by
  have hq : ∀ n, 0 ≤ Real.exp (-(plateWave L n) ^ 2 * k * t) ∧ Real.exp (-(plateWave L n) ^ 2 * k * t) ≤ 1 := fun n =>
    ⟨(Real.exp_pos _).le, Real.exp_le_one_iff.mpr (by have : 0 ≤ plateWave L n ^ 2 * k * t := by positivity
                                                      linarith)⟩
  have hs1 : Summable fun n => share L n * (1 - Real.exp (-(plateWave L n) ^ 2 * k * t)) ^ 2 := by
    refine Summable.of_nonneg_of_le (fun n => mul_nonneg (share_nonneg hL n) (sq_nonneg _)) (fun n => ?_) (share_sum (L := L)).summable
    refine mul_le_of_le_one_right (share_nonneg hL n) ?_
    have := hq n
    nlinarith
  have hlim1 : Tendsto (fun N => ∫ z in (0 : ℝ)..L, dev L k t N z ^ 2) atTop (𝓝 (∫ z in (0 : ℝ)..L, (plateLimit L k t z - 1) ^ 2)) := by
    refine intervalIntegral.tendsto_integral_filter_of_dominated_convergence (fun _ => (1 + ∑' n, plateAmp L k t n) ^ 2) ?_ ?_ ?_ ?_
    · exact Eventually.of_forall fun N => ((dev_cont L k t N).pow 2).aestronglyMeasurable
    · refine Eventually.of_forall fun N => Eventually.of_forall fun z hz => ?_
      rw [uIoc_of_le hL.le] at hz
      rw [norm_pow]
      refine pow_le_pow_left₀ (norm_nonneg _) ?_ 2
      unfold dev
      refine (norm_add_le _ _).trans (add_le_add ?_ ?_)
      · have h1 : z / L ≤ 1 := (div_le_one hL).mpr hz.2
        have h0 : 0 ≤ z / L := div_nonneg hz.1.le hL.le
        rw [Real.norm_eq_abs, abs_le]; constructor <;> linarith
      · refine (norm_sum_le _ _).trans ((Finset.sum_le_sum fun n _ => abs_mul_sin_le _ (plateAmp_pos L k t n).le _).trans ?_)
        exact (plate_summable0 hL hk ht).sum_le_tsum _ fun n _ => (plateAmp_pos L k t n).le
    · exact intervalIntegrable_const
    · refine Eventually.of_forall fun z _ => ?_
      refine Tendsto.pow ?_ 2
      have := ((plate_terms_summable hL hk ht z).hasSum.tendsto_sum_nat).const_add (z / L - 1)
      unfold dev plateLimit
      convert this using 2
      ring
  have hlim2 : Tendsto (fun N => ∫ z in (0 : ℝ)..L, dev L k t N z ^ 2) atTop
      (𝓝 (∑' n, share L n * (1 - Real.exp (-(plateWave L n) ^ 2 * k * t)) ^ 2)) := by
    have h := (share_sum (L := L)).sub hs1.hasSum
    have h3 := h.tendsto_sum_nat.const_sub (L / 3)
    rw [sub_sub_cancel] at h3
    refine h3.congr fun N => ?_
    rw [dev_sq hL N]
    congr 1
    exact Finset.sum_congr rfl fun n _ => by ring
  exact tendsto_nhds_unique hlim1 hlim2

/-- The series is a cooling plate. -/
theorem plateLimit_cooling {L k : ℝ} (hL : 0 < L) (hk : 0 < k) (Tm : ℝ) : CoolingPlate L k Tm (fun t z => Tm * plateLimit L k t z) where
  top t ht := by simp [plateLimit]
  base t ht := by
    unfold plateLimit
    simp only [sin_wave_L hL, mul_zero, tsum_zero, add_zero, div_self hL.ne', mul_one]
  continuous := continuousOn_const.mul (plateLimit_cont hL hk)
  heat := by
    refine ⟨fun t z => Tm * plateLimitZ L k t z, fun t z => Tm * plateLimitZZ L k t z, continuousOn_const.mul (plateLimitZZ_cont hL hk), fun t ht z _ => ⟨?_, ?_, ?_⟩⟩
    · exact ((plateLimit_z hL hk ht z).const_mul Tm).hasDerivWithinAt
    · exact ((plateLimit_zz hL hk ht z).const_mul Tm).hasDerivWithinAt
    · exact ((plateLimit_t hL hk ht z).const_mul Tm).congr_deriv (by ring)
  start := by
    have hev : (fun t => Tm ^ 2 * ∑' n, share L n * (1 - Real.exp (-(plateWave L n) ^ 2 * k * t)) ^ 2) =ᶠ[𝓝[>] 0]
        fun t => ∫ z in (0 : ℝ)..L, (Tm * plateLimit L k t z - Tm) ^ 2 := by
      filter_upwards [self_mem_nhdsWithin] with t ht
      rw [← dev_total hL hk ht, ← intervalIntegral.integral_const_mul]
      congr 1; ext z; ring
    refine Tendsto.congr' hev ?_
    have h0 : Tendsto (fun t => ∑' n, share L n * (1 - Real.exp (-(plateWave L n) ^ 2 * k * t)) ^ 2) (𝓝[>] 0) (𝓝 (∑' _ : ℕ, (0 : ℝ))) := by
      refine tendsto_tsum_of_dominated_convergence (share_sum (L := L)).summable (fun n => ?_) ?_
      · have hc : Continuous fun t => share L n * (1 - Real.exp (-(plateWave L n) ^ 2 * k * t)) ^ 2 := by fun_prop
        have := hc.tendsto 0
        simp only [mul_zero, Real.exp_zero, sub_self] at this
        refine (this.mono_left nhdsWithin_le_nhds).congr' ?_ |>.trans ?_
        · exact EventuallyEq.rfl
        · norm_num
      · filter_upwards [self_mem_nhdsWithin] with t ht n
        have ht : 0 < t := ht
        have hq0 := Real.exp_pos (-(plateWave L n) ^ 2 * k * t)
        have hq1 : Real.exp (-(plateWave L n) ^ 2 * k * t) ≤ 1 :=
          Real.exp_le_one_iff.mpr (by have : 0 ≤ plateWave L n ^ 2 * k * t := by positivity
                                      linarith)
        rw [norm_mul, Real.norm_of_nonneg (share_nonneg hL n), Real.norm_of_nonneg (sq_nonneg _)]
        refine mul_le_of_le_one_right (share_nonneg hL n) ?_
        nlinarith
    rw [tsum_zero] at h0
    simpa using h0.const_mul (Tm ^ 2)

end Shipgrav
