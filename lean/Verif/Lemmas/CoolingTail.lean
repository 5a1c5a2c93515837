import Verif.Lemmas.CoolingUnique
import Verif.Lemmas.CoolingSeries
import Verif.Lemmas.Isostasy
import Verif.Spec.Isostasy
import Verif.Spec.Thermal

/-! What the cooling series of a plate loses when it is cut off. -/

namespace Shipgrav
open Spec Topology Filter Set MeasureTheory

theorem plateDecay_pos (L k t : ℝ) : 0 < plateDecay L k t := Real.exp_pos _

theorem plateDecay_lt_one {L k t : ℝ} (hL : 0 < L) (hk : 0 < k) (ht : 0 < t) : plateDecay L k t < 1 := by
  have hp := Real.pi_pos
  unfold plateDecay
  rw [Real.exp_lt_one_iff]
  have : 0 < (Real.pi / L) ^ 2 * k * t := by positivity
  linarith

theorem plateAmp_decay (L k t : ℝ) (n : ℕ) : plateAmp L k t n = 2 / ((n + 1) * Real.pi) * plateDecay L k t ^ ((n + 1) ^ 2) := by
  unfold plateAmp plateDecay plateWave
  rw [← Real.exp_nat_mul]
  congr 2
  push_cast
  ring

theorem plateLimit_sub {L k t : ℝ} (hL : 0 < L) (hk : 0 < k) (ht : 0 < t) (z : ℝ) (N : ℕ) :
    plateLimit L k t z - plateSeries N L k t z = ∑' n, plateAmp L k t (n + N) * Real.sin (plateWave L (n + N) * z) := by
  unfold plateLimit plateSeries
  rw [← (plate_terms_summable hL hk ht z).sum_add_tsum_nat_add N]
  have e : ∑ n ∈ Finset.Icc 1 N, 2 / ((n : ℝ) * Real.pi) * Real.exp (-(n * Real.pi / L) ^ 2 * k * t) * Real.sin (n * Real.pi * z / L)
      = ∑ n ∈ Finset.range N, plateAmp L k t n * Real.sin (plateWave L n * z) := by
    rw [Finset.range_eq_Ico, Finset.sum_bij (fun n _ => n - 1)]
    · intro n hn
      simp only [Finset.mem_Icc, Finset.mem_Ico] at *
      omega
    · intro a ha b hb h
      simp only [Finset.mem_Icc] at *
      omega
    · intro b hb
      simp only [Finset.mem_Icc, Finset.mem_Ico] at *
      exact ⟨b + 1, by omega, by omega⟩
    · intro n hn
      obtain ⟨m, rfl⟩ : ∃ m, n = m + 1 := ⟨n - 1, by simp only [Finset.mem_Icc] at hn; omega⟩
      simp only [Nat.add_sub_cancel]
      unfold plateAmp plateWave
      push_cast
      congr 2
      ring
  rw [e]
  ring

/-- Ten terms of the series. -/
theorem plate_tail {L k t : ℝ} (hL : 0 < L) (hk : 0 < k) (ht : 0 < t) (z : ℝ) :
    |plateSeries 10 L k t z - plateLimit L k t z| ≤ 2 / (11 * Real.pi) * (plateDecay L k t ^ 121 / (1 - plateDecay L k t ^ 23)) := by
  have hp := Real.pi_pos
  rw [abs_sub_comm, plateLimit_sub hL hk ht]
  have q0 := plateDecay_pos L k t
  have q1 := plateDecay_lt_one hL hk ht
  have hg : HasSum (fun n : ℕ => 2 / (11 * Real.pi) * (plateDecay L k t ^ 121 * (plateDecay L k t ^ 23) ^ n))
      (2 / (11 * Real.pi) * (plateDecay L k t ^ 121 * (1 - plateDecay L k t ^ 23)⁻¹)) :=
    ((hasSum_geometric_of_lt_one (by positivity) (pow_lt_one₀ q0.le q1 (by norm_num))).mul_left _).mul_left _
  rw [← Real.norm_eq_abs, div_eq_mul_inv (plateDecay L k t ^ 121)]
  refine tsum_of_norm_bounded hg fun n => ?_
  rw [norm_mul, Real.norm_of_nonneg (plateAmp_pos _ _ _ _).le]
  refine (mul_le_of_le_one_right (plateAmp_pos _ _ _ _).le (Real.abs_sin_le_one _)).trans ?_
  rw [plateAmp_decay, ← pow_mul, ← pow_add]
  have hn : (0 : ℝ) ≤ n := Nat.cast_nonneg n
  refine mul_le_mul ?_ (pow_le_pow_of_le_one q0.le q1.le ?_) (by positivity) (by positivity)
  · refine div_le_div_of_nonneg_left (by norm_num) (by positivity) ?_
    push_cast
    nlinarith
  · have := Nat.le_self_pow (n := 2) (by norm_num) n
    nlinarith

/-- The wave `n` over the thickness. -/
noncomputable def plateArea (L k t : ℝ) (n : ℕ) : ℝ := plateAmp L k t n * (L / ((n + 1) * Real.pi) * (1 - (-1) ^ (n + 1)))

theorem plateArea_hasSum {L k t : ℝ} (hL : 0 < L) (hk : 0 < k) (ht : 0 < t) :
    HasSum (plateArea L k t) (∫ z in (0 : ℝ)..L, (plateLimit L k t z - z / L)) := by
  have h := intervalIntegral.hasSum_integral_of_dominated_convergence (μ := volume) (a := 0) (b := L)
    (F := fun n z => plateAmp L k t n * Real.sin (plateWave L n * z)) (f := fun z => plateLimit L k t z - z / L)
    (fun n _ => plateAmp L k t n) (fun n => (by fun_prop : Continuous fun z => plateAmp L k t n * Real.sin (plateWave L n * z)).aestronglyMeasurable)
    (fun n => Eventually.of_forall fun z _ => by
      rw [norm_mul, Real.norm_of_nonneg (plateAmp_pos _ _ _ _).le]
      exact mul_le_of_le_one_right (plateAmp_pos _ _ _ _).le (Real.abs_sin_le_one _))
    (Eventually.of_forall fun z _ => plate_summable0 hL hk ht) (by simp)
    (Eventually.of_forall fun z _ => by
      have := (plate_terms_summable hL hk ht z).hasSum
      unfold plateLimit
      rwa [add_sub_cancel_left])
  have e : (fun n => ∫ z in (0 : ℝ)..L, plateAmp L k t n * Real.sin (plateWave L n * z)) = plateArea L k t := by
    funext n
    rw [intervalIntegral.integral_const_mul]
    have h1 := integral_sine (n + 1) (by omega) L hL
    have h2 : (fun z : ℝ => Real.sin (plateWave L n * z)) = fun z => Real.sin (((n + 1 : ℕ) : ℝ) * Real.pi * z / L) := by
      funext z
      congr 1
      unfold plateWave
      push_cast
      ring
    rw [h2, h1]
    unfold plateArea
    push_cast
    rfl
  rwa [e] at h

theorem plateArea_odd (L k t : ℝ) (n : ℕ) : plateArea L k t (2 * n + 1) = 0 := by
  unfold plateArea
  rw [show 2 * n + 1 + 1 = 2 * (n + 1) by ring, pow_mul]
  simp

theorem plateArea_even (L k t : ℝ) (n : ℕ) :
    plateArea L k t (2 * n) = 4 * L / ((2 * n + 1) * Real.pi) ^ 2 * plateDecay L k t ^ ((2 * n + 1) ^ 2) := by
  have hp := Real.pi_pos
  unfold plateArea
  rw [plateAmp_decay, pow_succ (-1 : ℝ), pow_mul]
  have : (0 : ℝ) < 2 * n + 1 := by positivity
  push_cast
  norm_num
  field_simp
  ring

/-- The mean of the plate without the terms beyond the fifth. -/
theorem plate_area_tail {L k t : ℝ} (hL : 0 < L) (hk : 0 < k) (ht : 0 < t) :
    ∃ r, 0 ≤ r ∧ r ≤ 4 / (49 * Real.pi ^ 2) * (plateDecay L k t ^ 49 / (1 - plateDecay L k t ^ 32)) ∧
      (∫ z in (0 : ℝ)..L, (plateLimit L k t z - z / L)) =
        L * (4 / Real.pi ^ 2 * (plateDecay L k t + plateDecay L k t ^ 9 / 9 + plateDecay L k t ^ 25 / 25)) + L * r := by
  have hp := Real.pi_pos
  have q0 := plateDecay_pos L k t
  have q1 := plateDecay_lt_one hL hk ht
  have hs := plateArea_hasSum hL hk ht
  have hinj : Function.Injective fun n : ℕ => 2 * n := fun a b h => by simpa using h
  have he : HasSum (fun n => plateArea L k t (2 * n)) (∫ z in (0 : ℝ)..L, (plateLimit L k t z - z / L)) := by
    refine (hinj.hasSum_iff ?_).mpr hs
    intro n hn
    rcases Nat.even_or_odd' n with ⟨m, rfl | rfl⟩
    · exact absurd ⟨m, rfl⟩ hn
    · exact plateArea_odd L k t m
  have hnn : ∀ n, 0 ≤ plateArea L k t (2 * n) := fun n => by rw [plateArea_even]; positivity
  have hg : HasSum (fun n : ℕ => 4 * L / (49 * Real.pi ^ 2) * (plateDecay L k t ^ 49 * (plateDecay L k t ^ 32) ^ n))
      (4 * L / (49 * Real.pi ^ 2) * (plateDecay L k t ^ 49 * (1 - plateDecay L k t ^ 32)⁻¹)) :=
    ((hasSum_geometric_of_lt_one (by positivity) (pow_lt_one₀ q0.le q1 (by norm_num))).mul_left _).mul_left _
  have ht3 : Summable fun n => plateArea L k t (2 * (n + 3)) := (summable_nat_add_iff 3).mpr he.summable
  refine ⟨(∑' n, plateArea L k t (2 * (n + 3))) / L, div_nonneg (tsum_nonneg fun n => hnn _) hL.le, ?_, ?_⟩
  · rw [div_le_iff₀ hL]
    have := hasSum_le (fun n => ?_) ht3.hasSum hg
    · refine this.trans (le_of_eq ?_)
      rw [div_eq_mul_inv (plateDecay L k t ^ 49)]
      ring
    · beta_reduce
      rw [plateArea_even, ← pow_mul, ← pow_add]
      have hn : (0 : ℝ) ≤ n := Nat.cast_nonneg n
      refine mul_le_mul ?_ (pow_le_pow_of_le_one q0.le q1.le ?_) (by positivity) (by positivity)
      · refine div_le_div_of_nonneg_left (by positivity) (by positivity) ?_
        rw [mul_pow]
        refine mul_le_mul_of_nonneg_right ?_ (by positivity)
        push_cast
        nlinarith
      · have := Nat.le_self_pow (n := 2) (by norm_num) n
        nlinarith
  · rw [mul_div_cancel₀ _ hL.ne', ← he.tsum_eq, ← he.summable.sum_add_tsum_nat_add 3]
    congr 1
    rw [Finset.sum_range_succ, Finset.sum_range_succ, Finset.sum_range_one, plateArea_even, plateArea_even, plateArea_even]
    norm_num
    field_simp
    ring

end Shipgrav
