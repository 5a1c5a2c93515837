import Mathlib.Analysis.Calculus.Taylor
import Verif.Spec.Nav
import Verif.Spec.Eotvos

/-! Taylor's theorem with a bound of the remainder, and what it says of central differences. -/

namespace Shipgrav
open Spec

/-- Taylor's theorem on either side of the point. -/
theorem taylor_close (f : ℝ → ℝ) (n : ℕ) (hf : ContDiff ℝ ((n + 1 : ℕ) : ℕ∞) f) (t u r K : ℝ) (hu : |u| ≤ r)
    (hK : ∀ s, |s - t| ≤ r → |iteratedDeriv (n + 1) f s| ≤ K) :
    |f (t + u) - ∑ k ∈ Finset.range (n + 1), iteratedDeriv k f t / k.factorial * u ^ k| ≤ K * |u| ^ (n + 1) / (n + 1).factorial := by
  have hr : 0 ≤ r := (abs_nonneg u).trans hu
  have hK0 : 0 ≤ K := (abs_nonneg _).trans (hK t (by simpa using hr))
  rcases eq_or_ne u 0 with rfl | hu0
  · rw [Finset.sum_range_succ', Finset.sum_eq_zero (fun k _ => by simp)]
    simp
  · have hne : t ≠ t + u := fun h => hu0 (by linarith)
    obtain ⟨x', hx', he⟩ := taylor_mean_remainder_lagrange_iteratedDeriv (f := f) (n := n) hne
      ((hf.of_le (by norm_cast)).contDiffOn)
    rw [taylor_within_apply] at he
    have hs : ∑ k ∈ Finset.range (n + 1), ((k.factorial : ℝ)⁻¹ * (t + u - t) ^ k) • iteratedDerivWithin k f (Set.uIcc t (t + u)) t =
        ∑ k ∈ Finset.range (n + 1), iteratedDeriv k f t / k.factorial * u ^ k := by
      refine Finset.sum_congr rfl fun k hk => ?_
      rw [iteratedDerivWithin_eq_iteratedDeriv (uniqueDiffOn_uIcc hne) ((hf.of_le ?_).contDiffAt) Set.left_mem_uIcc, add_sub_cancel_left,
        smul_eq_mul]
      · ring
      · have := Finset.mem_range.1 hk
        norm_cast
        omega
    rw [hs] at he
    rw [he, add_sub_cancel_left, abs_div, abs_mul, abs_pow, abs_of_pos (by positivity : (0 : ℝ) < ((n + 1).factorial : ℝ))]
    have hx : |x' - t| ≤ r := by
      refine le_trans ?_ hu
      have h2 : x' ∈ Set.uIcc t (t + u) := Set.uIoo_subset_uIcc_self hx'
      have := Set.abs_sub_left_of_mem_uIcc h2
      rwa [add_sub_cancel_left] at this
    gcongr
    exact hK x' hx

/-- Tenth-order central difference of a function with eleven derivatives. -/
theorem diff10_close (f : ℝ → ℝ) (hf : ContDiff ℝ ((10 + 1 : ℕ) : ℕ∞) f) (freq K : ℝ) (hq : 0 < freq) (i : ℕ) (hi : 5 ≤ i)
    (hK : ∀ s, |s - i / freq| ≤ 5 / freq → |iteratedDeriv 11 f s| ≤ K) :
    |freq * centralDiff10 (fun k => f (k / freq)) i - deriv f (i / freq)| ≤ 0.0046 * K / freq ^ 10 := by
  obtain ⟨m, rfl⟩ : ∃ m, i = m + 5 := ⟨i - 5, by omega⟩
  obtain ⟨t, ht⟩ : ∃ t : ℝ, t = ((m + 5 : ℕ) : ℝ) / freq := ⟨_, rfl⟩
  rw [← ht] at hK ⊢
  have key : ∀ j : ℝ, |j| ≤ 5 → ∃ R : ℝ, |R| ≤ K / freq ^ 11 * |j| ^ 11 / 39916800 ∧ f (t + j / freq) =
      ∑ k ∈ Finset.range (10 + 1), iteratedDeriv k f t / k.factorial / freq ^ k * j ^ k + R := by
    intro j hj
    have h := taylor_close f 10 hf t (j / freq) (5 / freq) K
      (by rw [abs_div, abs_of_pos hq]; exact div_le_div_of_nonneg_right hj hq.le) hK
    refine ⟨f (t + j / freq) - ∑ k ∈ Finset.range (10 + 1), iteratedDeriv k f t / k.factorial * (j / freq) ^ k, ?_, ?_⟩
    · refine h.trans (le_of_eq ?_)
      rw [abs_div, abs_of_pos hq, div_pow, show ((Nat.factorial (10 + 1) : ℕ) : ℝ) = 39916800 by norm_num [Nat.factorial]]
      ring
    · rw [Finset.sum_congr rfl (g := fun k => iteratedDeriv k f t / k.factorial * (j / freq) ^ k)]
      · ring
      · intro k _
        rw [div_pow]
        ring
  have hk : ∀ (k : ℕ) (j : ℝ), (k : ℝ) = ((m + 5 : ℕ) : ℝ) + j → |j| ≤ 5 → ∃ R : ℝ, |R| ≤ K / freq ^ 11 * |j| ^ 11 / 39916800 ∧ f (k / freq) =
      ∑ k ∈ Finset.range (10 + 1), iteratedDeriv k f t / k.factorial / freq ^ k * j ^ k + R := by
    intro k j e hj
    obtain ⟨R, h1, h2⟩ := key j hj
    exact ⟨R, h1, by rw [← h2, e, add_div, ht]⟩
  obtain ⟨a1, ha1, e1⟩ := hk (m + 5 + 1) 1 (by push_cast; ring) (by norm_num)
  obtain ⟨b1, hb1, g1⟩ := hk (m + 4) (-1) (by push_cast; ring) (by norm_num)
  obtain ⟨a2, ha2, e2⟩ := hk (m + 5 + 2) 2 (by push_cast; ring) (by norm_num)
  obtain ⟨b2, hb2, g2⟩ := hk (m + 3) (-2) (by push_cast; ring) (by norm_num)
  obtain ⟨a3, ha3, e3⟩ := hk (m + 5 + 3) 3 (by push_cast; ring) (by norm_num)
  obtain ⟨b3, hb3, g3⟩ := hk (m + 2) (-3) (by push_cast; ring) (by norm_num)
  obtain ⟨a4, ha4, e4⟩ := hk (m + 5 + 4) 4 (by push_cast; ring) (by norm_num)
  obtain ⟨b4, hb4, g4⟩ := hk (m + 1) (-4) (by push_cast; ring) (by norm_num)
  obtain ⟨a5, ha5, e5⟩ := hk (m + 5 + 5) 5 (by push_cast; ring) (by norm_num)
  obtain ⟨b5, hb5, g5⟩ := hk m (-5) (by push_cast; ring) (by norm_num)
  have hC0 : 0 ≤ K / freq ^ 11 := by
    have : 0 ≤ K := (abs_nonneg _).trans (hK t (by simp; positivity))
    positivity
  have hd : deriv f t = freq * (iteratedDeriv 1 f t / (Nat.factorial 1 : ℕ) / freq ^ 1) := by
    rw [iteratedDeriv_one]
    simp
    field_simp
  have hsum : centralDiff10 (fun k => f (k / freq)) (m + 5) = iteratedDeriv 1 f t / (Nat.factorial 1 : ℕ) / freq ^ 1 +
      (5/6 * (a1 - b1) - 5/21 * (a2 - b2) + 5/84 * (a3 - b3) - 5/504 * (a4 - b4) + 1/1260 * (a5 - b5)) := by
    unfold centralDiff10
    simp only [Nat.add_sub_cancel, show m + 5 - 1 = m + 4 by omega, show m + 5 - 2 = m + 3 by omega,
      show m + 5 - 3 = m + 2 by omega, show m + 5 - 4 = m + 1 by omega]
    rw [e1, e2, e3, e4, e5, g1, g2, g3, g4, g5]
    simp only [Finset.sum_range_succ, Finset.sum_range_zero]
    generalize iteratedDeriv 1 f t / (Nat.factorial 1 : ℕ) / freq ^ 1 = q1
    ring
  rw [hsum, hd, mul_add, add_sub_cancel_left, abs_mul, abs_of_pos hq]
  have hfin : |5/6 * (a1 - b1) - 5/21 * (a2 - b2) + 5/84 * (a3 - b3) - 5/504 * (a4 - b4) + 1/1260 * (a5 - b5)| ≤ 0.0046 * (K / freq ^ 11) := by
    generalize K / freq ^ 11 = C at *
    norm_num [abs_of_pos, abs_le] at ha1 hb1 ha2 hb2 ha3 hb3 ha4 hb4 ha5 hb5 ⊢
    constructor <;> linarith
  refine (mul_le_mul_of_nonneg_left hfin hq.le).trans (le_of_eq ?_)
  field_simp

private theorem two_sides (f : ℝ → ℝ) (n : ℕ) (hf : ContDiff ℝ ((n + 1 : ℕ) : ℕ∞) f) (samp K : ℝ) (hs : 0 < samp) (m : ℕ)
    (hK : ∀ s, |s - ((m + 1 : ℕ) : ℝ) / samp| ≤ 1 / samp → |iteratedDeriv (n + 1) f s| ≤ K) :
    ∃ R Q : ℝ, |R| ≤ K / samp ^ (n + 1) / (n + 1).factorial ∧ |Q| ≤ K / samp ^ (n + 1) / (n + 1).factorial ∧
      f (((m + 1 + 1 : ℕ) : ℝ) / samp) = ∑ k ∈ Finset.range (n + 1), iteratedDeriv k f (((m + 1 : ℕ) : ℝ) / samp) / k.factorial * (1 / samp) ^ k + R ∧
      f ((m : ℝ) / samp) = ∑ k ∈ Finset.range (n + 1), iteratedDeriv k f (((m + 1 : ℕ) : ℝ) / samp) / k.factorial * (-1 / samp) ^ k + Q := by
  have h1 : |1 / samp| = 1 / samp := abs_of_pos (by positivity)
  have h2 : |-1 / samp| = 1 / samp := by rw [neg_div, abs_neg, h1]
  have a := taylor_close f n hf (((m + 1 : ℕ) : ℝ) / samp) (1 / samp) (1 / samp) K h1.le hK
  have b := taylor_close f n hf (((m + 1 : ℕ) : ℝ) / samp) (-1 / samp) (1 / samp) K h2.le hK
  rw [← add_div, show ((m + 1 : ℕ) : ℝ) + 1 = ((m + 1 + 1 : ℕ) : ℝ) by push_cast; ring, h1] at a
  rw [← add_div, show ((m + 1 : ℕ) : ℝ) + -1 = (m : ℝ) by push_cast; ring, h2] at b
  refine ⟨_, _, a.trans (le_of_eq ?_), b.trans (le_of_eq ?_), (add_sub_cancel _ _).symm, (add_sub_cancel _ _).symm⟩ <;>
  · rw [div_pow, one_pow]; ring

/-- Central difference of a function with three derivatives. -/
theorem rate_close (f : ℝ → ℝ) (hf : ContDiff ℝ ((2 + 1 : ℕ) : ℕ∞) f) (samp K : ℝ) (hs : 0 < samp) (k : ℕ) (hk : 1 ≤ k)
    (hK : ∀ s, |s - k / samp| ≤ 1 / samp → |iteratedDeriv 3 f s| ≤ K) :
    |rate (fun i => f (i / samp)) samp k - deriv f (k / samp)| ≤ K / (6 * samp ^ 2) := by
  obtain ⟨m, rfl⟩ : ∃ m, k = m + 1 := ⟨k - 1, by omega⟩
  obtain ⟨R, Q, hR, hQ, e1, e2⟩ := two_sides f 2 hf samp K hs m hK
  unfold rate
  rw [Nat.add_sub_cancel]
  beta_reduce
  rw [e1, e2]
  simp only [Finset.sum_range_succ, Finset.sum_range_zero]
  rw [← iteratedDeriv_one]
  rw [show ((Nat.factorial (2 + 1) : ℕ) : ℝ) = 6 by norm_num [Nat.factorial]] at hR hQ
  have : (0 + iteratedDeriv 0 f (((m + 1 : ℕ) : ℝ) / samp) / (Nat.factorial 0 : ℕ) * (1 / samp) ^ 0 +
      iteratedDeriv 1 f (((m + 1 : ℕ) : ℝ) / samp) / (Nat.factorial 1 : ℕ) * (1 / samp) ^ 1 +
      iteratedDeriv 2 f (((m + 1 : ℕ) : ℝ) / samp) / (Nat.factorial 2 : ℕ) * (1 / samp) ^ 2 + R -
      (0 + iteratedDeriv 0 f (((m + 1 : ℕ) : ℝ) / samp) / (Nat.factorial 0 : ℕ) * (-1 / samp) ^ 0 +
      iteratedDeriv 1 f (((m + 1 : ℕ) : ℝ) / samp) / (Nat.factorial 1 : ℕ) * (-1 / samp) ^ 1 +
      iteratedDeriv 2 f (((m + 1 : ℕ) : ℝ) / samp) / (Nat.factorial 2 : ℕ) * (-1 / samp) ^ 2 + Q)) / 2 * samp -
      iteratedDeriv 1 f (((m + 1 : ℕ) : ℝ) / samp) = (R - Q) / 2 * samp := by
    norm_num [Nat.factorial]
    field_simp
    ring
  rw [this, abs_mul, abs_of_pos hs, abs_div, abs_of_pos (by norm_num : (0 : ℝ) < 2)]
  have h2 : |R - Q| ≤ 2 * (K / samp ^ (2 + 1) / 6) := (abs_sub _ _).trans (by linarith)
  calc |R - Q| / 2 * samp ≤ 2 * (K / samp ^ (2 + 1) / 6) / 2 * samp := by gcongr
    _ = K / (6 * samp ^ 2) := by field_simp

/-- Second difference of a function with four derivatives. -/
theorem accel_close (f : ℝ → ℝ) (hf : ContDiff ℝ ((3 + 1 : ℕ) : ℕ∞) f) (samp K : ℝ) (hs : 0 < samp) (k : ℕ) (hk : 1 ≤ k)
    (hK : ∀ s, |s - k / samp| ≤ 1 / samp → |iteratedDeriv 4 f s| ≤ K) :
    |accel (fun i => f (i / samp)) samp k - iteratedDeriv 2 f (k / samp)| ≤ K / (12 * samp ^ 2) := by
  obtain ⟨m, rfl⟩ : ∃ m, k = m + 1 := ⟨k - 1, by omega⟩
  obtain ⟨R, Q, hR, hQ, e1, e2⟩ := two_sides f 3 hf samp K hs m hK
  unfold accel
  rw [Nat.add_sub_cancel]
  beta_reduce
  rw [e1, e2]
  simp only [Finset.sum_range_succ, Finset.sum_range_zero]
  rw [show ((Nat.factorial (3 + 1) : ℕ) : ℝ) = 24 by norm_num [Nat.factorial]] at hR hQ
  generalize ht : ((m + 1 : ℕ) : ℝ) / samp = t
  have : (0 + iteratedDeriv 0 f t / (Nat.factorial 0 : ℕ) * (1 / samp) ^ 0 +
      iteratedDeriv 1 f t / (Nat.factorial 1 : ℕ) * (1 / samp) ^ 1 + iteratedDeriv 2 f t / (Nat.factorial 2 : ℕ) * (1 / samp) ^ 2 +
      iteratedDeriv 3 f t / (Nat.factorial 3 : ℕ) * (1 / samp) ^ 3 + R - 2 * f t +
      (0 + iteratedDeriv 0 f t / (Nat.factorial 0 : ℕ) * (-1 / samp) ^ 0 +
      iteratedDeriv 1 f t / (Nat.factorial 1 : ℕ) * (-1 / samp) ^ 1 + iteratedDeriv 2 f t / (Nat.factorial 2 : ℕ) * (-1 / samp) ^ 2 +
      iteratedDeriv 3 f t / (Nat.factorial 3 : ℕ) * (-1 / samp) ^ 3 + Q)) * samp ^ 2 - iteratedDeriv 2 f t = (R + Q) * samp ^ 2 := by
    rw [iteratedDeriv_zero]
    norm_num [Nat.factorial]
    field_simp
    ring
  rw [this, abs_mul, abs_of_pos (by positivity : 0 < samp ^ 2)]
  have h2 : |R + Q| ≤ 2 * (K / samp ^ (3 + 1) / 24) := (abs_add_le _ _).trans (by linarith)
  calc |R + Q| * samp ^ 2 ≤ 2 * (K / samp ^ (3 + 1) / 24) * samp ^ 2 := by gcongr
    _ = K / (12 * samp ^ 2) := by field_simp; ring

end Shipgrav
