import Mathlib.Analysis.SpecialFunctions.Trigonometric.Deriv
import Mathlib.Analysis.Calculus.LocalExtr.Basic
import Mathlib.Algebra.BigOperators.Intervals
import Mathlib.Topology.Order.Compact
import Mathlib.Analysis.SpecialFunctions.Trigonometric.Basic
import Mathlib.Tactic.Linarith
import Mathlib.Tactic.FieldSimp

/-! The partial sums of `sin nθ / n` are not negative between 0 and π, and consequences. -/

namespace Shipgrav
open Real Finset

/-- Partial sum of `sin nθ / n`. -/
noncomputable def sineSum (N : ℕ) (θ : ℝ) : ℝ := ∑ n ∈ Icc 1 N, sin (n * θ) / n

theorem sineSum_succ (N : ℕ) (θ : ℝ) : sineSum (N + 1) θ = sineSum N θ + sin ((N + 1 : ℕ) * θ) / (N + 1 : ℕ) := by
  unfold sineSum
  rw [Finset.sum_Icc_succ_top (by omega)]

theorem sineSum_hasDerivAt (N : ℕ) (θ : ℝ) : HasDerivAt (sineSum N) (∑ n ∈ Icc 1 N, cos (n * θ)) θ := by
  unfold sineSum
  apply HasDerivAt.fun_sum
  intro n hn
  have hn0 : (n : ℝ) ≠ 0 := by exact_mod_cast (by have := (Finset.mem_Icc.mp hn).1; omega : n ≠ 0)
  have h := (((hasDerivAt_id θ).const_mul (n : ℝ)).sin).div_const (n : ℝ)
  refine h.congr_deriv ?_
  simp only [id, mul_one]
  field_simp

theorem cos_sum_closed (N : ℕ) (θ : ℝ) : 2 * sin (θ / 2) * ∑ n ∈ Icc 1 N, cos (n * θ) = sin ((N + 1 / 2) * θ) - sin (θ / 2) := by
  induction N with
  | zero => simp; rw [show (2 : ℝ)⁻¹ * θ = θ / 2 by ring]; ring
  | succ N ih =>
    rw [Finset.sum_Icc_succ_top (by omega), mul_add, ih]
    have h1 : sin (((N + 1 : ℕ) + 1 / 2) * θ) = sin ((N + 1 : ℕ) * θ + θ / 2) := by congr 1; ring
    have h2 : sin ((N + 1 / 2) * θ) = sin ((N + 1 : ℕ) * θ - θ / 2) := by congr 1; push_cast; ring
    rw [h1, h2, sin_add, sin_sub]
    ring

theorem sineSum_nonneg (N : ℕ) : ∀ θ ∈ Set.Icc 0 π, 0 ≤ sineSum N θ := by
  induction N with
  | zero => intro θ _; simp [sineSum]
  | succ N ih =>
    have hcont : Continuous (sineSum (N + 1)) := continuous_iff_continuousAt.mpr fun θ => (sineSum_hasDerivAt (N + 1) θ).continuousAt
    obtain ⟨m, hm, hmin⟩ := isCompact_Icc.exists_isMinOn (Set.nonempty_Icc.mpr pi_pos.le) hcont.continuousOn
    have hend : sineSum (N + 1) 0 = 0 ∧ sineSum (N + 1) π = 0 := by
      constructor
      · simp [sineSum]
      · unfold sineSum
        apply Finset.sum_eq_zero
        intro n _
        rw [sin_nat_mul_pi, zero_div]
    have hmv : 0 ≤ sineSum (N + 1) m := by
      rcases eq_or_lt_of_le hm.1 with h0 | h0
      · rw [← h0, hend.1]
      rcases eq_or_lt_of_le hm.2 with h1 | h1
      · rw [h1, hend.2]
      have hloc : IsLocalMin (sineSum (N + 1)) m := hmin.isLocalMin (Icc_mem_nhds h0 h1)
      have hd := hloc.hasDerivAt_eq_zero (sineSum_hasDerivAt (N + 1) m)
      have hc := cos_sum_closed (N + 1) m
      rw [hd, mul_zero] at hc
      have hs : sin (((N + 1 : ℕ) + 1 / 2) * m) = sin (m / 2) := by linarith
      have hcos0 : 0 ≤ cos (m / 2) := cos_nonneg_of_mem_Icc ⟨by linarith, by linarith⟩
      have hsin0 : 0 ≤ sin (m / 2) := sin_nonneg_of_nonneg_of_le_pi (by linarith) (by linarith)
      have hle : cos (((N + 1 : ℕ) + 1 / 2) * m) ≤ cos (m / 2) := by
        have e1 := sin_sq_add_cos_sq (((N + 1 : ℕ) + 1 / 2) * m)
        have e2 := sin_sq_add_cos_sq (m / 2)
        rw [hs] at e1
        apply abs_le_of_sq_le_sq' _ hcos0 |>.2
        linarith
      have hsn : 0 ≤ sin ((N + 1 : ℕ) * m) := by
        rw [show ((N + 1 : ℕ) : ℝ) * m = ((N + 1 : ℕ) + 1 / 2) * m - m / 2 by ring, sin_sub, hs]
        nlinarith
      rw [sineSum_succ]
      have := ih m hm
      positivity
    intro θ hθ
    exact hmv.trans (hmin hθ)

/-- Decreasing non-negative weights keep the sum non-negative. -/
theorem weighted_nonneg (w : ℕ → ℝ) (f : ℕ → ℝ) (N : ℕ) (hw : ∀ n, 1 ≤ n → w (n + 1) ≤ w n) (hw0 : ∀ n, 0 ≤ w n)
    (hf : ∀ n, 0 ≤ ∑ i ∈ Icc 1 n, f i) : 0 ≤ ∑ i ∈ Icc 1 N, w i * f i := by
  have key : ∀ N, w (N + 1) * (∑ i ∈ Icc 1 (N + 1), f i) ≤ ∑ i ∈ Icc 1 (N + 1), w i * f i := by
    intro N
    induction N with
    | zero => simp
    | succ N ih =>
      rw [Finset.sum_Icc_succ_top (by omega), Finset.sum_Icc_succ_top (a := 1) (b := N + 1) (f := fun i => w i * f i) (by omega)]
      have h1 : w (N + 1 + 1) * (∑ i ∈ Icc 1 (N + 1), f i) ≤ w (N + 1) * (∑ i ∈ Icc 1 (N + 1), f i) :=
        mul_le_mul_of_nonneg_right (hw (N + 1) (by omega)) (hf _)
      linarith
  rcases N with _ | N
  · simp
  · exact (mul_nonneg (hw0 _) (hf _)).trans (key N)

/-- `|sin nφ| ≤ n sin φ` between 0 and π. -/
theorem abs_sin_nat_mul_le (n : ℕ) (φ : ℝ) (h0 : 0 ≤ φ) (h1 : φ ≤ π) : |sin (n * φ)| ≤ n * sin φ := by
  have hs : 0 ≤ sin φ := sin_nonneg_of_nonneg_of_le_pi h0 h1
  induction n with
  | zero => simp
  | succ n ih =>
    rw [show ((n + 1 : ℕ) : ℝ) * φ = n * φ + φ by push_cast; ring, sin_add]
    have e1 : |sin (n * φ) * cos φ| ≤ |sin (n * φ)| := by
      rw [abs_mul]; exact mul_le_of_le_one_right (abs_nonneg _) (abs_cos_le_one _)
    have e2 : |cos (n * φ) * sin φ| ≤ sin φ := by
      rw [abs_mul, abs_of_nonneg hs]; exact mul_le_of_le_one_left hs (abs_cos_le_one _)
    have := abs_add_le (sin (n * φ) * cos φ) (cos (n * φ) * sin φ)
    push_cast
    linarith

end Shipgrav
