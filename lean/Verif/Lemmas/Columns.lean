import Mathlib.Analysis.SpecialFunctions.Integrals.Basic
import Mathlib.Analysis.SpecialFunctions.Exponential
import Verif.Spec.Columns

/-! Remainder of the exponential series and its meaning for a column of rock. -/

namespace Shipgrav
open Spec Real

theorem exp_rest_nonneg (y : ℝ) (hy : 0 ≤ y) (n : ℕ) :
    exp y - ∑ m ∈ Finset.range n, y ^ m / m.factorial ≤ y ^ n / n.factorial * exp y := by
  have hs : Summable fun m : ℕ => y ^ m / m.factorial := Real.summable_pow_div_factorial y
  have he : exp y = ∑' m : ℕ, y ^ m / m.factorial := by
    rw [Real.exp_eq_exp_ℝ, NormedSpace.exp_eq_tsum_div]
  have h1 := hs.sum_add_tsum_nat_add n
  rw [← he] at h1
  have h2 : exp y - ∑ m ∈ Finset.range n, y ^ m / m.factorial = ∑' m : ℕ, y ^ (m + n) / (m + n).factorial := by linarith
  rw [h2]
  rw [he]
  rw [← tsum_mul_left]
  refine Summable.tsum_le_tsum ?_ ((summable_nat_add_iff n).2 hs) (hs.mul_left _)
  intro m
  rw [div_mul_div_comm, ← pow_add, add_comm n m]
  apply div_le_div_of_nonneg_left (by positivity) (by positivity)
  have : (n.factorial * m.factorial) ≤ (m + n).factorial := by
    rw [add_comm]
    exact Nat.le_of_dvd (Nat.factorial_pos _) (Nat.factorial_mul_factorial_dvd_factorial_add n m)
  exact_mod_cast this

theorem exp_rest (x : ℝ) (n : ℕ) :
    |exp x - ∑ m ∈ Finset.range n, x ^ m / m.factorial| ≤ |x| ^ n / n.factorial * exp |x| := by
  have h := Complex.norm_exp_sub_sum_le_exp_norm_sub_sum (x : ℂ) n
  have hc : ‖Complex.exp (x : ℂ) - ∑ m ∈ Finset.range n, (x : ℂ) ^ m / (m.factorial : ℂ)‖ =
      |exp x - ∑ m ∈ Finset.range n, x ^ m / m.factorial| := by
    rw [← Real.norm_eq_abs, ← Complex.norm_real]
    congr 1
    push_cast
    rfl
  rw [hc, Complex.norm_real, Real.norm_eq_abs] at h
  exact h.trans (exp_rest_nonneg _ (abs_nonneg _) n)

theorem column_eq (κ c h : ℝ) (hκ : κ ≠ 0) : column κ c h = exp (-c * κ) * ((exp (κ * h) - 1) / κ) := by
  unfold column
  have h1 : ∀ z : ℝ, exp (-κ * (c - z)) = exp (-c * κ) * exp (κ * z) := by
    intro z
    rw [← exp_add]
    congr 1
    ring
  simp only [h1]
  rw [intervalIntegral.integral_const_mul, intervalIntegral.integral_comp_mul_left (f := exp) (c := κ) hκ]
  simp
  ring

theorem column_zero (c h : ℝ) : column 0 c h = h := by
  unfold column
  simp

/-- `P` powers of the series instead of the column. -/
theorem column_series (κ c h : ℝ) (P : ℕ) :
    |exp (-c * κ) * ∑ p ∈ Finset.Icc 1 P, κ ^ (p - 1) / p.factorial * h ^ p - column κ c h| ≤
      exp (-c * κ) * (|κ| ^ P * |h| ^ (P + 1) / (P + 1).factorial * exp (|κ| * |h|)) := by
  by_cases hκ : κ = 0
  · subst hκ
    rw [column_zero]
    rcases P with _ | P
    · simp
    · have : ∑ p ∈ Finset.Icc 1 (P + 1), (0 : ℝ) ^ (p - 1) / p.factorial * h ^ p = h := by
        rw [Finset.sum_eq_single 1]
        · simp
        · intro b hb hb1
          have := (Finset.mem_Icc.mp hb).1
          rw [zero_pow (by omega)]
          simp
        · intro h; simp at h
      rw [this]
      simp
  rw [column_eq κ c h hκ, ← mul_sub, abs_mul, abs_of_pos (exp_pos _)]
  refine mul_le_mul_of_nonneg_left ?_ (exp_pos _).le
  have h1 : ∑ p ∈ Finset.Icc 1 P, κ ^ (p - 1) / p.factorial * h ^ p - (exp (κ * h) - 1) / κ =
      -(1 / κ) * (exp (κ * h) - ∑ m ∈ Finset.range (P + 1), (κ * h) ^ m / m.factorial) := by
    rw [Finset.sum_range_succ', show Finset.Icc 1 P = Finset.Ico 1 (P + 1) from rfl, Finset.sum_Ico_eq_sum_range]
    have : ∀ i ∈ Finset.range P, (κ * h) ^ (i + 1) / ((i + 1).factorial : ℝ) = κ * (κ ^ (1 + i - 1) / (1 + i).factorial * h ^ (1 + i)) := by
      intro i _
      rw [show 1 + i - 1 = i by omega, add_comm 1 i, mul_pow, pow_succ κ]
      ring
    rw [Finset.sum_congr rfl this, ← Finset.mul_sum]
    simp only [Nat.add_sub_cancel, pow_zero, Nat.factorial_zero, Nat.cast_one, div_one]
    field_simp
    ring
  rw [h1, abs_mul, abs_neg, abs_div, abs_one]
  have h2 := exp_rest (κ * h) (P + 1)
  rw [abs_mul] at h2
  have hk : 0 < |κ| := abs_pos.mpr hκ
  calc 1 / |κ| * |exp (κ * h) - ∑ m ∈ Finset.range (P + 1), (κ * h) ^ m / m.factorial|
      ≤ 1 / |κ| * ((|κ| * |h|) ^ (P + 1) / (P + 1).factorial * exp (|κ| * |h|)) :=
        mul_le_mul_of_nonneg_left h2 (by positivity)
    _ = |κ| ^ P * |h| ^ (P + 1) / (P + 1).factorial * exp (|κ| * |h|) := by
        rw [mul_pow, pow_succ |κ|]
        field_simp

/-- The same for relief of at most `H` and non-negative wavenumbers. -/
theorem column_series_le (κ c h H : ℝ) (P : ℕ) (hκ : 0 ≤ κ) (hh : |h| ≤ H) :
    |exp (-c * κ) * ∑ p ∈ Finset.Icc 1 P, κ ^ (p - 1) / p.factorial * h ^ p - column κ c h| ≤
      κ ^ P * H ^ (P + 1) / (P + 1).factorial * exp (-(c - H) * κ) := by
  refine (column_series κ c h P).trans ?_
  rw [abs_of_nonneg hκ]
  have hH : 0 ≤ H := (abs_nonneg _).trans hh
  have h1 : |h| ^ (P + 1) ≤ H ^ (P + 1) := pow_le_pow_left₀ (abs_nonneg _) hh _
  have h2 : exp (κ * |h|) ≤ exp (κ * H) := exp_le_exp.mpr (mul_le_mul_of_nonneg_left hh hκ)
  have h3 : exp (-(c - H) * κ) = exp (-c * κ) * exp (κ * H) := by rw [← exp_add]; congr 1; ring
  rw [h3]
  calc exp (-c * κ) * (κ ^ P * |h| ^ (P + 1) / (P + 1).factorial * exp (κ * |h|))
      ≤ exp (-c * κ) * (κ ^ P * H ^ (P + 1) / (P + 1).factorial * exp (κ * H)) := by gcongr
    _ = _ := by ring

/-- Above twice the relief the rest shrinks geometrically, whatever the wavenumber. -/
theorem rest_rate (κ c H : ℝ) (P : ℕ) (hκ : 0 ≤ κ) (hH : 0 ≤ H) (hc : H < c) :
    κ ^ P * H ^ (P + 1) / (P + 1).factorial * exp (-(c - H) * κ) ≤ H / (P + 1) * (H / (c - H)) ^ P := by
  have ha : 0 < c - H := by linarith
  have h1 : ((c - H) * κ) ^ P / P.factorial ≤ exp ((c - H) * κ) := Real.pow_div_factorial_le_exp _ (by positivity) _
  have h2 : exp (-(c - H) * κ) = (exp ((c - H) * κ))⁻¹ := by rw [← exp_neg]; congr 1; ring
  rw [h2, ← div_eq_mul_inv, div_le_iff₀ (exp_pos _)]
  have h3 : κ ^ P * H ^ (P + 1) / (P + 1).factorial = H / (P + 1) * (H / (c - H)) ^ P * (((c - H) * κ) ^ P / P.factorial) := by
    rw [Nat.factorial_succ, mul_pow, div_pow]
    push_cast
    have hp : (P.factorial : ℝ) ≠ 0 := by positivity
    field_simp
    ring
  rw [h3]
  exact mul_le_mul_of_nonneg_left h1 (by positivity)

end Shipgrav
