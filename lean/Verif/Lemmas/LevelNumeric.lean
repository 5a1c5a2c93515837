import Verif.Lemmas.LevelGravity

/-! Gravity of the level ellipsoid WGS84 on the equator and at the poles, in figures. -/

namespace Shipgrav
open Spec Real

private theorem sum_factor (n : ℕ) (t : ℝ) : arctanSum n t = t * ∑ k ∈ Finset.range n, (-1) ^ k * (t ^ 2) ^ k / (2 * k + 1) := by
  unfold arctanSum
  rw [Finset.mul_sum]
  refine Finset.sum_congr rfl fun k _ => ?_
  rw [pow_succ, pow_mul]
  ring

/-- The constants of gravity through `A = arctan t / t`, `t = E / b`. -/
theorem level_ratio {E b : ℝ} (hE : 0 < E) (hb : 0 < b) (A s : ℝ) (hA : arctan (E / b) = E / b * A) (hs : E ^ 2 = s * b ^ 2) (h1 : 0 < 1 + s) :
    b * levQ1 E b * ((s + 3) * A - 3) = 2 * (3 * A - (2 * s + 3) / (1 + s)) * levQ E b := by
  have hs0 : s ≠ 0 := by
    rintro rfl
    rw [zero_mul] at hs
    exact absurd hs (by positivity)
  have hQ : levQ E b = b / (2 * E) * ((s + 3) * A - 3) := by
    unfold levQ levT
    rw [hA, hs]
    field_simp
    linear_combination (s + 3) * A * hs
  have hQ1 : b * levQ1 E b = b / E * (3 * A - (2 * s + 3) / (1 + s)) := by
    unfold levQ1 levT
    rw [hA, show b ^ 2 + E ^ 2 = (1 + s) * b ^ 2 by rw [hs]; ring, hs]
    field_simp
    linear_combination 6 * A * (1 + s) * hs
  rw [hQ, hQ1]
  field_simp

private theorem wgs_arctan {t : ℝ} (ht : 0 < t) (hs : t ^ 2 = (298257223563 / 297257223563) ^ 2 - 1) :
    ∃ A, arctan t = t * A ∧ 0.99776254174665473448 ≤ A ∧ A ≤ 0.99776254174665477659 := by
  refine ⟨arctan t / t, by field_simp, ?_, ?_⟩
  · rw [le_div_iff₀ ht]
    refine le_trans ?_ (arctan_le_sum 4 t ht.le).2
    rw [sum_factor, hs, mul_comm]
    gcongr
    norm_num [Finset.sum_range_succ]
  · rw [div_le_iff₀ ht]
    refine le_trans (arctan_le_sum 3 t ht.le).1 ?_
    rw [sum_factor, hs, mul_comm]
    gcongr
    norm_num [Finset.sum_range_succ]

/-- Figures for WGS84. -/
theorem wgs_level : |1e5 * levEquator 6378137 (6378137 * (1 - 1 / 298.257223563)) 3986004.418e8 7.292115e-5 - 978032.53359| ≤ 4.2e-7 ∧
    |1e5 * ((1 - 1 / 298.257223563) * levPole 6378137 (6378137 * (1 - 1 / 298.257223563)) 3986004.418e8 7.292115e-5 -
      levEquator 6378137 (6378137 * (1 - 1 / 298.257223563)) 3986004.418e8 7.292115e-5) - 978032.53359 * 0.00193185265241| ≤ 5e-8 := by
  obtain ⟨b, hbd⟩ : ∃ b : ℝ, b = 6378137 * (1 - 1 / 298.257223563) := ⟨_, rfl⟩
  rw [← hbd]
  have hb : 0 < b := by rw [hbd]; norm_num
  have hab : b < 6378137 := by rw [hbd]; norm_num
  obtain ⟨hE, hE2⟩ := focal hb hab
  unfold levEquator levPole levK
  simp only
  generalize √((6378137 : ℝ) ^ 2 - b ^ 2) = E at *
  have hs : E ^ 2 = ((298257223563 / 297257223563) ^ 2 - 1) * b ^ 2 := by
    rw [eq_sub_of_add_eq' hE2, hbd]
    norm_num
  obtain ⟨A, hA, A1, A2⟩ := wgs_arctan (div_pos hE hb) (by rw [div_pow, hs]; field_simp)
  have hr := level_ratio hE hb A _ hA hs (by norm_num)
  have hq := levQ_pos hE hb
  generalize levQ E b = q at *
  generalize levQ1 E b = q1 at *
  obtain ⟨ν, hν⟩ : ∃ ν, q1 = ν * q / b := ⟨q1 * b / q, by field_simp⟩
  have hD : 0 < ((298257223563 / 297257223563 : ℝ) ^ 2 - 1 + 3) * A - 3 := by
    norm_num at A1 ⊢
    linarith
  have hr2 : ν * (((298257223563 / 297257223563 : ℝ) ^ 2 - 1 + 3) * A - 3) =
      2 * (3 * A - (2 * ((298257223563 / 297257223563) ^ 2 - 1) + 3) / (1 + ((298257223563 / 297257223563) ^ 2 - 1))) := by
    refine mul_right_cancel₀ hq.ne' ?_
    rw [← hr, hν]
    field_simp
  have n1 : -2.98850923809121 ≤ ν := by
    refine le_of_mul_le_mul_right ?_ hD
    rw [hr2]
    norm_num at A1 A2 ⊢
    linarith
  have n2 : ν ≤ -2.98850923803876 := by
    refine le_of_mul_le_mul_right ?_ hD
    rw [hr2]
    norm_num at A1 A2 ⊢
    linarith
  have e1 : (6378137 : ℝ) * ((7.292115e-5) ^ 2 * 6378137 ^ 2 / (2 * q)) * q1 / (3 * b) = 6378137 * (7.292115e-5) ^ 2 * 6378137 ^ 2 / (6 * b ^ 2) * ν := by
    rw [hν]
    field_simp
    ring
  have e2 : 2 / 3 * ((7.292115e-5) ^ 2 * 6378137 ^ 2 / (2 * q)) * q1 = (7.292115e-5) ^ 2 * 6378137 ^ 2 / (3 * b) * ν := by
    rw [hν]
    field_simp
  rw [e1, e2, hbd]
  clear hr hr2 e1 e2 hν hD hbd hs hE2 hA
  norm_num at n1 n2 ⊢
  refine ⟨?_, ?_⟩ <;> rw [abs_le] <;> constructor <;> linarith

end Shipgrav
