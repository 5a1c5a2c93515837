import Verif.Model.LatCorr
import Mathlib.Analysis.Real.Pi.Bounds
import Mathlib.Tactic.Linarith
import Mathlib.Tactic.Positivity

/-! C57, C58: normal gravity and the free-air correction. -/

namespace Shipgrav
open Real

/-- Normal gravity as a function of the squared sine of the latitude. -/
private noncomputable def somigliana (x : ℝ) : ℝ := 978032.53359 * ((1 + 0.00193185265241 * x) / √(1 - 0.00669437999014 * x))

private theorem wgs_eq (lat : ℝ) : wgsGrav lat = some (somigliana (sin (radians lat) ^ 2)) := by
  have h1 := sin_sq_le_one (radians lat)
  have h2 : 0 < 1 - 0.00669437999014 * sin (radians lat) ^ 2 := by norm_num; linarith
  have h3 : √(1 - 0.00669437999014 * sin (radians lat) ^ 2) ≠ 0 := (sqrt_pos.2 h2).ne'
  unfold wgsGrav somigliana sqrtR divR
  simp only [if_pos h2.le, Option.bind_eq_bind, Option.bind_some, if_neg h3]
  rfl

private theorem somigliana_mono {x y : ℝ} (h0 : 0 ≤ x) (hxy : x < y) (h1 : y ≤ 1) : somigliana x < somigliana y := by
  unfold somigliana
  apply mul_lt_mul_of_pos_left _ (by norm_num)
  have hy : 0 < 1 - 0.00669437999014 * y := by norm_num; linarith
  apply div_lt_div₀'
  · norm_num; linarith
  · apply sqrt_lt_sqrt hy.le
    norm_num; linarith
  · norm_num; linarith
  · exact sqrt_pos.2 hy

/-- C57.  Normal gravity is always defined, and Somigliana's closed formula for WGS84. -/
theorem C57_formula (lat : ℝ) : wgsGrav lat = some (978032.53359 *
    ((1 + 0.00193185265241 * sin (lat * (π / 180)) ^ 2) / √(1 - 0.00669437999014 * sin (lat * (π / 180)) ^ 2))) := wgs_eq lat

/-- C57.  The same north and south of the equator. -/
theorem C57_even (lat : ℝ) : wgsGrav (-lat) = wgsGrav lat := by
  rw [wgs_eq, wgs_eq]
  unfold radians
  rw [neg_mul, sin_neg, neg_sq]

/-- C57.  Periodic with 180 degrees. -/
theorem C57_periodic (lat : ℝ) (k : ℤ) : wgsGrav (lat + 180 * k) = wgsGrav lat := by
  rw [wgs_eq, wgs_eq]
  have : radians (lat + 180 * k) = radians lat + k * π := by unfold radians; ring
  rw [this, sin_add_int_mul_pi]
  congr 2
  have h1 : ((-1 : ℝ) ^ k) ^ 2 = 1 := by
    rcases Int.even_or_odd k with h | h
    · rw [h.neg_one_zpow, one_pow]
    · rw [h.neg_one_zpow]; norm_num
  rw [mul_pow, h1, one_mul]

private theorem sin_sq_lt {x y : ℝ} (h0 : 0 ≤ x) (hxy : x < y) (h1 : y ≤ 90) : sin (radians x) ^ 2 < sin (radians y) ^ 2 := by
  have hpi := pi_pos
  unfold radians
  have a1 : 0 ≤ x * (π / 180) := by positivity
  have a2 : x * (π / 180) < y * (π / 180) := mul_lt_mul_of_pos_right hxy (by positivity)
  have a3 : y * (π / 180) ≤ π / 2 := by nlinarith
  have s1 : 0 ≤ sin (x * (π / 180)) := sin_nonneg_of_nonneg_of_le_pi a1 (by linarith)
  have s2 := sin_lt_sin_of_lt_of_le_pi_div_two (by linarith) a3 a2
  exact pow_lt_pow_left₀ s2 s1 two_ne_zero

/-- C57.  Strictly increasing from the equator to the pole. -/
theorem C57_increasing (x y : ℝ) (h0 : 0 ≤ x) (hxy : x < y) (h1 : y ≤ 90) :
    ∃ gx gy, wgsGrav x = some gx ∧ wgsGrav y = some gy ∧ gx < gy :=
  ⟨_, _, wgs_eq x, wgs_eq y, somigliana_mono (sq_nonneg _) (sin_sq_lt h0 hxy h1) (sin_sq_le_one _)⟩

private theorem pole_lt : somigliana 1 < 983219 := by
  unfold somigliana
  rw [← mul_div_assoc, div_lt_iff₀ (sqrt_pos.2 (by norm_num))]
  have h : (0.99664718 : ℝ) ≤ √(1 - 0.00669437999014 * 1) := by
    apply le_sqrt_of_sq_le
    norm_num
  refine lt_of_lt_of_le ?_ (mul_le_mul_of_nonneg_left h (by norm_num))
  norm_num

/-- C57.  Between the value at the equator and that at the poles, for every latitude. -/
theorem C57_range (lat : ℝ) : ∃ g gp, wgsGrav lat = some g ∧ wgsGrav 0 = some 978032.53359 ∧ wgsGrav 90 = some gp ∧
    978032.53359 ≤ g ∧ g ≤ gp ∧ gp < 983219 := by
  have h0 : wgsGrav 0 = some 978032.53359 := by
    rw [wgs_eq]
    unfold somigliana radians
    simp
  have hp : wgsGrav 90 = some (somigliana 1) := by
    rw [wgs_eq]
    have : radians 90 = π / 2 := by unfold radians; ring
    rw [this, sin_pi_div_two, one_pow]
  refine ⟨_, _, wgs_eq lat, h0, hp, ?_, ?_, pole_lt⟩
  · have e : somigliana 0 = 978032.53359 := by unfold somigliana; simp
    rcases (sq_nonneg (sin (radians lat))).eq_or_lt with h | h
    · rw [← h, e]
    · rw [← e]
      exact (somigliana_mono le_rfl h (sin_sq_le_one _)).le
  · rcases (sin_sq_le_one (radians lat)).eq_or_lt with h | h
    · rw [h]
    · exact (somigliana_mono (sq_nonneg _) h le_rfl).le

/-- C58.  Nothing at height zero. -/
theorem C58_zero (lat : ℝ) (w : Bool) : freeAir lat 0 w = 0 := by
  unfold freeAir
  cases w <;> simp

/-- C58.  The formula: the correction is a quadratic in height. -/
theorem C58_formula (lat ht : ℝ) :
    freeAir lat ht false = -(0.3087691 - 0.0004398 * sin (lat * (π / 180)) ^ 2) * ht + 7.2125e-8 * ht ^ 2 := by
  unfold freeAir radians
  simp only [Bool.not_false, if_true]
  generalize sin (lat * (π / 180)) = s
  norm_num
  ring

/-- C58.  In water it differs by a constant gradient. -/
theorem C58_water (lat ht : ℝ) : freeAir lat ht true - freeAir lat ht false = 0.0863491 * ht := by
  unfold freeAir
  simp only [Bool.not_true, Bool.not_false, if_true, Bool.false_eq_true, if_false]
  generalize sin (radians lat) = s
  norm_num
  ring

/-- C58.  The same north and south of the equator. -/
theorem C58_even (lat ht : ℝ) (w : Bool) : freeAir (-lat) ht w = freeAir lat ht w := by
  unfold freeAir radians
  rw [neg_mul, sin_neg, neg_sq]

/-- C58.  Strictly decreasing with height up to 2000 km. -/
theorem C58_decreasing (lat x y : ℝ) (h0 : 0 ≤ x) (hxy : x < y) (h1 : y ≤ 2000000) : freeAir lat y false < freeAir lat x false := by
  rw [C58_formula, C58_formula]
  have hs := sin_sq_le_one (lat * (π / 180))
  have hs0 := sq_nonneg (sin (lat * (π / 180)))
  generalize sin (lat * (π / 180)) ^ 2 = s at *
  have k := mul_pos (sub_pos.2 hxy) (show 0 < 0.3087691 - 0.0004398 * s - 7.2125e-8 * (x + y) by norm_num; linarith)
  norm_num at k ⊢
  nlinarith

/-- C58.  Hence negative above sea level. -/
theorem C58_negative (lat ht : ℝ) (h0 : 0 < ht) (h1 : ht ≤ 2000000) : freeAir lat ht false < 0 := by
  have := C58_decreasing lat 0 ht le_rfl h0 h1
  rwa [C58_zero] at this

/-! ### The hypotheses can be met -/

example := C57_increasing 10 80 (by norm_num) (by norm_num) (by norm_num)
example := C58_negative 45 100 (by norm_num) (by norm_num)
example := C58_decreasing 45 0 100 (by norm_num) (by norm_num) (by norm_num)

end Shipgrav
