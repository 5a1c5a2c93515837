import Verif.Lemmas.Response
import Mathlib.Analysis.SpecialFunctions.Integrals.Basic
import Mathlib.Analysis.SpecialFunctions.Complex.Circle

/-! Response of the low-pass filter of the scripts to short waves: third differences of the weights. -/

namespace Shipgrav
open Real

/-! ### Third differences -/

/-- Third difference of a cosine. -/
theorem third_cos (β x : ℝ) : |cos (β * x) - 3 * cos (β * (x - 1)) + 3 * cos (β * (x - 2)) - cos (β * (x - 3))| ≤ |β| ^ 3 := by
  have e : cos (β * x) - 3 * cos (β * (x - 1)) + 3 * cos (β * (x - 2)) - cos (β * (x - 3)) = 8 * sin (β * (x - 3 / 2)) * sin (β / 2) ^ 3 := by
    obtain ⟨u, hu⟩ : ∃ u, u = β / 2 := ⟨_, rfl⟩
    obtain ⟨v, hv⟩ : ∃ v, v = β * (x - 3 / 2) := ⟨_, rfl⟩
    rw [← hu, ← hv, show β * x = v + 3 * u by rw [hu, hv]; ring, show β * (x - 1) = v + u by rw [hu, hv]; ring,
      show β * (x - 2) = v - u by rw [hu, hv]; ring, show β * (x - 3) = v - 3 * u by rw [hu, hv]; ring, cos_add, cos_sub, cos_add, cos_sub, sin_three_mul]
    ring
  rw [e, abs_mul, abs_mul, abs_pow]
  have h1 := abs_sin_le_one (β * (x - 3 / 2))
  have h2 : |sin (β / 2)| ≤ |β| / 2 := (abs_sin_le_abs).trans (le_of_eq (by rw [abs_div]; norm_num))
  have h3 : |sin (β / 2)| ^ 3 ≤ (|β| / 2) ^ 3 := pow_le_pow_left₀ (abs_nonneg _) h2 3
  calc |(8 : ℝ)| * |sin (β * (x - 3 / 2))| * |sin (β / 2)| ^ 3 ≤ 8 * 1 * (|β| / 2) ^ 3 := by
        rw [abs_of_pos (by norm_num : (0 : ℝ) < 8)]
        gcongr
    _ = |β| ^ 3 := by ring

/-- Window times cosine. -/
noncomputable def lpG (t x : ℝ) : ℝ :=
  0.42 * cos (π / 120 * t * x) + 0.25 * (cos ((π / 120 * t + 2 * π / 479) * x) + cos ((π / 120 * t - 2 * π / 479) * x)) +
    0.04 * (cos ((π / 120 * t + 4 * π / 479) * x) + cos ((π / 120 * t - 4 * π / 479) * x))

theorem lpG_eq (t x : ℝ) : lpG t x = cos (π / 120 * x * t) * (0.42 + 0.5 * cos (x * (2 * π / 479)) + 0.08 * cos (2 * (x * (2 * π / 479)))) := by
  unfold lpG
  rw [show (π / 120 * t + 2 * π / 479) * x = π / 120 * x * t + x * (2 * π / 479) by ring, show (π / 120 * t - 2 * π / 479) * x = π / 120 * x * t - x * (2 * π / 479) by ring,
    show (π / 120 * t + 4 * π / 479) * x = π / 120 * x * t + 2 * (x * (2 * π / 479)) by ring,
    show (π / 120 * t - 4 * π / 479) * x = π / 120 * x * t - 2 * (x * (2 * π / 479)) by ring, show π / 120 * t * x = π / 120 * x * t by ring]
  simp only [cos_add, cos_sub]
  ring

theorem lpG_cont (x : ℝ) : Continuous fun t => lpG t x := by
  unfold lpG
  fun_prop

theorem sinc_integral (y : ℝ) (hy : y ≠ 0) : ∫ t in (0 : ℝ)..1, cos (y * t) = sin y / y := by
  rw [intervalIntegral.integral_comp_mul_left (fun u => cos u) hy, integral_cos]
  simp
  field_simp

/-- The weights as integrals, on either side. -/
theorem lpA_integral (k : ℕ) : (∫ t in (0 : ℝ)..1, lpG t (k + 1 / 2)) = lpA k ∧ (∫ t in (0 : ℝ)..1, lpG t (-(k + 1 / 2))) = lpA k := by
  have hx := lpX_pos k
  have e : π / 120 * ((k : ℝ) + 1 / 2) = lpX k := by unfold lpX; ring
  have h : (∫ t in (0 : ℝ)..1, lpG t (k + 1 / 2)) = lpA k := by
    simp only [lpG_eq]
    rw [intervalIntegral.integral_mul_const, e, sinc_integral _ hx.ne', cos_two_mul]
    unfold lpA lpS lpB lpC
    ring
  refine ⟨h, ?_⟩
  rw [← h]
  congr 1
  funext t
  unfold lpG
  simp only [mul_neg, cos_neg]

/-- All 480 weights (unscaled), then zeros. -/
noncomputable def lpW (j : ℕ) : ℝ := if j < 240 then lpA (239 - j) else if j < 480 then lpA (j - 240) else 0

theorem lpW_integral (j : ℕ) (hj : j < 480) : lpW j = ∫ t in (0 : ℝ)..1, lpG t (j - 239.5) := by
  unfold lpW
  split_ifs with h
  · have e : -(((239 - j : ℕ) : ℝ) + 1 / 2) = j - 239.5 := by
      rw [Nat.cast_sub (by omega)]
      push_cast
      norm_num
      ring
    rw [← (lpA_integral (239 - j)).2, e]
  · have e : ((j - 240 : ℕ) : ℝ) + 1 / 2 = j - 239.5 := by
      rw [Nat.cast_sub (by omega)]
      push_cast
      norm_num
      ring
    rw [← (lpA_integral (j - 240)).1, e]

theorem third_G (t x : ℝ) (h0 : 0 ≤ t) (h1 : t ≤ 1) : |lpG t x - 3 * lpG t (x - 1) + 3 * lpG t (x - 2) - lpG t (x - 3)| ≤
    0.42 * (π / 120 * t) ^ 3 + 0.25 * ((π / 120 * t + 2 * π / 479) ^ 3 + ((π / 120 * t - 2 * π / 479) ^ 4 / (2 * π / 479) + 2 * π / 479 * (π / 120 * t - 2 * π / 479) ^ 2) / 2) +
      0.04 * ((π / 120 * t + 4 * π / 479) ^ 3 + (4 * π / 479 - π / 120 * t) ^ 3) := by
  have hpi := pi_pos
  have c1 := third_cos (π / 120 * t) x
  have c2 := third_cos (π / 120 * t + 2 * π / 479) x
  have c3 := third_cos (π / 120 * t - 2 * π / 479) x
  have c4 := third_cos (π / 120 * t + 4 * π / 479) x
  have c5 := third_cos (π / 120 * t - 4 * π / 479) x
  rw [abs_of_nonneg (by positivity : 0 ≤ π / 120 * t)] at c1
  rw [abs_of_nonneg (by positivity : 0 ≤ π / 120 * t + 2 * π / 479)] at c2
  rw [abs_of_nonneg (by positivity : 0 ≤ π / 120 * t + 4 * π / 479)] at c4
  rw [abs_of_nonpos (by nlinarith : π / 120 * t - 4 * π / 479 ≤ 0), neg_sub] at c5
  have c3' : |π / 120 * t - 2 * π / 479| ^ 3 ≤ ((π / 120 * t - 2 * π / 479) ^ 4 / (2 * π / 479) + 2 * π / 479 * (π / 120 * t - 2 * π / 479) ^ 2) / 2 := by
    have hb : 0 < 2 * π / 479 := by positivity
    generalize 2 * π / 479 = b at *
    generalize π / 120 * t - b = d
    rw [show d ^ 4 = |d| ^ 4 by rw [← abs_pow, abs_of_nonneg (by positivity)], ← sq_abs]
    have hd := abs_nonneg d
    generalize |d| = w at *
    have : w ^ 4 / b + b * w ^ 2 - 2 * w ^ 3 = w ^ 2 / b * (w - b) ^ 2 := by field_simp; ring
    have : 0 ≤ w ^ 2 / b * (w - b) ^ 2 := by positivity
    linarith
  have c3'' := c3.trans c3'
  unfold lpG
  generalize (π / 120 * t - 2 * π / 479) ^ 4 / (2 * π / 479) + 2 * π / 479 * (π / 120 * t - 2 * π / 479) ^ 2 = M at *
  rw [abs_le] at *
  obtain ⟨a1, b1⟩ := c1
  obtain ⟨a2, b2⟩ := c2
  obtain ⟨a3, b3⟩ := c3''
  obtain ⟨a4, b4⟩ := c4
  obtain ⟨a5, b5⟩ := c5
  constructor <;> · norm_num at *; linarith


/-- Third differences inside the window. -/
theorem third_inside (j : ℕ) (h : j + 3 < 480) : |lpW (j + 3) - 3 * lpW (j + 2) + 3 * lpW (j + 1) - lpW j| ≤ 1.07e-5 := by
  have hpi := pi_pos
  have p1 := pi_gt_d4
  have p2 := pi_lt_d4
  have e : lpW (j + 3) - 3 * lpW (j + 2) + 3 * lpW (j + 1) - lpW j =
      ∫ t in (0 : ℝ)..1, (lpG t ((j + 3 : ℕ) - 239.5) - 3 * lpG t ((j + 3 : ℕ) - 239.5 - 1) + 3 * lpG t ((j + 3 : ℕ) - 239.5 - 2) - lpG t ((j + 3 : ℕ) - 239.5 - 3)) := by
    have i : ∀ x, IntervalIntegrable (fun t => lpG t x) MeasureTheory.volume 0 1 := fun x => (lpG_cont x).intervalIntegrable _ _
    rw [intervalIntegral.integral_sub (((i _).sub ((i _).const_mul 3)).add ((i _).const_mul 3)) (i _),
      intervalIntegral.integral_add ((i _).sub ((i _).const_mul 3)) ((i _).const_mul 3), intervalIntegral.integral_sub (i _) ((i _).const_mul 3),
      intervalIntegral.integral_const_mul, intervalIntegral.integral_const_mul, lpW_integral _ h, lpW_integral (j + 2) (by omega), lpW_integral (j + 1) (by omega),
      lpW_integral j (by omega), show ((j + 3 : ℕ) : ℝ) - 239.5 - 1 = (j + 2 : ℕ) - 239.5 by push_cast; ring,
      show ((j + 3 : ℕ) : ℝ) - 239.5 - 2 = (j + 1 : ℕ) - 239.5 by push_cast; ring, show ((j + 3 : ℕ) : ℝ) - 239.5 - 3 = j - 239.5 by push_cast; ring]
  have F : ∀ t ∈ Set.uIoc (0 : ℝ) 1, ‖lpG t ((j + 3 : ℕ) - 239.5) - 3 * lpG t ((j + 3 : ℕ) - 239.5 - 1) + 3 * lpG t ((j + 3 : ℕ) - 239.5 - 2) - lpG t ((j + 3 : ℕ) - 239.5 - 3)‖ ≤
      0.42 * (π / 120 * t) ^ 3 + 0.25 * ((π / 120 * t + 2 * π / 479) ^ 3 + ((π / 120 * t - 2 * π / 479) ^ 4 / (2 * π / 479) + 2 * π / 479 * (π / 120 * t - 2 * π / 479) ^ 2) / 2) +
      0.04 * ((π / 120 * t + 4 * π / 479) ^ 3 + (4 * π / 479 - π / 120 * t) ^ 3) := by
    intro t ht
    rw [Set.uIoc_of_le zero_le_one] at ht
    exact third_G t _ ht.1.le ht.2
  rw [e, ← Real.norm_eq_abs]
  refine (intervalIntegral.norm_integral_le_of_norm_le (by norm_num) (Filter.Eventually.of_forall fun t ht => F t (by rwa [Set.uIoc_of_le zero_le_one])) ?_).trans ?_
  · apply Continuous.intervalIntegrable
    fun_prop
  obtain ⟨a, ha⟩ : ∃ a, a = π / 120 := ⟨_, rfl⟩
  obtain ⟨b, hb⟩ : ∃ b, b = 2 * π / 479 := ⟨_, rfl⟩
  have hb0 : 0 < b := by rw [hb]; positivity
  have hab : a = 479 / 240 * b := by rw [ha, hb]; ring
  rw [← ha, ← hb, show 4 * π / 479 = 2 * b by rw [hb]; ring]
  have poly : (fun t : ℝ => 0.42 * (a * t) ^ 3 + 0.25 * ((a * t + b) ^ 3 + ((a * t - b) ^ 4 / b + b * (a * t - b) ^ 2) / 2) + 0.04 * ((a * t + 2 * b) ^ 3 + (2 * b - a * t) ^ 3)) =
      fun t => b ^ 3 * (0.42 * (479 / 240) ^ 3 * t ^ 3 + 0.25 * ((479 / 240 * t + 1) ^ 3 + ((479 / 240 * t - 1) ^ 4 + (479 / 240 * t - 1) ^ 2) / 2) +
        0.04 * ((479 / 240 * t + 2) ^ 3 + (2 - 479 / 240 * t) ^ 3)) := by
    funext t
    rw [hab]
    field_simp
  rw [poly, intervalIntegral.integral_const_mul]
  have b3 : b ^ 3 ≤ 0.0131174 ^ 3 := pow_le_pow_left₀ hb0.le (by rw [hb]; norm_num; linarith) 3
  have hI : (∫ t in (0 : ℝ)..1, (0.42 * (479 / 240) ^ 3 * t ^ 3 + 0.25 * ((479 / 240 * t + 1) ^ 3 + ((479 / 240 * t - 1) ^ 4 + (479 / 240 * t - 1) ^ 2) / 2) +
        0.04 * ((479 / 240 * t + 2) ^ 3 + (2 - 479 / 240 * t) ^ 3))) ≤ 4.72 ∧ 0 ≤ (∫ t in (0 : ℝ)..1, (0.42 * (479 / 240) ^ 3 * t ^ 3 +
        0.25 * ((479 / 240 * t + 1) ^ 3 + ((479 / 240 * t - 1) ^ 4 + (479 / 240 * t - 1) ^ 2) / 2) + 0.04 * ((479 / 240 * t + 2) ^ 3 + (2 - 479 / 240 * t) ^ 3))) := by
    rw [intervalIntegral.integral_congr (g := fun t => (57 / 50) + (0 / 1) * t ^ 1 + (96594661 / 11520000) * t ^ 2 + (1868338063 / 1382400000) * t ^ 3 + (52643172481 / 26542080000) * t ^ 4) (fun t _ => by norm_num; ring)]
    have i : ∀ (c : ℝ) (n : ℕ), IntervalIntegrable (fun t => c * t ^ n) MeasureTheory.volume 0 1 := fun c n => (by fun_prop : Continuous fun t : ℝ => c * t ^ n).intervalIntegrable _ _
    have i0 : ∀ c : ℝ, IntervalIntegrable (fun _ : ℝ => c) MeasureTheory.volume 0 1 := fun c => continuous_const.intervalIntegrable _ _
    rw [intervalIntegral.integral_add ((((i0 _).add (i _ _)).add (i _ _)).add (i _ _)) (i _ _), intervalIntegral.integral_add (((i0 _).add (i _ _)).add (i _ _)) (i _ _),
      intervalIntegral.integral_add ((i0 _).add (i _ _)) (i _ _), intervalIntegral.integral_add (i0 _) (i _ _)]
    simp only [intervalIntegral.integral_const_mul, integral_pow, intervalIntegral.integral_const]
    norm_num
  calc _ ≤ (0.0131174 : ℝ) ^ 3 * 4.72 := mul_le_mul b3 hI.1 hI.2 (by positivity)
    _ ≤ _ := by norm_num

/-! ### The ends of the window -/

theorem lpA_last : lpA 239 = 0 := by
  unfold lpA lpB lpC
  rw [show (((239 : ℕ) : ℝ) + 1 / 2) * (2 * π / 479) = π by push_cast; ring, cos_pi]
  norm_num

theorem lpA_end (k m : ℕ) (hm : m ≤ 2) (hk : k + m = 239) : |lpA k| ≤ 0.1655 * (0.17 * (m * 0.0131174) ^ 2) := by
  have hpi := pi_pos
  have p2 := pi_lt_d4
  have hc : lpC k = -cos (m * (2 * π / 479)) := by
    unfold lpC
    have : (k : ℝ) = 239 - m := by
      have : ((k + m : ℕ) : ℝ) = 239 := by rw [hk]; norm_num
      push_cast at this
      linarith
    rw [← cos_pi_sub, this]
    congr 1
    ring
  have hcos := one_sub_sq_div_two_le_cos (x := m * (2 * π / 479))
  have hm0 : (0 : ℝ) ≤ m := Nat.cast_nonneg m
  have hsq : (m * (2 * π / 479)) ^ 2 ≤ (m * 0.0131174) ^ 2 := by
    refine pow_le_pow_left₀ (by positivity) (mul_le_mul_of_nonneg_left ?_ hm0) 2
    norm_num
    linarith
  have hm2 : (m : ℝ) ≤ 2 := by exact_mod_cast hm
  have hsmall : (m * 0.0131174 : ℝ) ^ 2 ≤ 0.001 := by
    have : (m * 0.0131174 : ℝ) ^ 2 ≤ (2 * 0.0131174) ^ 2 := pow_le_pow_left₀ (by positivity) (mul_le_mul_of_nonneg_right hm2 (by norm_num)) 2
    refine this.trans (by norm_num)
  have hB : lpB k ≤ 0.17 * (m * 0.0131174) ^ 2 := by
    unfold lpB
    rw [hc]
    generalize cos (m * (2 * π / 479)) = c at *
    have h1 : 1 - c ≤ (m * 0.0131174) ^ 2 / 2 := by linarith
    have h2 : 0 ≤ c := by linarith
    rcases le_total c 1 with h | h
    · have := mul_le_mul_of_nonneg_left h1 (by norm_num : (0 : ℝ) ≤ 0.34)
      nlinarith
    · have : 0.16 * (-c + 1) * (-c + 2.125) ≤ 0 := by
        have hc1 : c = 1 := le_antisymm (by linarith [cos_le_one (m * (2 * π / 479)), hc, neg_one_le_cos ((k + 1 / 2) * (2 * π / 479)), show lpC k = -c from hc, show -1 ≤ lpC k from neg_one_le_cos _]) h
        rw [hc1]; norm_num
      refine this.trans (by positivity)
  have hS := lpS_abs k 5 (by omega) (by omega) (by norm_num)
  unfold lpA
  rw [abs_mul, abs_of_nonneg (lpB_nonneg k)]
  exact mul_le_mul hS hB (lpB_nonneg k) (by norm_num)

/-! ### Summation by parts -/

/-- Difference of a sequence, with zero before the first entry. -/
def difference (c : ℕ → ℝ) : ℕ → ℝ
  | 0 => c 0
  | j + 1 => c (j + 1) - c j

theorem sum_difference (c : ℕ → ℝ) (z : ℂ) (N : ℕ) :
    (∑ j ∈ Finset.range (N + 1), (c j : ℂ) * z ^ j) * (1 - z) = ∑ j ∈ Finset.range (N + 1), (difference c j : ℂ) * z ^ j - c N * z ^ (N + 1) := by
  induction N with
  | zero => simp [difference]; ring
  | succ N ih =>
    rw [Finset.sum_range_succ, add_mul, ih, Finset.sum_range_succ _ (N + 1)]
    simp only [difference]
    push_cast
    ring

theorem lpW_zero (j : ℕ) (h : 480 ≤ j) : lpW j = 0 := by
  unfold lpW
  rw [if_neg (by omega), if_neg (by omega)]

theorem third_eq (c : ℕ → ℝ) (j : ℕ) : difference (difference (difference c)) (j + 3) = c (j + 3) - 3 * c (j + 2) + 3 * c (j + 1) - c j := by
  simp only [difference]
  ring

theorem third_sum : ∑ j ∈ Finset.range 483, |difference (difference (difference lpW)) j| ≤ 0.0052 := by
  have w0 : lpW 0 = 0 := by unfold lpW; rw [if_pos (by norm_num)]; exact lpA_last
  have w479 : lpW 479 = 0 := by unfold lpW; rw [if_neg (by norm_num), if_pos (by norm_num)]; exact lpA_last
  have e1 := lpA_end 238 1 (by norm_num) (by norm_num)
  have e2 := lpA_end 237 2 (by norm_num) (by norm_num)
  have w1 : lpW 1 = lpA 238 := by unfold lpW; rw [if_pos (by norm_num)]
  have w2 : lpW 2 = lpA 237 := by unfold lpW; rw [if_pos (by norm_num)]
  have w478 : lpW 478 = lpA 238 := by unfold lpW; rw [if_neg (by norm_num), if_pos (by norm_num)]
  have w477 : lpW 477 = lpA 237 := by unfold lpW; rw [if_neg (by norm_num), if_pos (by norm_num)]
  have z0 := lpW_zero 480 (by norm_num)
  have z1 := lpW_zero 481 (by norm_num)
  have z2 := lpW_zero 482 (by norm_num)
  have split : ∀ f : ℕ → ℝ, ∑ j ∈ Finset.range 483, f j = (f 0 + f 1 + f 2) + ∑ j ∈ Finset.range 477, f (j + 3) + (f 480 + f 481 + f 482) := by
    intro f
    rw [show 483 = 480 + 1 + 1 + 1 from rfl, Finset.sum_range_succ, Finset.sum_range_succ, Finset.sum_range_succ, show 480 = 3 + 477 from rfl, Finset.sum_range_add,
      Finset.sum_range_succ, Finset.sum_range_succ, Finset.sum_range_one]
    simp only [add_comm 3]
    ring
  rw [split]
  have hin : ∑ j ∈ Finset.range 477, |difference (difference (difference lpW)) (j + 3)| ≤ 477 * 1.07e-5 := by
    have := Finset.sum_le_card_nsmul (Finset.range 477) (fun j => |difference (difference (difference lpW)) (j + 3)|) 1.07e-5 (fun j hj => by
      beta_reduce
      rw [third_eq]
      exact third_inside j (by have := Finset.mem_range.1 hj; omega))
    simpa using this
  have a0 : |difference (difference (difference lpW)) 0| = 0 := by simp [difference, w0]
  have a1 : |difference (difference (difference lpW)) 1| = |lpA 238| := by simp [difference, w0, w1]
  have a2 : |difference (difference (difference lpW)) 2| ≤ |lpA 237| + 3 * |lpA 238| := by
    have : difference (difference (difference lpW)) 2 = lpA 237 - 3 * lpA 238 := by simp only [difference, w0, w1, w2]; ring
    rw [this]
    refine (abs_sub _ _).trans (le_of_eq ?_)
    rw [abs_mul]; norm_num
  have b0 : |difference (difference (difference lpW)) 480| ≤ 3 * |lpA 238| + |lpA 237| := by
    rw [show 480 = 477 + 3 from rfl, third_eq, show 477 + 3 = 480 from rfl, show 477 + 2 = 479 from rfl, show 477 + 1 = 478 from rfl, z0, w479, w478, w477]
    rw [show (0 : ℝ) - 3 * 0 + 3 * lpA 238 - lpA 237 = 3 * lpA 238 - lpA 237 by ring]
    refine (abs_sub _ _).trans (le_of_eq ?_)
    rw [abs_mul]; norm_num
  have b1 : |difference (difference (difference lpW)) 481| = |lpA 238| := by
    rw [show 481 = 478 + 3 from rfl, third_eq, show 478 + 3 = 481 from rfl, show 478 + 2 = 480 from rfl, show 478 + 1 = 479 from rfl, z0, z1, w479, w478]
    rw [show (0 : ℝ) - 3 * 0 + 3 * 0 - lpA 238 = -lpA 238 by ring, abs_neg]
  have b2 : |difference (difference (difference lpW)) 482| = 0 := by
    rw [show 482 = 479 + 3 from rfl, third_eq, show 479 + 3 = 482 from rfl, show 479 + 2 = 481 from rfl, show 479 + 1 = 480 from rfl, z0, z1, z2, w479]
    norm_num
  rw [a0, a1, b1, b2]
  generalize |lpA 238| = u at *
  generalize |lpA 237| = v at *
  generalize |difference (difference (difference lpW)) 2| = A at *
  generalize |difference (difference (difference lpW)) 480| = B at *
  generalize (∑ j ∈ Finset.range 477, |difference (difference (difference lpW)) (j + 3)|) = C at *
  norm_num at *
  linarith

/-- The response in terms of all 480 weights. -/
theorem response_all (ω : ℝ) : ‖∑ j ∈ Finset.range 483, (lpW j : ℂ) * Complex.exp (ω * Complex.I) ^ j‖ = 2 * |∑ k ∈ Finset.range 240, lpA k * cos (ω * (k + 1 / 2))| := by
  have h483 : ∑ j ∈ Finset.range 483, (lpW j : ℂ) * Complex.exp (ω * Complex.I) ^ j = ∑ j ∈ Finset.range 480, (lpW j : ℂ) * Complex.exp (ω * Complex.I) ^ j := by
    rw [show 483 = 480 + 1 + 1 + 1 from rfl, Finset.sum_range_succ, Finset.sum_range_succ, Finset.sum_range_succ, lpW_zero 480 (by norm_num), lpW_zero 481 (by norm_num),
      lpW_zero 482 (by norm_num)]
    simp
  have e : ∑ j ∈ Finset.range 480, (lpW j : ℂ) * Complex.exp (ω * Complex.I) ^ j =
      Complex.exp (((ω * 239.5 : ℝ) : ℂ) * Complex.I) * ((2 * ∑ k ∈ Finset.range 240, lpA k * cos (ω * (k + 1 / 2)) : ℝ) : ℂ) := by
    rw [show 480 = 240 + 240 by norm_num, Finset.sum_range_add, ← Finset.sum_range_reflect _ 240, ← Finset.sum_add_distrib]
    push_cast
    rw [Finset.mul_sum, Finset.mul_sum]
    refine Finset.sum_congr rfl fun k hk => ?_
    have hk := Finset.mem_range.1 hk
    have l1 : lpW (240 - 1 - k) = lpA k := by
      unfold lpW
      rw [if_pos (by omega), show 239 - (240 - 1 - k) = k by omega]
    have l2 : lpW (240 + k) = lpA k := by
      unfold lpW
      rw [if_neg (by omega), if_pos (by omega), show 240 + k - 240 = k by omega]
    rw [l1, l2, ← Complex.exp_nat_mul, ← Complex.exp_nat_mul]
    have x1 : ((240 - 1 - k : ℕ) : ℂ) * (ω * Complex.I) = ω * 239.5 * Complex.I + -(ω * (k + 1 / 2)) * Complex.I := by
      rw [show 240 - 1 - k = 239 - k by omega, Nat.cast_sub (by omega)]
      push_cast
      ring
    have x2 : ((240 + k : ℕ) : ℂ) * (ω * Complex.I) = ω * 239.5 * Complex.I + ω * (k + 1 / 2) * Complex.I := by
      push_cast
      ring
    rw [x1, x2, Complex.exp_add, Complex.exp_add, Complex.cos]
    ring
  rw [h483, e, norm_mul, Complex.norm_exp_ofReal_mul_I, one_mul, Complex.norm_real, Real.norm_eq_abs, abs_mul, abs_of_pos (by norm_num : (0 : ℝ) < 2)]

theorem norm_one_sub_exp (ω : ℝ) : ‖1 - Complex.exp (ω * Complex.I)‖ = 2 * |sin (ω / 2)| := by
  rw [norm_sub_rev]
  have := Complex.norm_exp_I_mul_ofReal_sub_one ω
  rw [mul_comm] at this
  rw [this, Real.norm_eq_abs, abs_mul, abs_of_pos (by norm_num : (0 : ℝ) < 2)]

/-- The response to short waves goes down with the third power. -/
theorem lpH_steep (ω : ℝ) : |lpH ω| * |sin (ω / 2)| ^ 3 ≤ 9.4e-6 := by
  have hT := lp_total
  have hT0 : 0 < ∑ k ∈ Finset.range 240, lpA k := lt_of_lt_of_le (by norm_num) hT
  obtain ⟨z, hz⟩ : ∃ z, z = Complex.exp (ω * Complex.I) := ⟨_, rfl⟩
  have zn : ‖z‖ = 1 := by rw [hz, Complex.norm_exp_ofReal_mul_I]
  have z0 := lpW_zero 480 (by norm_num)
  have z1 := lpW_zero 481 (by norm_num)
  have z2 := lpW_zero 482 (by norm_num)
  have d1 : difference lpW 482 = 0 := by rw [show 482 = 481 + 1 from rfl]; simp only [difference]; rw [show 481 + 1 = 482 from rfl, z1, z2]; ring
  have d1' : difference lpW 481 = 0 := by rw [show 481 = 480 + 1 from rfl]; simp only [difference]; rw [show 480 + 1 = 481 from rfl, z0, z1]; ring
  have d2 : difference (difference lpW) 482 = 0 := by
    rw [show 482 = 481 + 1 from rfl]
    rw [show difference (difference lpW) (481 + 1) = difference lpW (481 + 1) - difference lpW 481 from rfl, show 481 + 1 = 482 from rfl, d1, d1']
    ring
  have s1 := sum_difference lpW z 482
  have s2 := sum_difference (difference lpW) z 482
  have s3 := sum_difference (difference (difference lpW)) z 482
  rw [z2, Complex.ofReal_zero, zero_mul, sub_zero] at s1
  rw [d1, Complex.ofReal_zero, zero_mul, sub_zero] at s2
  rw [d2, Complex.ofReal_zero, zero_mul, sub_zero] at s3
  have e : (∑ j ∈ Finset.range 483, (lpW j : ℂ) * z ^ j) * (1 - z) ^ 3 = ∑ j ∈ Finset.range 483, (difference (difference (difference lpW)) j : ℂ) * z ^ j := by
    rw [← s3, ← s2, ← s1]
    ring
  have hb : ‖∑ j ∈ Finset.range 483, (difference (difference (difference lpW)) j : ℂ) * z ^ j‖ ≤ 0.0052 := by
    refine (norm_sum_le _ _).trans (le_trans (le_of_eq ?_) third_sum)
    refine Finset.sum_congr rfl fun j _ => ?_
    rw [norm_mul, norm_pow, zn, one_pow, mul_one, Complex.norm_real, Real.norm_eq_abs]
  rw [← e, norm_mul, norm_pow, hz, response_all, norm_one_sub_exp] at hb
  unfold lpH
  rw [abs_div, abs_of_pos hT0, div_mul_eq_mul_div, div_le_iff₀ hT0]
  have : |∑ k ∈ Finset.range 240, lpA k * cos (ω * (k + 1 / 2))| * |sin (ω / 2)| ^ 3 ≤ 0.000325 := by
    have : 2 * |∑ k ∈ Finset.range 240, lpA k * cos (ω * (k + 1 / 2))| * (2 * |sin (ω / 2)|) ^ 3 =
      16 * (|∑ k ∈ Finset.range 240, lpA k * cos (ω * (k + 1 / 2))| * |sin (ω / 2)| ^ 3) := by ring
    rw [this] at hb
    norm_num at hb ⊢
    linarith
  norm_num at hT this ⊢
  linarith

end Shipgrav
