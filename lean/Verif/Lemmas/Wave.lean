import Verif.Lemmas.Gaussian
import Mathlib.Analysis.SpecialFunctions.Trigonometric.Bounds
import Mathlib.Analysis.SpecialFunctions.Trigonometric.Series
import Mathlib.Analysis.SpecialFunctions.Trigonometric.DerivHyp
import Mathlib.Analysis.Complex.ExponentialBounds
import Mathlib.Tactic.Linarith
import Mathlib.Tactic.Positivity
import Mathlib.Tactic.FieldSimp

/-! The response of symmetric averages to a wave, and sums over a sampled bell curve. -/

namespace Shipgrav
open Spec Real

/-! ### Summation by parts -/

theorem abel_sum (u a : ℕ → ℝ) (n : ℕ) :
    ∑ d ∈ Finset.range (n + 1), u d * a d =
      ∑ d ∈ Finset.range n, (u d - u (d + 1)) * ∑ k ∈ Finset.range (d + 1), a k + u n * ∑ k ∈ Finset.range (n + 1), a k := by
  induction n with
  | zero => simp
  | succ n ih =>
    rw [Finset.sum_range_succ, ih, Finset.sum_range_succ (fun d => (u d - u (d + 1)) * _), Finset.sum_range_succ a (n + 1)]
    ring

/-- `1, 2 cos ω, 2 cos 2ω, …` -/
noncomputable def dirTerm (ω : ℝ) (d : ℕ) : ℝ := if d = 0 then 1 else 2 * cos (d * ω)

theorem dir_sum (ω : ℝ) (d : ℕ) : (∑ k ∈ Finset.range (d + 1), dirTerm ω k) * sin (ω / 2) = sin ((d + 1 / 2) * ω) := by
  induction d with
  | zero => simp [dirTerm]; congr 1; ring
  | succ d ih =>
    rw [Finset.sum_range_succ, add_mul, ih]
    simp only [dirTerm, if_neg (Nat.succ_ne_zero d)]
    push_cast
    have e1 : ((d : ℝ) + 1 / 2) * ω = (d + 1) * ω - ω / 2 := by ring
    have e2 : ((d : ℝ) + 1 + 1 / 2) * ω = (d + 1) * ω + ω / 2 := by ring
    rw [e1, e2, sin_sub, sin_add]
    ring

theorem fejer_sum (ω : ℝ) (d : ℕ) :
    (∑ m ∈ Finset.range (d + 1), ∑ k ∈ Finset.range (m + 1), dirTerm ω k) * sin (ω / 2) ^ 2 = sin ((d + 1) * ω / 2) ^ 2 := by
  induction d with
  | zero => simp [dirTerm]
  | succ d ih =>
    rw [Finset.sum_range_succ, add_mul, ih, pow_two (sin (ω / 2)), ← mul_assoc, dir_sum]
    push_cast
    have e1 : ((d : ℝ) + 1) * ω / 2 = (d + 1 + 1 / 2) * ω / 2 - ω / 4 := by ring
    have e2 : ((d : ℝ) + 1 + 1) * ω / 2 = (d + 1 + 1 / 2) * ω / 2 + ω / 4 := by ring
    have e3 : ((d : ℝ) + 1 + 1 / 2) * ω = 2 * ((d + 1 + 1 / 2) * ω / 2) := by ring
    have e4 : ω / 2 = 2 * (ω / 4) := by ring
    rw [e1, e2, e3, e4, sin_sub, sin_add, sin_two_mul, sin_two_mul]
    ring

theorem dir_bound (ω : ℝ) (hs : sin (ω / 2) ≠ 0) (d : ℕ) : |∑ k ∈ Finset.range (d + 1), dirTerm ω k| ≤ 1 / |sin (ω / 2)| := by
  rw [le_div_iff₀ (abs_pos.2 hs), ← abs_mul, dir_sum]
  exact abs_sin_le_one _

theorem fejer_bound (ω : ℝ) (hs : sin (ω / 2) ≠ 0) (d : ℕ) :
    |∑ m ∈ Finset.range (d + 1), ∑ k ∈ Finset.range (m + 1), dirTerm ω k| ≤ 1 / sin (ω / 2) ^ 2 := by
  have h : 0 < sin (ω / 2) ^ 2 := by positivity
  rw [le_div_iff₀ h, ← abs_of_pos h, ← abs_mul, fejer_sum, abs_of_nonneg (sq_nonneg _)]
  exact sin_sq_le_one _

/-! ### The sampled bell -/

/-- `exp(-a s²/2)` -/
noncomputable def gb (a s : ℝ) : ℝ := exp (-(a / 2) * s ^ 2)

theorem gb_pos (a s : ℝ) : 0 < gb a s := exp_pos _

theorem gb_le_one (a s : ℝ) (ha : 0 ≤ a) : gb a s ≤ 1 := by
  unfold gb
  rw [exp_le_one_iff]
  have := mul_nonneg ha (sq_nonneg s)
  linarith

theorem gb_zero (a : ℝ) : gb a 0 = 1 := by simp [gb]

theorem gb_anti (a : ℝ) (ha : 0 ≤ a) (s t : ℝ) (hs : 0 ≤ s) (hst : s ≤ t) : gb a t ≤ gb a s := by
  unfold gb
  rw [exp_le_exp]
  have : s ^ 2 ≤ t ^ 2 := by gcongr
  nlinarith

theorem gb_ge (a s : ℝ) : 1 - a / 2 * s ^ 2 ≤ gb a s := by
  unfold gb
  have := add_one_le_exp (-(a / 2) * s ^ 2)
  linarith

theorem gb_step (a s : ℝ) : gb a (s + 1) = gb a s * exp (-(a / 2) * (2 * s + 1)) := by
  unfold gb
  rw [← exp_add]
  congr 1
  ring

theorem gb_drop (a s : ℝ) : gb a s - gb a (s + 1) ≤ gb a s * (a / 2 * (2 * s + 1)) := by
  rw [gb_step]
  have := add_one_le_exp (-(a / 2) * (2 * s + 1))
  have h := mul_le_mul_of_nonneg_left this (gb_pos a s).le
  linarith

theorem bell_zero (fl : ℕ) : bell fl 0 = gb (36 / fl ^ 2) 1 := by
  unfold bell gb
  congr 1
  push_cast
  ring

theorem bell_succ (fl d : ℕ) : bell fl (d + 1) = gb (36 / fl ^ 2) d := by
  unfold bell gb
  congr 1
  push_cast
  ring

theorem gb_pair (a s : ℝ) : gb a (s - 1) + gb a (s + 1) = 2 * gb a s * (exp (-(a / 2)) * cosh (a * s)) := by
  have h1 : gb a (s - 1) = gb a s * (exp (-(a / 2)) * exp (a * s)) := by
    unfold gb; rw [← exp_add, ← exp_add]; congr 1; ring
  have h2 : gb a (s + 1) = gb a s * (exp (-(a / 2)) * exp (-(a * s))) := by
    unfold gb; rw [← exp_add, ← exp_add]; congr 1; ring
  rw [h1, h2, cosh_eq]
  ring

/-- Second differences. -/
theorem gb_second_lower (a s : ℝ) (ha : 0 ≤ a) : -a ≤ gb a (s - 1) - 2 * gb a s + gb a (s + 1) := by
  have h := gb_pair a s
  have h1 : exp (-(a / 2)) ≤ exp (-(a / 2)) * cosh (a * s) := le_mul_of_one_le_right (exp_pos _).le (one_le_cosh _)
  have h2 := add_one_le_exp (-(a / 2))
  have h3 : gb a s * (1 - a / 2) ≤ gb a s * (exp (-(a / 2)) * cosh (a * s)) := mul_le_mul_of_nonneg_left (by linarith) (gb_pos a s).le
  have h4 : gb a s * a ≤ 1 * a := mul_le_mul_of_nonneg_right (gb_le_one a s ha) ha
  linarith

theorem mul_exp_neg_le (x c : ℝ) (hc : 0 < c) : x * exp (-(c * x)) ≤ exp (-1) / c := by
  rw [le_div_iff₀ hc]
  have h := add_one_le_exp (c * x - 1)
  have h2 : c * x * exp (-(c * x)) ≤ exp (c * x - 1) * exp (-(c * x)) := mul_le_mul_of_nonneg_right (by linarith) (exp_pos _).le
  rw [← exp_add, show c * x - 1 + -(c * x) = -1 by ring] at h2
  linarith

theorem gb_second_upper (a s : ℝ) (ha : 0 < a) (ha' : a ≤ 1 / 16) : gb a (s - 1) - 2 * gb a s + gb a (s + 1) ≤ a := by
  have h := gb_pair a s
  have hc : cosh (a * s) ≤ exp ((a * s) ^ 2 / 2) := cosh_le_exp_half_sq _
  set x := a * s ^ 2 / 2 with hx
  have hx0 : 0 ≤ x := by rw [hx]; positivity
  have hg : gb a s = exp (-x) := by unfold gb; congr 1; rw [hx]; ring
  have h1 : exp (-(a / 2)) * cosh (a * s) ≤ exp (a * x) := by
    calc exp (-(a / 2)) * cosh (a * s) ≤ 1 * exp ((a * s) ^ 2 / 2) := by
          refine mul_le_mul ?_ hc (cosh_pos _).le zero_le_one
          rw [exp_le_one_iff]; linarith
      _ = exp (a * x) := by rw [one_mul]; congr 1; rw [hx]; ring
  have h2 : exp (-x) * (exp (-(a / 2)) * cosh (a * s)) ≤ exp (-((1 - a) * x)) := by
    calc _ ≤ exp (-x) * exp (a * x) := mul_le_mul_of_nonneg_left h1 (exp_pos _).le
      _ = exp (-((1 - a) * x)) := by rw [← exp_add]; congr 1; ring
  have h3 : exp (-((1 - a) * x)) - exp (-x) ≤ a * (x * exp (-((1 - a) * x))) := by
    have := add_one_le_exp (-(a * x))
    have h4 : exp (-x) = exp (-((1 - a) * x)) * exp (-(a * x)) := by rw [← exp_add]; congr 1; ring
    rw [h4]
    have := mul_le_mul_of_nonneg_left this (exp_pos (-((1 - a) * x))).le
    linarith
  have h5 := mul_exp_neg_le x (1 - a) (by linarith)
  have h6 : exp (-1) / (1 - a) ≤ 1 / 2 := by
    rw [div_le_div_iff₀ (by linarith) (by norm_num)]
    have := exp_neg_one_lt_d9
    linarith
  have h7 : a * (x * exp (-((1 - a) * x))) ≤ a * (1 / 2) := mul_le_mul_of_nonneg_left (h5.trans h6) ha.le
  rw [hg] at h ⊢
  linarith

/-! ### A symmetric sum over `2 h + 1` taps -/

theorem sum_taps (F : ℕ → ℝ) (h : ℕ) :
    ∑ j ∈ Finset.range (2 * h + 1), F (((j : ℤ) - h).natAbs) = F 0 + 2 * ∑ d ∈ Finset.range h, F (d + 1) := by
  rw [show 2 * h + 1 = h + (1 + h) by ring, Finset.sum_range_add, Finset.sum_range_add, Finset.sum_range_one]
  have e1 : ∑ j ∈ Finset.range h, F (((j : ℤ) - h).natAbs) = ∑ d ∈ Finset.range h, F (d + 1) := by
    rw [← Finset.sum_range_reflect]
    refine Finset.sum_congr rfl fun j hj => ?_
    have := Finset.mem_range.1 hj
    congr 1
    omega
  have e2 : ∑ j ∈ Finset.range h, F ((((h + (1 + j) : ℕ) : ℤ) - h).natAbs) = ∑ d ∈ Finset.range h, F (d + 1) := by
    refine Finset.sum_congr rfl fun j _ => ?_
    congr 1
    omega
  have e3 : F ((((h + 0 : ℕ) : ℤ) - h).natAbs) = F 0 := by congr 1; omega
  rw [e1, e2, e3]
  ring

/-- The gain of the filter for a wave of `ω` radians per sample. -/
noncomputable def gain (fl : ℕ) (ω : ℝ) : ℝ := ∑ j ∈ Finset.range (taps fl), weight fl j * cos (ω * ((j : ℝ) - (fl / 2 : ℕ)))

theorem cos_natAbs (ω : ℝ) (z : ℤ) : cos (ω * z) = cos (z.natAbs * ω) := by
  obtain ⟨n, rfl | rfl⟩ := Int.eq_nat_or_neg z
  · rw [Int.natAbs_natCast, mul_comm, Int.cast_natCast]
  · rw [Int.natAbs_neg, Int.natAbs_natCast, Int.cast_neg, Int.cast_natCast, mul_neg, cos_neg, mul_comm]

theorem gain_eq (fl : ℕ) (ω : ℝ) :
    gain fl ω = (bell fl 0 + 2 * ∑ d ∈ Finset.range (fl / 2), bell fl (d + 1) * cos ((d + 1 : ℕ) * ω)) /
      (bell fl 0 + 2 * ∑ d ∈ Finset.range (fl / 2), bell fl (d + 1)) := by
  have hS := sum_taps (bell fl) (fl / 2)
  have hT := sum_taps (fun d => bell fl d * cos (d * ω)) (fl / 2)
  simp only [Nat.cast_zero, zero_mul, cos_zero, mul_one] at hT
  rw [← hS, ← hT, Finset.sum_div]
  unfold gain taps weight rawWeight
  refine Finset.sum_congr rfl fun j _ => ?_
  have : ((j : ℝ) - (fl / 2 : ℕ)) = (((j : ℤ) - ((fl / 2 : ℕ) : ℤ) : ℤ) : ℝ) := by rw [Int.cast_sub, Int.cast_natCast, Int.cast_natCast]
  rw [this, cos_natAbs]
  unfold taps
  ring

theorem sine_sum_zero (fl : ℕ) (ω : ℝ) : ∑ j ∈ Finset.range (taps fl), weight fl j * sin (ω * ((j : ℝ) - (fl / 2 : ℕ))) = 0 := by
  have h := Finset.sum_range_reflect (fun j => weight fl j * sin (ω * ((j : ℝ) - (fl / 2 : ℕ)))) (taps fl)
  have h2 : ∑ j ∈ Finset.range (taps fl), weight fl (taps fl - 1 - j) * sin (ω * (((taps fl - 1 - j : ℕ) : ℝ) - (fl / 2 : ℕ))) =
      -∑ j ∈ Finset.range (taps fl), weight fl j * sin (ω * ((j : ℝ) - (fl / 2 : ℕ))) := by
    rw [← Finset.sum_neg_distrib]
    refine Finset.sum_congr rfl fun j hj => ?_
    have hj := Finset.mem_range.1 hj
    rw [weight_symm fl j hj]
    have : ((taps fl - 1 - j : ℕ) : ℝ) = 2 * (fl / 2 : ℕ) - j := by
      unfold taps at *
      rw [Nat.cast_sub (by omega)]
      push_cast
      ring
    rw [this, show ω * (2 * ((fl / 2 : ℕ) : ℝ) - j - (fl / 2 : ℕ)) = -(ω * ((j : ℝ) - (fl / 2 : ℕ))) by ring, sin_neg]
    ring
  rw [h2] at h
  linarith

theorem abs_gain_le (fl : ℕ) (ω : ℝ) : |gain fl ω| ≤ 1 := by
  unfold gain
  refine (Finset.abs_sum_le_sum_abs _ _).trans ?_
  rw [← weight_sum fl]
  refine Finset.sum_le_sum fun j _ => ?_
  rw [abs_mul, abs_of_pos (weight_pos fl j)]
  exact mul_le_of_le_one_right (weight_pos fl j).le (abs_cos_le_one _)

/-! ### Bounds of the gain -/

/-- The weights, with the middle one as large as its neighbours. -/
noncomputable def peakWeight (a : ℝ) : ℕ → ℝ
  | 0 => 1
  | d + 1 => gb a d

theorem top_eq (a ω : ℝ) (h : ℕ) :
    gb a 1 + 2 * ∑ d ∈ Finset.range h, gb a d * cos ((d + 1 : ℕ) * ω) =
      (gb a 1 - 1) + ∑ d ∈ Finset.range (h + 1), peakWeight a d * dirTerm ω d := by
  rw [Finset.sum_range_succ', Finset.mul_sum]
  simp only [peakWeight, dirTerm, if_neg (Nat.succ_ne_zero _), if_true]
  have : ∑ d ∈ Finset.range h, 2 * (gb a d * cos ((d + 1 : ℕ) * ω)) = ∑ d ∈ Finset.range h, gb a d * (2 * cos ((d + 1 : ℕ) * ω)) :=
    Finset.sum_congr rfl fun d _ => by ring
  rw [this]
  ring

theorem peak_anti (a : ℝ) (ha : 0 ≤ a) (d : ℕ) : peakWeight a (d + 1) ≤ peakWeight a d := by
  cases d with
  | zero => simp [peakWeight, gb_zero]
  | succ d =>
    simp only [peakWeight]
    push_cast
    exact gb_anti a ha _ _ (by positivity) (by linarith)

theorem top_first (a ω : ℝ) (ha : 0 ≤ a) (hs : sin (ω / 2) ≠ 0) (h : ℕ) :
    |gb a 1 + 2 * ∑ d ∈ Finset.range h, gb a d * cos ((d + 1 : ℕ) * ω)| ≤ a / 2 + 1 / |sin (ω / 2)| := by
  rw [top_eq, abel_sum]
  have h1 : |gb a 1 - 1| ≤ a / 2 := by
    rw [abs_le]
    have := gb_ge a 1
    have := gb_le_one a 1 ha
    constructor <;> linarith
  have hs' : 0 < |sin (ω / 2)| := abs_pos.2 hs
  refine (abs_add_le _ _).trans (add_le_add h1 ?_)
  refine (abs_add_le _ _).trans ?_
  have h2 : |∑ d ∈ Finset.range h, (peakWeight a d - peakWeight a (d + 1)) * ∑ k ∈ Finset.range (d + 1), dirTerm ω k| ≤
      ∑ d ∈ Finset.range h, (peakWeight a d - peakWeight a (d + 1)) * (1 / |sin (ω / 2)|) := by
    refine (Finset.abs_sum_le_sum_abs _ _).trans (Finset.sum_le_sum fun d _ => ?_)
    rw [abs_mul, abs_of_nonneg (sub_nonneg.2 (peak_anti a ha d))]
    exact mul_le_mul_of_nonneg_left (dir_bound ω hs d) (sub_nonneg.2 (peak_anti a ha d))
  have h3 : ∑ d ∈ Finset.range h, (peakWeight a d - peakWeight a (d + 1)) = 1 - peakWeight a h := by
    rw [Finset.sum_range_sub']
    rfl
  have h4 : 0 ≤ peakWeight a h := by
    cases h with
    | zero => exact zero_le_one
    | succ d => exact (gb_pos a d).le
  rw [← Finset.sum_mul, h3] at h2
  have h5 : |peakWeight a h * ∑ k ∈ Finset.range (h + 1), dirTerm ω k| ≤ peakWeight a h * (1 / |sin (ω / 2)|) := by
    rw [abs_mul, abs_of_nonneg h4]
    exact mul_le_mul_of_nonneg_left (dir_bound ω hs h) h4
  linarith

theorem peak_second (a : ℝ) (ha : 0 < a) (ha' : a ≤ 1 / 16) (d : ℕ) :
    |(peakWeight a d - peakWeight a (d + 1)) - (peakWeight a (d + 1) - peakWeight a (d + 2))| ≤ a := by
  cases d with
  | zero =>
    simp only [peakWeight, gb_zero, Nat.cast_zero, zero_add, Nat.cast_one, sub_self]
    have := gb_ge a 1
    have := gb_le_one a 1 ha.le
    rw [abs_le]
    constructor <;> linarith
  | succ d =>
    simp only [peakWeight]
    have h1 := gb_second_lower a (d + 1) ha.le
    have h2 := gb_second_upper a (d + 1) ha ha'
    rw [add_sub_cancel_right, show (d : ℝ) + 1 + 1 = d + 2 by ring] at h1 h2
    push_cast
    rw [abs_le]
    constructor <;> linarith

theorem top_second (a ω : ℝ) (ha : 0 < a) (ha' : a ≤ 1 / 16) (hs : sin (ω / 2) ≠ 0) (k : ℕ) :
    |gb a 1 + 2 * ∑ d ∈ Finset.range (k + 2), gb a d * cos ((d + 1 : ℕ) * ω)| ≤
      a / 2 + ((k + 1) * a + (gb a k - gb a (k + 1))) / sin (ω / 2) ^ 2 + gb a (k + 1) / |sin (ω / 2)| := by
  rw [top_eq, abel_sum, abel_sum]
  have h1 : |gb a 1 - 1| ≤ a / 2 := by
    rw [abs_le]
    have := gb_ge a 1
    have := gb_le_one a 1 ha.le
    constructor <;> linarith
  have h2 : |∑ d ∈ Finset.range (k + 1), ((peakWeight a d - peakWeight a (d + 1)) - (peakWeight a (d + 1) - peakWeight a (d + 1 + 1))) *
      ∑ m ∈ Finset.range (d + 1), ∑ k ∈ Finset.range (m + 1), dirTerm ω k| ≤ (k + 1) * a * (1 / sin (ω / 2) ^ 2) := by
    refine (Finset.abs_sum_le_sum_abs _ _).trans ?_
    have : ∀ d ∈ Finset.range (k + 1), |((peakWeight a d - peakWeight a (d + 1)) - (peakWeight a (d + 1) - peakWeight a (d + 1 + 1))) *
      ∑ m ∈ Finset.range (d + 1), ∑ k ∈ Finset.range (m + 1), dirTerm ω k| ≤ a * (1 / sin (ω / 2) ^ 2) := by
      intro d _
      rw [abs_mul]
      exact mul_le_mul (peak_second a ha ha' d) (fejer_bound ω hs d) (abs_nonneg _) ha.le
    refine (Finset.sum_le_sum this).trans ?_
    rw [Finset.sum_const, Finset.card_range, nsmul_eq_mul]
    push_cast
    linarith
  have h3 : |(peakWeight a (k + 1) - peakWeight a (k + 1 + 1)) * ∑ m ∈ Finset.range (k + 1 + 1), ∑ k ∈ Finset.range (m + 1), dirTerm ω k| ≤
      (gb a k - gb a (k + 1)) * (1 / sin (ω / 2) ^ 2) := by
    rw [abs_mul, abs_of_nonneg (sub_nonneg.2 (peak_anti a ha.le _))]
    have e : peakWeight a (k + 1) - peakWeight a (k + 1 + 1) = gb a k - gb a (k + 1) := by simp [peakWeight]
    have h0 := sub_nonneg.2 (peak_anti a ha.le (k + 1))
    rw [e] at h0 ⊢
    exact mul_le_mul_of_nonneg_left (fejer_bound ω hs _) h0
  have h4 : |peakWeight a (k + 2) * ∑ m ∈ Finset.range (k + 2 + 1), dirTerm ω m| ≤ gb a (k + 1) * (1 / |sin (ω / 2)|) := by
    have e : peakWeight a (k + 2) = gb a (k + 1) := by simp [peakWeight]
    rw [abs_mul, e, abs_of_pos (gb_pos _ _)]
    exact mul_le_mul_of_nonneg_left (dir_bound ω hs _) (gb_pos _ _).le
  refine (abs_add_le _ _).trans ?_
  refine (add_le_add_right ((abs_add_le _ _).trans (add_le_add_left (abs_add_le _ _) _)) _).trans ?_
  rw [add_div, div_eq_mul_one_div ((k + 1) * a), div_eq_mul_one_div (gb a k - _), div_eq_mul_one_div (gb a (k + 1))]
  linarith

theorem gb_neg (a s : ℝ) : gb a (-s) = gb a s := by simp [gb]

theorem mul_gb_le (a s : ℝ) (ha : 0 < a) (hs : 0 ≤ s) : s * gb a s ≤ exp (a / 2) / (2 * a) * (gb a (s - 1) - gb a (s + 1)) := by
  have h1 : gb a (s - 1) = gb a s * (exp (-(a / 2)) * exp (a * s)) := by
    unfold gb; rw [← exp_add, ← exp_add]; congr 1; ring
  have h2 : gb a (s + 1) = gb a s * (exp (-(a / 2)) * exp (-(a * s))) := by
    unfold gb; rw [← exp_add, ← exp_add]; congr 1; ring
  have h3 : a * s ≤ sinh (a * s) := self_le_sinh_iff.2 (by positivity)
  rw [sinh_eq] at h3
  have h4 : exp (a / 2) * exp (-(a / 2)) = 1 := by rw [← exp_add, add_neg_cancel, exp_zero]
  have h5 : exp (a / 2) / (2 * a) * (gb a (s - 1) - gb a (s + 1)) = gb a s * ((exp (a * s) - exp (-(a * s))) / 2) / a := by
    rw [h1, h2]
    calc _ = gb a s * (exp (a / 2) * exp (-(a / 2))) * ((exp (a * s) - exp (-(a * s))) / 2) / a := by ring
      _ = _ := by rw [h4, mul_one]
  rw [h5, le_div_iff₀ ha]
  have := mul_le_mul_of_nonneg_left h3 (gb_pos a s).le
  linarith

theorem telescope (a : ℝ) (h : ℕ) :
    ∑ d ∈ Finset.range h, ((d : ℝ) + 2) * (gb a (d - 1) - gb a (d + 1)) =
      2 * ∑ d ∈ Finset.range h, gb a d + 2 * gb a 1 + gb a 0 - (h + 2) * gb a (h - 1) - (h + 1) * gb a h := by
  induction h with
  | zero =>
    simp only [Finset.range_zero, Finset.sum_empty, Nat.cast_zero, zero_sub, gb_neg]
    ring
  | succ h ih =>
    rw [Finset.sum_range_succ, ih, Finset.sum_range_succ]
    push_cast
    rw [add_sub_cancel_right]
    ring

theorem moment_le (a : ℝ) (ha : 0 < a) (h : ℕ) :
    ∑ d ∈ Finset.range h, gb a d * ((d : ℝ) + 1) ^ 2 ≤
      exp (a / 2) / (2 * a) * (2 * ∑ d ∈ Finset.range h, gb a d + 3) + ∑ d ∈ Finset.range h, gb a d := by
  have hc : 0 ≤ exp (a / 2) / (2 * a) := by positivity
  have h1 : ∀ d ∈ Finset.range h, gb a d * ((d : ℝ) + 1) ^ 2 ≤
      exp (a / 2) / (2 * a) * (((d : ℝ) + 2) * (gb a (d - 1) - gb a (d + 1))) + gb a d := by
    intro d _
    have := mul_le_mul_of_nonneg_left (mul_gb_le a d ha (by positivity)) (show (0 : ℝ) ≤ d + 2 by positivity)
    nlinarith
  refine (Finset.sum_le_sum h1).trans ?_
  rw [Finset.sum_add_distrib, ← Finset.mul_sum, telescope]
  refine add_le_add_left (mul_le_mul_of_nonneg_left ?_ hc) _
  have h2 := gb_le_one a 1 ha.le
  have h3 : 0 ≤ ((h : ℝ) + 2) * gb a (h - 1) := mul_nonneg (by positivity) (gb_pos _ _).le
  have h4 : 0 ≤ ((h : ℝ) + 1) * gb a h := mul_nonneg (by positivity) (gb_pos _ _).le
  rw [gb_zero]
  linarith

theorem sum_sq_le (m : ℕ) : ∑ s ∈ Finset.range m, (s : ℝ) ^ 2 ≤ (m : ℝ) ^ 3 / 3 := by
  induction m with
  | zero => simp
  | succ m ih =>
    rw [Finset.sum_range_succ]
    push_cast
    have : (0 : ℝ) ≤ m := by positivity
    nlinarith

/-- The sum of the weights before normalisation. -/
theorem sum_ge (fl : ℕ) (hf : 24 ≤ fl) : (fl : ℝ) / 4 ≤ 2 * ∑ d ∈ Finset.range (fl / 2), gb (36 / fl ^ 2) d := by
  set m := (fl + 5) / 6 with hm
  have hF : (24 : ℝ) ≤ fl := by exact_mod_cast hf
  have h1 : ∑ d ∈ Finset.range m, (1 - 36 / (fl : ℝ) ^ 2 / 2 * (d : ℝ) ^ 2) ≤ ∑ d ∈ Finset.range (fl / 2), gb (36 / fl ^ 2) d := by
    refine (Finset.sum_le_sum (g := fun d : ℕ => gb (36 / fl ^ 2) d) fun d _ => gb_ge (36 / fl ^ 2) d).trans ?_
    refine Finset.sum_le_sum_of_subset_of_nonneg ?_ fun d _ _ => (gb_pos _ _).le
    exact Finset.range_subset_range.2 (by omega)
  rw [Finset.sum_sub_distrib, ← Finset.mul_sum, Finset.sum_const, Finset.card_range, nsmul_eq_mul, mul_one] at h1
  have h2 := mul_le_mul_of_nonneg_left (sum_sq_le m) (show (0 : ℝ) ≤ 36 / (fl : ℝ) ^ 2 / 2 by positivity)
  have hl : (fl : ℝ) ≤ 6 * m := by exact_mod_cast (show fl ≤ 6 * m by omega)
  have hu : (6 : ℝ) * m ≤ fl + 5 := by exact_mod_cast (show 6 * m ≤ fl + 5 by omega)
  have h3 : (fl : ℝ) / 8 ≤ m - 36 / (fl : ℝ) ^ 2 / 2 * ((m : ℝ) ^ 3 / 3) := by
    have e : (36 : ℝ) / (fl : ℝ) ^ 2 / 2 * ((m : ℝ) ^ 3 / 3) = 6 * (m : ℝ) ^ 3 / (fl : ℝ) ^ 2 := by field_simp; ring
    rw [e, le_sub_iff_add_le, ← le_sub_iff_add_le', div_le_iff₀ (by positivity)]
    obtain ⟨x, hx⟩ : ∃ x : ℝ, (m : ℝ) = x * fl := ⟨m / fl, by field_simp⟩
    rw [hx] at hl hu ⊢
    have hx1 : 1 / 6 ≤ x := by nlinarith
    have hx2 : x ≤ 29 / 144 := by nlinarith
    have h4 : 6 * x ^ 3 ≤ x - 1 / 8 := by nlinarith [mul_nonneg (sub_nonneg.2 hx1) (sub_nonneg.2 hx2), mul_nonneg (mul_nonneg (sub_nonneg.2 hx1) (sub_nonneg.2 hx2)) (show (0:ℝ) ≤ x by linarith)]
    have h5 := mul_le_mul_of_nonneg_right h4 (show (0 : ℝ) ≤ (fl : ℝ) ^ 3 by positivity)
    nlinarith
  linarith

theorem gain_low (fl : ℕ) (hf : 24 ≤ fl) (ω : ℝ) : 1 - ω ^ 2 * (fl * (fl + 16)) / 72 ≤ gain fl ω := by
  have hF : (24 : ℝ) ≤ fl := by exact_mod_cast hf
  have hS := sum_ge fl hf
  rw [gain_eq]
  simp only [bell_succ, bell_zero]
  set a : ℝ := 36 / (fl : ℝ) ^ 2 with ha
  have ha0 : 0 < a := by rw [ha]; positivity
  have ha1 : a ≤ 1 / 16 := by rw [ha, div_le_div_iff₀ (by positivity) (by norm_num)]; nlinarith
  set W := ∑ d ∈ Finset.range (fl / 2), gb a d with hW
  have hM := moment_le a ha0 (fl / 2)
  rw [← hW] at hM
  have hg := gb_pos a 1
  rw [le_div_iff₀ (by linarith)]
  have h1 : W - ω ^ 2 / 2 * ∑ d ∈ Finset.range (fl / 2), gb a d * ((d : ℝ) + 1) ^ 2 ≤ ∑ d ∈ Finset.range (fl / 2), gb a d * cos ((d + 1 : ℕ) * ω) := by
    rw [hW, Finset.mul_sum, ← Finset.sum_sub_distrib]
    refine Finset.sum_le_sum fun d _ => ?_
    have := mul_le_mul_of_nonneg_left (one_sub_sq_div_two_le_cos (x := ((d + 1 : ℕ) : ℝ) * ω)) (gb_pos a d).le
    push_cast at this ⊢
    nlinarith
  have he : exp (a / 2) ≤ 1 + 52 / 100 * a := by
    have := exp_bound' (x := a / 2) (n := 2) (by positivity) (by linarith) (by norm_num)
    norm_num [Finset.sum_range_succ, Nat.factorial] at this
    nlinarith
  have h2 : ∑ d ∈ Finset.range (fl / 2), gb a d * ((d : ℝ) + 1) ^ 2 ≤ (2 * W) * (fl * (fl + 16) / 72) := by
    refine hM.trans ?_
    have h3 : exp (a / 2) / (2 * a) ≤ (1 + 52 / 100 * a) / (2 * a) := by gcongr
    have h4 : (1 + 52 / 100 * a) / (2 * a) = (fl : ℝ) ^ 2 / 72 + 26 / 100 := by rw [ha]; field_simp; ring
    rw [h4] at h3
    have h5 : exp (a / 2) / (2 * a) * (2 * W + 3) ≤ ((fl : ℝ) ^ 2 / 72 + 26 / 100) * (2 * W + 3) := mul_le_mul_of_nonneg_right h3 (by linarith)
    have h8 : (fl : ℝ) / 4 * (16 * fl / 72 - 76 / 100) ≤ 2 * W * (16 * fl / 72 - 76 / 100) := mul_le_mul_of_nonneg_right hS (by linarith)
    nlinarith
  have h6 := mul_le_mul_of_nonneg_left h2 (sq_nonneg ω)
  have h7 : 0 ≤ ω ^ 2 * (fl * (fl + 16)) / 72 * gb a 1 := by positivity
  nlinarith

theorem exp_neg_34 : exp (-(34 / 10)) ≤ 1 / 28 := by
  rw [exp_neg, ← one_div, div_le_div_iff₀ (exp_pos _) (by norm_num), one_mul, one_mul]
  have h1 : exp (34 / 10) = exp 1 ^ 3 * exp (4 / 10) := by rw [← exp_nat_mul, ← exp_add]; norm_num
  have h2 := exp_one_gt_d9
  have h3 := quadratic_le_exp_of_nonneg (show (0 : ℝ) ≤ 4 / 10 by norm_num)
  have h4 : (27 / 10 : ℝ) ^ 3 ≤ exp 1 ^ 3 := by gcongr; linarith
  rw [h1]
  nlinarith

theorem exp_neg_28 : exp (-(28 / 10)) ≤ 1 / 16 := by
  rw [exp_neg, ← one_div, div_le_div_iff₀ (exp_pos _) (by norm_num), one_mul, one_mul]
  have h1 : exp (28 / 10) = exp 1 ^ 2 * exp (4 / 10) ^ 2 := by rw [← exp_nat_mul, ← exp_nat_mul, ← exp_add]; norm_num
  have h2 := exp_one_gt_d9
  have h3 := quadratic_le_exp_of_nonneg (show (0 : ℝ) ≤ 4 / 10 by norm_num)
  have h4 : (2718 / 1000 : ℝ) ^ 2 ≤ exp 1 ^ 2 := by gcongr; linarith
  have h5 : (148 / 100 : ℝ) ^ 2 ≤ exp (4 / 10) ^ 2 := by gcongr; linarith
  rw [h1]
  nlinarith

theorem gain_first (fl : ℕ) (hf : 24 ≤ fl) (ω : ℝ) (hs : sin (ω / 2) ≠ 0) : |gain fl ω| ≤ 5 / (fl * |sin (ω / 2)|) := by
  have hF : (24 : ℝ) ≤ fl := by exact_mod_cast hf
  have hS := sum_ge fl hf
  rw [gain_eq]
  simp only [bell_succ, bell_zero]
  set a : ℝ := 36 / (fl : ℝ) ^ 2 with ha
  have ha0 : 0 < a := by rw [ha]; positivity
  have ha1 : a ≤ 1 / 16 := by rw [ha, div_le_div_iff₀ (by positivity) (by norm_num)]; nlinarith
  have hT := top_first a ω ha0.le hs (fl / 2)
  have hg := gb_pos a 1
  have hp : 0 < gb a 1 + 2 * ∑ d ∈ Finset.range (fl / 2), gb a d := by linarith
  have hs0 : 0 < |sin (ω / 2)| := abs_pos.2 hs
  have hs1 : 1 ≤ 1 / |sin (ω / 2)| := by rw [le_div_iff₀ hs0, one_mul]; exact abs_sin_le_one _
  rw [abs_div, abs_of_pos hp, div_le_iff₀ hp]
  refine hT.trans ?_
  have : 5 / (fl * |sin (ω / 2)|) * (fl / 4) ≤ 5 / (fl * |sin (ω / 2)|) * (gb a 1 + 2 * ∑ d ∈ Finset.range (fl / 2), gb a d) :=
    mul_le_mul_of_nonneg_left (by linarith) (by positivity)
  refine le_trans ?_ this
  have e : 5 / (fl * |sin (ω / 2)|) * (fl / 4) = 5 / 4 * (1 / |sin (ω / 2)|) := by field_simp
  rw [e]
  linarith

theorem gain_second (fl : ℕ) (hf : 24 ≤ fl) (ω : ℝ) (hs : sin (ω / 2) ≠ 0) :
    |gain fl ω| ≤ 80 / (fl * sin (ω / 2)) ^ 2 + 1 / (7 * fl * |sin (ω / 2)|) := by
  have hF : (24 : ℝ) ≤ fl := by exact_mod_cast hf
  have hS := sum_ge fl hf
  rw [gain_eq]
  simp only [bell_succ, bell_zero]
  set a : ℝ := 36 / (fl : ℝ) ^ 2 with ha
  have ha0 : 0 < a := by rw [ha]; positivity
  have ha1 : a ≤ 1 / 16 := by rw [ha, div_le_div_iff₀ (by positivity) (by norm_num)]; nlinarith
  obtain ⟨k, hk⟩ : ∃ k, fl / 2 = k + 2 := ⟨fl / 2 - 2, by omega⟩
  have hk1 : 2 * (k : ℝ) + 4 ≤ fl := by exact_mod_cast (show 2 * k + 4 ≤ fl by omega)
  have hk2 : (fl : ℝ) ≤ 2 * k + 5 := by exact_mod_cast (show fl ≤ 2 * k + 5 by omega)
  rw [hk] at hS ⊢
  have hT := top_second a ω ha0 ha1 hs k
  have hg := gb_pos a 1
  have hp : 0 < gb a 1 + 2 * ∑ d ∈ Finset.range (k + 2), gb a d := by linarith
  have hs0 : 0 < |sin (ω / 2)| := abs_pos.2 hs
  have hq0 : 0 < sin (ω / 2) ^ 2 := by positivity
  have hq1 : 1 ≤ 1 / sin (ω / 2) ^ 2 := by rw [le_div_iff₀ hq0, one_mul]; exact sin_sq_le_one _
  have hg1 : gb a (k + 1) ≤ 1 / 28 := by
    refine le_trans ?_ exp_neg_34
    unfold gb
    rw [exp_le_exp, neg_mul, neg_le_neg_iff, ha]
    rw [div_div, div_mul_eq_mul_div, div_le_div_iff₀ (by norm_num) (by positivity)]
    have : ((fl : ℝ) - 3) / 2 ≤ k + 1 := by linarith
    have h2 : (((fl : ℝ) - 3) / 2) ^ 2 ≤ ((k : ℝ) + 1) ^ 2 := by gcongr; linarith
    nlinarith
  have hg2 : gb a k ≤ 1 / 16 := by
    refine le_trans ?_ exp_neg_28
    unfold gb
    rw [exp_le_exp, neg_mul, neg_le_neg_iff, ha]
    rw [div_div, div_mul_eq_mul_div, div_le_div_iff₀ (by norm_num) (by positivity)]
    have : ((fl : ℝ) - 5) / 2 ≤ k := by linarith
    have h2 : (((fl : ℝ) - 5) / 2) ^ 2 ≤ (k : ℝ) ^ 2 := by gcongr; linarith
    nlinarith
  have hd : gb a k - gb a (k + 1) ≤ 9 / 8 / fl := by
    refine (gb_drop a k).trans ?_
    calc gb a k * (a / 2 * (2 * k + 1)) ≤ 1 / 16 * (a / 2 * fl) := by
          refine mul_le_mul hg2 ?_ (by positivity) (by norm_num)
          exact mul_le_mul_of_nonneg_left (by linarith) (by positivity)
      _ = 9 / 8 / fl := by rw [ha]; field_simp; norm_num
  have hka : ((k : ℝ) + 1) * a ≤ 18 / fl := by
    calc ((k : ℝ) + 1) * a ≤ fl / 2 * a := mul_le_mul_of_nonneg_right (by linarith) ha0.le
      _ = 18 / fl := by rw [ha]; field_simp; norm_num
  have ha2 : a / 2 ≤ 3 / 4 / fl := by
    rw [ha, div_div, div_div, div_le_div_iff₀ (by positivity) (by positivity)]
    nlinarith
  rw [abs_div, abs_of_pos hp, div_le_iff₀ hp]
  have hb : 0 ≤ 80 / (fl * sin (ω / 2)) ^ 2 + 1 / (7 * fl * |sin (ω / 2)|) := by positivity
  refine le_trans ?_ (mul_le_mul_of_nonneg_left (show (fl : ℝ) / 4 ≤ gb a 1 + 2 * ∑ d ∈ Finset.range (k + 2), gb a d by linarith) hb)
  have e : (80 / (fl * sin (ω / 2)) ^ 2 + 1 / (7 * fl * |sin (ω / 2)|)) * (fl / 4) = 20 / fl * (1 / sin (ω / 2) ^ 2) + 1 / 28 * (1 / |sin (ω / 2)|) := by
    field_simp
    ring
  rw [e]
  refine hT.trans ?_
  rw [div_eq_mul_one_div _ (sin (ω / 2) ^ 2), div_eq_mul_one_div (gb a (k + 1))]
  have h1 := mul_le_mul_of_nonneg_right hg1 (show 0 ≤ 1 / |sin (ω / 2)| by positivity)
  have h2 : ((k + 1) * a + (gb a k - gb a (k + 1))) * (1 / sin (ω / 2) ^ 2) ≤ (18 / fl + 9 / 8 / fl) * (1 / sin (ω / 2) ^ 2) :=
    mul_le_mul_of_nonneg_right (by linarith) (by linarith)
  have h3 : a / 2 ≤ 3 / 4 / fl * (1 / sin (ω / 2) ^ 2) := ha2.trans (le_mul_of_one_le_right (by positivity) hq1)
  have h4 : (18 / (fl : ℝ) + 9 / 8 / fl) * (1 / sin (ω / 2) ^ 2) + 3 / 4 / fl * (1 / sin (ω / 2) ^ 2) ≤ 20 / fl * (1 / sin (ω / 2) ^ 2) := by
    rw [← add_mul]
    refine mul_le_mul_of_nonneg_right ?_ (by linarith)
    rw [← add_div, ← add_div]
    gcongr
    norm_num
  linarith

end Shipgrav
