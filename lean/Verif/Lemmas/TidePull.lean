import Verif.Lemmas.Relief
import Mathlib.Analysis.Calculus.SmoothSeries
import Mathlib.Analysis.SpecificLimits.Normed

/-! The attraction of a distant body as a series in the distance from the centre. -/

namespace Shipgrav
open Real Finset

/-- The coefficients of `1/√(1 - 2cx + x²)`. -/
theorem zonal (c : ℝ) (hc : |c| ≤ 1) : ∃ a : ℕ → ℝ, (∀ n, |a n| ≤ 1) ∧ a 1 = c ∧ a 2 = (3 * c ^ 2 - 1) / 2 ∧ a 3 = (5 * c ^ 3 - 3 * c) / 2 ∧
    ∀ x : ℝ, |x| < 1 → HasSum (fun n => a n * x ^ n) (1 / √(1 - 2 * c * x + x ^ 2)) := by
  have hc2 : 0 ≤ 1 - c ^ 2 := by have := (sq_le_one_iff_abs_le_one c).2 hc; linarith
  obtain ⟨r, hr⟩ : ∃ r : ℝ, r ^ 2 = 1 - c ^ 2 := ⟨√(1 - c ^ 2), sq_sqrt hc2⟩
  have h1 : c ^ 2 + r ^ 2 = 1 := by linarith
  have hs : √(c ^ 2 + r ^ 2) = 1 := by rw [h1, sqrt_one]
  have n1 : c * c + r * r = 1 := by nlinarith
  have r1 : rootCoef 1 = 1 / 2 := by norm_num [rootCoef]
  have r2 : rootCoef 2 = 3 / 8 := by norm_num [rootCoef]
  have r3 : rootCoef 3 = 5 / 16 := by norm_num [rootCoef]
  have r0 : rootCoef 0 = 1 := rfl
  refine ⟨distCoef c r, fun n => ?_, ?_, ?_, ?_, fun x hx => ?_⟩
  · have := distCoef_le' (c := c) (r := r) (by linarith) n
    rwa [hs, one_pow, div_one] at this
  · unfold distCoef
    rw [hs]
    simp [Finset.Nat.antidiagonal_succ, rootCoef, Complex.inv_re, Complex.normSq_mk, n1]
    ring
  · unfold distCoef
    rw [hs]
    rw [Complex.re_sum]
    simp only [Complex.re_ofReal_mul]
    simp [Finset.Nat.antidiagonal_succ, r0, r1, r2, Complex.inv_re, Complex.inv_im, Complex.normSq_mk, n1, pow_succ, Complex.mul_re, Complex.mul_im]
    linear_combination (-3 / 4) * hr
  · unfold distCoef
    rw [hs]
    rw [Complex.re_sum]
    simp only [Complex.re_ofReal_mul]
    simp [Finset.Nat.antidiagonal_succ, r0, r1, r2, r3, Complex.inv_re, Complex.inv_im, Complex.normSq_mk, n1, pow_succ, Complex.mul_re, Complex.mul_im]
    linear_combination (-3 / 2) * c * hr
  · have := distCoef_hasSum' (c := c) (r := r) (by linarith) (s := x) (by rwa [hs])
    rwa [show (c - x) ^ 2 + r ^ 2 = 1 - 2 * c * x + x ^ 2 by linear_combination hr] at this

private theorem hasSum_congr_fun {f g : ℕ → ℝ} {s : ℝ} (h : HasSum f s) (e : ∀ n, g n = f n) : HasSum g s := by
  rwa [show g = f from funext e]

/-- The attraction of a body at unit distance in the direction of the point `x`, as a series. -/
theorem zonal_pull (c : ℝ) (a : ℕ → ℝ) (ha : ∀ n, |a n| ≤ 1) (hs : ∀ x : ℝ, |x| < 1 → HasSum (fun n => a n * x ^ n) (1 / √(1 - 2 * c * x + x ^ 2)))
    (hQ : ∀ x : ℝ, |x| < 1 → 0 < 1 - 2 * c * x + x ^ 2) (x : ℝ) (hx : |x| < 1) :
    HasSum (fun n : ℕ => a (n + 1) * ((n + 1 : ℕ) * x ^ n)) ((c - x) / √(1 - 2 * c * x + x ^ 2) ^ 3) := by
  obtain ⟨ρ, h1, h2⟩ := exists_between hx
  have hρ : 0 < ρ := (abs_nonneg _).trans_lt h1
  have hsum : Summable fun n : ℕ => (n : ℝ) * ρ ^ (n - 1) := by
    have := (summable_pow_mul_geometric_of_norm_lt_one 1 (r := ρ) (by rwa [norm_of_nonneg hρ.le])).mul_left ρ⁻¹
    refine this.congr fun n => ?_
    cases n with
    | zero => simp
    | succ n => rw [Nat.add_sub_cancel, pow_one, pow_succ]; field_simp
  have hb : ∀ n : ℕ, ∀ y ∈ Metric.ball (0 : ℝ) ρ, ‖a n * (n * y ^ (n - 1))‖ ≤ n * ρ ^ (n - 1) := by
    intro n y hy
    rw [Metric.mem_ball, dist_zero_right, norm_eq_abs] at hy
    rw [norm_mul, norm_mul, norm_pow, norm_eq_abs, norm_eq_abs, norm_eq_abs, Nat.abs_cast]
    have : |y| ^ (n - 1) ≤ ρ ^ (n - 1) := pow_le_pow_left₀ (abs_nonneg _) hy.le _
    calc |a n| * (n * |y| ^ (n - 1)) ≤ 1 * (n * ρ ^ (n - 1)) := by gcongr; exact ha n
      _ = _ := one_mul _
  have hxb : x ∈ Metric.ball (0 : ℝ) ρ := by rwa [Metric.mem_ball, dist_zero_right, norm_eq_abs]
  have hd := hasDerivAt_tsum_of_isPreconnected (g := fun n y => a n * y ^ n) (g' := fun n y => a n * (n * y ^ (n - 1))) hsum Metric.isOpen_ball
    (convex_ball (0 : ℝ) ρ).isPreconnected (fun n y _ => (hasDerivAt_pow n y).const_mul (a n)) hb (Metric.mem_ball_self hρ)
    (hs 0 (by simp)).summable hxb
  have hd2 : HasDerivAt (fun y : ℝ => 1 / √(1 - 2 * c * y + y ^ 2)) ((c - x) / √(1 - 2 * c * x + x ^ 2) ^ 3) x := by
    have hq := hQ x hx
    have hq' := sqrt_pos.2 hq
    have e1 : HasDerivAt (fun y : ℝ => 1 - 2 * c * y + y ^ 2) (-(2 * c) + 2 * x) x := by
      have u1 : HasDerivAt (fun y : ℝ => 1 - 2 * c * y) (-(2 * c * 1)) x := ((hasDerivAt_id x).const_mul (2 * c)).const_sub 1
      have u2 : HasDerivAt (fun y : ℝ => 1 - 2 * c * y + y ^ 2) (-(2 * c * 1) + (2 : ℕ) * x ^ (2 - 1)) x := u1.add (hasDerivAt_pow 2 x)
      simpa using u2
    have e2 : HasDerivAt (fun y : ℝ => (√(1 - 2 * c * y + y ^ 2))⁻¹)
      (-((-(2 * c) + 2 * x) / (2 * √(1 - 2 * c * x + x ^ 2))) / √(1 - 2 * c * x + x ^ 2) ^ 2) x := (e1.sqrt hq.ne').inv hq'.ne'
    simp only [one_div]
    rw [show (c - x) / √(1 - 2 * c * x + x ^ 2) ^ 3 = -((-(2 * c) + 2 * x) / (2 * √(1 - 2 * c * x + x ^ 2))) / √(1 - 2 * c * x + x ^ 2) ^ 2 by
      field_simp
      ring]
    exact e2
  have heq : (fun z : ℝ => ∑' n, a n * z ^ n) =ᶠ[nhds x] fun y : ℝ => 1 / √(1 - 2 * c * y + y ^ 2) := by
    filter_upwards [Metric.isOpen_ball.mem_nhds hxb] with y hy
    rw [Metric.mem_ball, dist_zero_right, norm_eq_abs] at hy
    exact (hs y (hy.trans h2)).tsum_eq
  have hval := hd.unique (hd2.congr_of_eventuallyEq heq)
  have hS : Summable fun n : ℕ => a n * (n * x ^ (n - 1)) := Summable.of_norm_bounded hsum fun n => hb n x hxb
  have := hS.hasSum
  rw [hval, ← hasSum_nat_add_iff' 1] at this
  simpa using this

private theorem tail_sum (k : ℕ) (x : ℝ) (h0 : 0 ≤ x) (h1 : x < 1) :
    HasSum (fun n : ℕ => ((n + k : ℕ) + 1 : ℝ) * x ^ (n + k)) (x ^ k * (x / (1 - x) ^ 2 + (k + 1) * (1 - x)⁻¹)) := by
  have hn : ‖x‖ < 1 := by rwa [norm_of_nonneg h0]
  have g1 := hasSum_coe_mul_geometric_of_norm_lt_one hn
  have g2 := (hasSum_geometric_of_norm_lt_one hn).mul_left ((k : ℝ) + 1)
  have := (g1.add g2).mul_left (x ^ k)
  refine (hasSum_congr_fun this fun n => ?_)
  push_cast
  rw [pow_add]
  ring

private theorem tail_le (a : ℕ → ℝ) (ha : ∀ n, |a n| ≤ 1) (k : ℕ) (x S : ℝ) (h0 : 0 ≤ x) (h1 : x < 1)
    (h : HasSum (fun n : ℕ => a (n + 1) * ((n + 1 : ℕ) * x ^ n)) S) :
    |S - ∑ n ∈ range k, a (n + 1) * ((n + 1 : ℕ) * x ^ n)| ≤ x ^ k * (x / (1 - x) ^ 2 + (k + 1) * (1 - x)⁻¹) := by
  have ht := (hasSum_nat_add_iff' k).2 h
  rw [← norm_eq_abs, ← ht.tsum_eq]
  refine tsum_of_norm_bounded (tail_sum k x h0 h1) fun n => ?_
  rw [norm_mul, norm_mul, norm_pow, norm_eq_abs, norm_eq_abs, norm_of_nonneg h0, Nat.abs_cast]
  push_cast
  exact mul_le_of_le_one_left (by positivity) (ha _)

theorem zonal_pos (c : ℝ) (hc : |c| ≤ 1) (x : ℝ) (hx : |x| < 1) : 0 < 1 - 2 * c * x + x ^ 2 := by
  have h2 : c ^ 2 ≤ 1 := (sq_le_one_iff_abs_le_one c).2 hc
  have h3 : |c * x| < 1 := by rw [abs_mul]; nlinarith [abs_nonneg c, abs_nonneg x]
  have := (abs_lt.1 hx)
  have h4 : x ^ 2 < 1 := by nlinarith [this.1, this.2]
  nlinarith [sq_nonneg (c - x), sq_nonneg (c * x - 1), sq_nonneg (c * x)]

/-- Three terms of the attraction. -/
theorem pull_three (c x : ℝ) (hc : |c| ≤ 1) (h0 : 0 ≤ x) (h1 : x < 1) :
    |(c - x) / √(1 - 2 * c * x + x ^ 2) ^ 3 - (c + x * (3 * c ^ 2 - 1) + 3 / 2 * x ^ 2 * (5 * c ^ 3 - 3 * c))| ≤
      x ^ 3 * (x / (1 - x) ^ 2 + 4 * (1 - x)⁻¹) := by
  obtain ⟨a, ha, a1, a2, a3, hs⟩ := zonal c hc
  have hx : |x| < 1 := by rwa [abs_of_nonneg h0]
  have := tail_le a ha 3 x _ h0 h1 (zonal_pull c a ha hs (zonal_pos c hc) x hx)
  simp only [sum_range_succ, range_zero, sum_empty, zero_add, Nat.reduceAdd, a1, a2, a3] at this
  refine le_of_eq_of_le ?_ (this.trans (le_of_eq ?_))
  · congr 2
    push_cast
    ring
  · push_cast
    ring

/-- Two terms of the attraction. -/
theorem pull_two (c x : ℝ) (hc : |c| ≤ 1) (h0 : 0 ≤ x) (h1 : x < 1) :
    |(c - x) / √(1 - 2 * c * x + x ^ 2) ^ 3 - (c + x * (3 * c ^ 2 - 1))| ≤ x ^ 2 * (x / (1 - x) ^ 2 + 3 * (1 - x)⁻¹) := by
  obtain ⟨a, ha, a1, a2, a3, hs⟩ := zonal c hc
  have hx : |x| < 1 := by rwa [abs_of_nonneg h0]
  have := tail_le a ha 2 x _ h0 h1 (zonal_pull c a ha hs (zonal_pos c hc) x hx)
  simp only [sum_range_succ, range_zero, sum_empty, zero_add, Nat.reduceAdd, a1, a2] at this
  refine le_of_eq_of_le ?_ (this.trans (le_of_eq ?_))
  · congr 2
    push_cast
    ring
  · push_cast
    ring

end Shipgrav
