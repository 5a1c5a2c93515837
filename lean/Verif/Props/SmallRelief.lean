import Verif.Props.Datum
import Verif.Props.Parker2d
import Mathlib.Analysis.SpecialFunctions.ExpDeriv
import Mathlib.Analysis.Calculus.Deriv.Add
import Mathlib.Analysis.Calculus.Deriv.Pow

/-! C155: small relief (grav.py 618–813). -/

namespace Shipgrav
open Spec Real

private theorem carried_affine (n : ℕ) (b ε : ℝ) (d : ℕ → ℝ) : carriedOn n (fun i => b + ε * d i) = fun m => b + ε * carriedOn n d m := by
  funext m
  unfold carriedOn
  split_ifs <;> rfl

private theorem affine_deriv (b d : ℝ) (p : ℕ) : HasDerivAt (fun ε : ℝ => (b + ε * d) ^ p) (p * b ^ (p - 1) * d) 0 := by
  have h : HasDerivAt (fun ε : ℝ => b + ε * d) d 0 := by
    have := ((hasDerivAt_id (0 : ℝ)).mul_const d).const_add b
    simpa using this
  refine HasDerivAt.congr_deriv (h.pow p) ?_
  rw [zero_mul, add_zero]

/-- **C155, what the code does.**  Relief `ε d` about the level `b`, to first order in `ε`: the anomaly of `grav1d_padded` is that of a sheet of mass
(density times relief) continued upward by the distance `zlev - b`, each wave `exp(-k (zlev - b))`; but every wave is multiplied once more by the sum
`1 + kb + (kb)²/2 + (kb)³/6 + (kb)⁴/24`. -/
theorem C155_profile_response (xtopo : List ℝ) (n : ℕ) (hx : xtopo.length = n) (hn : 0 < n) (d : ℕ → ℝ) (b zlev rho : ℝ) :
    let κ := fun k => |2 * π / ((5 * n : ℕ) * ((xtopo.getLastD 0 - xtopo.headD 0) / (n - 1)))| * usedCycles (5 * n) k
    ∃ v : ℝ → ℕ → ℝ, (∀ ε, grav1dPadded xtopo (samples (fun i => b + ε * d i) n) zlev rho = .ok (samples (v ε) n)) ∧ ∀ i,
      HasDerivAt (fun ε => v ε i) (100 * (2 * π * (6.673 * 1e-8) * rho / (5 * n : ℕ) * ∑ k ∈ Finset.Ico 1 (5 * n),
        (exp (-(zlev - b) * κ k) * ∑ q ∈ Finset.range 5, (κ k * b) ^ q / q.factorial) *
          ∑ m ∈ Finset.range (5 * n), carriedOn n d m * cos (2 * π * k * (((2 * n + i : ℕ) : ℝ) - m) / (5 * n : ℕ)))) 0 := by
  intro κ
  refine ⟨_, fun ε => C68_value xtopo n hx hn (fun i => b + ε * d i) zlev rho, fun i => ?_⟩
  have hnr : (n : ℝ) ≠ 0 := by exact_mod_cast hn.ne'
  obtain ⟨N, hN⟩ : ∃ N, N = 5 * n := ⟨_, rfl⟩
  rw [← hN]
  have hm : ∀ ε : ℝ, (∑ i ∈ Finset.range n, (b + ε * d i)) / n = b + ε * ((∑ i ∈ Finset.range n, d i) / n) := fun ε => by
    rw [Finset.sum_add_distrib, ← Finset.mul_sum, Finset.sum_const, Finset.card_range, nsmul_eq_mul]
    field_simp
  simp only [hm, carried_affine]
  unfold parkerLine
  refine HasDerivAt.const_mul 100 (HasDerivAt.const_mul _ (HasDerivAt.fun_sum fun k hk => ?_))
  obtain ⟨hk1, hk2⟩ := Finset.mem_Ico.mp hk
  have hκ : |2 * π / ((N : ℕ) * ((xtopo.getLastD 0 - xtopo.headD 0) / ((n : ℝ) - 1)))| * usedCycles N k = κ k := by rw [hN]
  beta_reduce
  rw [hκ]
  have he : HasDerivAt (fun ε : ℝ => -(zlev - (b + ε * ((∑ i ∈ Finset.range n, d i) / n))) * κ k) ((∑ i ∈ Finset.range n, d i) / n * κ k) 0 := by
    have h := ((((hasDerivAt_id (0 : ℝ)).mul_const ((∑ i ∈ Finset.range n, d i) / n)).const_add b).const_sub zlev).neg.mul_const (κ k)
    refine HasDerivAt.congr_deriv h ?_
    ring
  have hs : HasDerivAt (fun ε : ℝ => ∑ p ∈ Finset.Icc 1 5, κ k ^ (p - 1) / p.factorial *
      ∑ m ∈ Finset.range N, (b + ε * carriedOn n d m) ^ p * cos (2 * π * k * (((2 * n + i : ℕ) : ℝ) - m) / N)) _ 0 :=
    HasDerivAt.fun_sum fun p _ => HasDerivAt.const_mul _ (HasDerivAt.fun_sum fun m _ => (affine_deriv b (carriedOn n d m) p).mul_const _)
  refine HasDerivAt.congr_deriv (he.exp.mul hs) ?_
  have hz : ∑ p ∈ Finset.Icc 1 5, κ k ^ (p - 1) / p.factorial *
      ∑ m ∈ Finset.range N, (b + 0 * carriedOn n d m) ^ p * cos (2 * π * k * (((2 * n + i : ℕ) : ℝ) - m) / N) = 0 := by
    refine Finset.sum_eq_zero fun p _ => ?_
    simp only [zero_mul, add_zero]
    rw [← Finset.mul_sum, cos_bin_sum_zero N k (by omega) hk2, mul_zero, mul_zero]
  rw [hz, mul_zero, zero_add, zero_mul, add_zero]
  have hp : ∀ p : ℕ, ∑ m ∈ Finset.range N, p * b ^ (p - 1) * carriedOn n d m * cos (2 * π * k * (((2 * n + i : ℕ) : ℝ) - m) / N) =
      p * b ^ (p - 1) * ∑ m ∈ Finset.range N, carriedOn n d m * cos (2 * π * k * (((2 * n + i : ℕ) : ℝ) - m) / N) := fun p => by
    rw [Finset.mul_sum]
    exact Finset.sum_congr rfl fun m _ => by ring
  simp only [hp]
  rw [mul_assoc (exp _)]
  refine congrArg _ ?_
  generalize ∑ m ∈ Finset.range N, carriedOn n d m * cos (2 * π * k * (((2 * n + i : ℕ) : ℝ) - m) / N) = S
  rw [show Finset.Icc 1 5 = {1, 2, 3, 4, 5} from rfl]
  simp [Finset.sum_range_succ, Nat.factorial]
  ring

/-- **C155, part.**  Heights counted from the level of the relief itself (`b = 0`): the sheet of mass continued upward, nothing else. -/
theorem C155_profile_zero_level_partial (xtopo : List ℝ) (n : ℕ) (hx : xtopo.length = n) (hn : 0 < n) (d : ℕ → ℝ) (zlev rho : ℝ) :
    let κ := fun k => |2 * π / ((5 * n : ℕ) * ((xtopo.getLastD 0 - xtopo.headD 0) / (n - 1)))| * usedCycles (5 * n) k
    ∃ v : ℝ → ℕ → ℝ, (∀ ε, grav1dPadded xtopo (samples (fun i => ε * d i) n) zlev rho = .ok (samples (v ε) n)) ∧ ∀ i,
      HasDerivAt (fun ε => v ε i) (100 * (2 * π * (6.673 * 1e-8) * rho / (5 * n : ℕ) * ∑ k ∈ Finset.Ico 1 (5 * n), exp (-zlev * κ k) *
          ∑ m ∈ Finset.range (5 * n), carriedOn n d m * cos (2 * π * k * (((2 * n + i : ℕ) : ℝ) - m) / (5 * n : ℕ)))) 0 := by
  intro κ
  obtain ⟨v, h1, h2⟩ := C155_profile_response xtopo n hx hn d 0 zlev rho
  simp only [zero_add] at h1
  refine ⟨v, h1, fun i => HasDerivAt.congr_deriv (h2 i) ?_⟩
  have e : ∀ x : ℝ, ∑ q ∈ Finset.range 5, (x * 0) ^ q / q.factorial = 1 := fun x => by simp [Finset.sum_range_succ]
  simp only [e, mul_one, sub_zero]
  rfl

/-- **C155, refuted for profiles.**  A low step in the middle of an even number of points at depth `-b` below the zero of heights, not deeper than
`2/π` of the spacing: the anomaly at the step is smaller, to first order in the height of the step, than that of the sheet of mass continued upward. -/
theorem C155_profile_refuted (xtopo : List ℝ) (n : ℕ) (hx : xtopo.length = n) (hn : 2 ≤ n) (he : Even n) (b zlev rho : ℝ) (hr : 0 < rho) (hb : b < 0)
    (hd : π * -b ≤ 2 * |(xtopo.getLastD 0 - xtopo.headD 0) / (n - 1)|) :
    let κ := fun k => |2 * π / ((5 * n : ℕ) * ((xtopo.getLastD 0 - xtopo.headD 0) / (n - 1)))| * usedCycles (5 * n) k
    ∃ (v : ℝ → ℕ → ℝ) (v' : ℝ), (∀ ε, grav1dPadded xtopo (samples (fun i => b + ε * stepProfile n i) n) zlev rho = .ok (samples (v ε) n)) ∧
      HasDerivAt (fun ε => v ε (n / 2)) v' 0 ∧
      v' < 100 * (2 * π * (6.673 * 1e-8) * rho / (5 * n : ℕ) * ∑ k ∈ Finset.Ico 1 (5 * n), exp (-(zlev - b) * κ k) *
          ∑ m ∈ Finset.range (5 * n), carriedOn n (stepProfile n) m * cos (2 * π * k * (((2 * n + n / 2 : ℕ) : ℝ) - m) / (5 * n : ℕ))) := by
  intro κ
  obtain ⟨v, h1, h2⟩ := C155_profile_response xtopo n hx (by omega) (stepProfile n) b zlev rho
  refine ⟨v, _, h1, h2 (n / 2), ?_⟩
  have hn2 : n % 2 = 0 := Nat.even_iff.mp he
  have hdx : 0 < |(xtopo.getLastD 0 - xtopo.headD 0) / ((n : ℝ) - 1)| := by
    have : 0 < π * -b := mul_pos pi_pos (by linarith)
    linarith
  have hN : (0 : ℝ) < (5 * n : ℕ) := by exact_mod_cast (by omega : 0 < 5 * n)
  have hS : ∀ k ∈ Finset.Ico 1 (5 * n), ∑ m ∈ Finset.range (5 * n), carriedOn n (stepProfile n) m *
      cos (2 * π * k * (((2 * n + n / 2 : ℕ) : ℝ) - m) / (5 * n : ℕ)) = if k % 2 = 1 then 1 else 0 := fun k hk => by
    obtain ⟨hk1, hk2⟩ := Finset.mem_Ico.mp hk
    rw [← step_cos (5 * n) k (by omega) (by omega) (by omega) hk2, show 2 * n + n / 2 = 5 * n / 2 by omega]
    refine Finset.sum_congr rfl fun m hm => ?_
    have := carried_step n m hn (Finset.mem_range.mp hm) 0
    simp only [add_zero] at this
    rw [this]
  have hκ0 : ∀ k, 1 ≤ k → k < 5 * n → 0 < κ k := fun k h1 h2 => by
    have hu : 0 < usedCycles (5 * n) k := by
      unfold usedCycles
      split <;> omega
    have : (0 : ℝ) < usedCycles (5 * n) k := by exact_mod_cast hu
    have h3 := abs_pos.1 hdx
    have : 0 < |2 * π / ((5 * n : ℕ) * ((xtopo.getLastD 0 - xtopo.headD 0) / ((n : ℝ) - 1)))| :=
      abs_pos.2 (div_ne_zero (by positivity) (mul_ne_zero hN.ne' h3))
    positivity
  have hκ1 : ∀ k, k < 5 * n → κ k * -b ≤ 2 := fun k h2 => by
    have hu : 2 * usedCycles (5 * n) k ≤ 5 * n := by
      unfold usedCycles
      split <;> omega
    have hu' : 2 * (usedCycles (5 * n) k : ℝ) ≤ (5 * n : ℕ) := by exact_mod_cast hu
    have : κ k = 2 * usedCycles (5 * n) k * π / ((5 * n : ℕ) * |(xtopo.getLastD 0 - xtopo.headD 0) / ((n : ℝ) - 1)|) := by
      change |2 * π / ((5 * n : ℕ) * ((xtopo.getLastD 0 - xtopo.headD 0) / ((n : ℝ) - 1)))| * _ = _
      rw [abs_div, abs_mul (((5 * n : ℕ) : ℝ)), abs_of_pos hN, abs_of_pos (by positivity : 0 < 2 * π)]
      ring
    rw [this, div_mul_eq_mul_div, div_le_iff₀ (by positivity)]
    calc 2 * (usedCycles (5 * n) k : ℝ) * π * -b = 2 * (usedCycles (5 * n) k : ℝ) * (π * -b) := by ring
      _ ≤ (5 * n : ℕ) * (2 * |(xtopo.getLastD 0 - xtopo.headD 0) / ((n : ℝ) - 1)|) := by
        refine mul_le_mul hu' hd (mul_nonneg pi_pos.le (by linarith)) hN.le
      _ = _ := by ring
  have hT : ∀ x : ℝ, -2 ≤ x → x < 0 → ∑ q ∈ Finset.range 5, x ^ q / q.factorial < 1 := fun x h1 h2 => by
    have e : ∑ q ∈ Finset.range 5, x ^ q / q.factorial = 1 + x * (1 + x / 2 + x ^ 2 / 6 + x ^ 3 / 24) := by
      simp [Finset.sum_range_succ, Nat.factorial]
      ring
    have : 0 < 1 + x / 2 + x ^ 2 / 6 + x ^ 3 / 24 := by nlinarith [sq_nonneg x, mul_nonneg (sq_nonneg x) (by linarith : 0 ≤ x + 2)]
    rw [e]
    nlinarith
  refine mul_lt_mul_of_pos_left (mul_lt_mul_of_pos_left ?_ (by positivity)) (by norm_num)
  refine Finset.sum_lt_sum (fun k hk => ?_) ⟨1, Finset.mem_Ico.mpr ⟨le_rfl, by omega⟩, ?_⟩
  · obtain ⟨hk1, hk2⟩ := Finset.mem_Ico.mp hk
    have ht := hT (κ k * b) (by have := hκ1 k hk2; linarith) (mul_neg_of_pos_of_neg (hκ0 k hk1 hk2) hb)
    rw [hS k hk]
    split
    · rw [mul_one, mul_one]
      nlinarith [exp_pos (-(zlev - b) * κ k)]
    · simp
  · have ht := hT (κ 1 * b) (by have := hκ1 1 (by omega); linarith) (mul_neg_of_pos_of_neg (hκ0 1 le_rfl (by omega)) hb)
    rw [hS 1 (Finset.mem_Ico.mpr ⟨le_rfl, by omega⟩), if_pos (by norm_num), mul_one, mul_one]
    nlinarith [exp_pos (-(zlev - b) * κ 1)]

/-- The cases met: four points a kilometre apart, 500 m below the zero of heights. -/
example : [(0 : ℝ), 1000, 2000, 3000].length = 4 ∧ 2 ≤ 4 ∧ Even 4 ∧ (0 : ℝ) < 1000 ∧ (-500 : ℝ) < 0 ∧
    π * -(-500 : ℝ) ≤ 2 * |([(0 : ℝ), 1000, 2000, 3000].getLastD 0 - [(0 : ℝ), 1000, 2000, 3000].headD 0) / ((4 : ℕ) - 1)| := by
  refine ⟨rfl, by norm_num, by decide, by norm_num, by norm_num, ?_⟩
  norm_num [abs_of_pos]
  linarith [pi_le_four]

/-- The factor for a wave with `kb = -1`: three eighths. -/
example : ∑ q ∈ Finset.range 5, (-1 : ℝ) ^ q / q.factorial = 3 / 8 := by
  norm_num [Finset.sum_range_succ, Nat.factorial]

end Shipgrav
