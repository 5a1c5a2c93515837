import Mathlib.Analysis.SpecialFunctions.Trigonometric.ArctanDeriv
import Mathlib.Analysis.Calculus.Deriv.MeanValue
import Mathlib.Tactic.FieldSimp
import Mathlib.Tactic.LinearCombination

/-! Bounds of the arc tangent by its series. -/

namespace Shipgrav
open Real

private theorem nonneg_of (F F' : ℝ → ℝ) (h : ∀ t, HasDerivAt F (F' t) t) (h0 : F 0 = 0) (hp : ∀ t, 0 ≤ t → 0 ≤ F' t) (t : ℝ) (ht : 0 ≤ t) : 0 ≤ F t := by
  have hm : MonotoneOn F (Set.Ici 0) := by
    refine monotoneOn_of_deriv_nonneg (convex_Ici 0) (fun s _ => (h s).continuousAt.continuousWithinAt) (fun s _ => (h s).differentiableAt.differentiableWithinAt) ?_
    intro s hs
    rw [interior_Ici] at hs
    rw [(h s).deriv]
    exact hp s (le_of_lt hs)
  have := hm (Set.mem_Ici.2 le_rfl) (Set.mem_Ici.2 ht) ht
  rwa [h0] at this

/-- Partial sum of the series. -/
noncomputable def arctanSum (n : ℕ) (t : ℝ) : ℝ := ∑ k ∈ Finset.range n, (-1) ^ k * t ^ (2 * k + 1) / (2 * k + 1)

private theorem hasDeriv_sum (n : ℕ) (t : ℝ) : HasDerivAt (arctanSum n) (∑ k ∈ Finset.range n, (-1) ^ k * t ^ (2 * k)) t := by
  unfold arctanSum
  refine HasDerivAt.fun_sum fun k _ => ?_
  refine HasDerivAt.congr_deriv (((hasDerivAt_pow (2 * k + 1) t).const_mul ((-1) ^ k)).div_const (2 * k + 1)) ?_
  have : (2 * (k : ℝ) + 1) ≠ 0 := by positivity
  push_cast
  field_simp

private theorem geom (n : ℕ) (t : ℝ) : (∑ k ∈ Finset.range n, (-1) ^ k * t ^ (2 * k)) * (1 + t ^ 2) = 1 - (-1) ^ n * t ^ (2 * n) := by
  induction n with
  | zero => simp
  | succ n ih =>
    rw [Finset.sum_range_succ, add_mul, ih]
    ring

/-- The partial sums lie on alternate sides. -/
theorem arctan_le_sum (n : ℕ) (t : ℝ) (ht : 0 ≤ t) : arctan t ≤ arctanSum (2 * n + 1) t ∧ arctanSum (2 * n) t ≤ arctan t := by
  have e : ∀ (m : ℕ) (t : ℝ), (∑ k ∈ Finset.range m, (-1) ^ k * t ^ (2 * k)) = (1 - (-1) ^ m * t ^ (2 * m)) / (1 + t ^ 2) := fun m t => by
    rw [eq_div_iff (by positivity), geom]
  constructor
  · have := nonneg_of (fun t => arctanSum (2 * n + 1) t - arctan t) _ (fun t => (hasDeriv_sum (2 * n + 1) t).sub (hasDerivAt_arctan t))
      (by simp [arctanSum]) (fun t _ => by
        rw [e, div_sub_div_same]
        refine div_nonneg ?_ (by positivity)
        rw [pow_succ, pow_mul, neg_one_sq, one_pow]
        have : 0 ≤ t ^ (2 * (2 * n + 1)) := by rw [pow_mul]; positivity
        linarith) t ht
    linarith
  · have := nonneg_of (fun t => arctan t - arctanSum (2 * n) t) _ (fun t => (hasDerivAt_arctan t).sub (hasDeriv_sum (2 * n) t))
      (by simp [arctanSum]) (fun t _ => by
        rw [e, div_sub_div_same]
        refine div_nonneg ?_ (by positivity)
        rw [pow_mul (-1) 2 n, neg_one_sq, one_pow]
        have : 0 ≤ t ^ (2 * (2 * n)) := by rw [pow_mul]; positivity
        linarith) t ht
    linarith

/-- A lower bound that is sharp to fourth order. -/
theorem arctan_gt_ratio (t : ℝ) (ht : 0 < t) : 3 * t / (t ^ 2 + 3) < arctan t := by
  have hd : ∀ t, HasDerivAt (fun t => arctan t - 3 * t / (t ^ 2 + 3)) (1 / (1 + t ^ 2) - ((3 * 1) * (t ^ 2 + 3) - 3 * t * (2 * t)) / (t ^ 2 + 3) ^ 2) t := by
    intro t
    have h1 : HasDerivAt (fun t : ℝ => t ^ 2 + 3) (2 * t) t := by
      refine HasDerivAt.congr_deriv ((hasDerivAt_pow 2 t).add_const 3) (by simp)
    exact (hasDerivAt_arctan t).sub (((hasDerivAt_id t).const_mul 3).div h1 (by positivity))
  have hs : StrictMonoOn (fun t => arctan t - 3 * t / (t ^ 2 + 3)) (Set.Ici 0) := by
    refine strictMonoOn_of_deriv_pos (convex_Ici 0) (fun s _ => (hd s).continuousAt.continuousWithinAt) ?_
    intro s hs
    rw [interior_Ici] at hs
    have hs0 : 0 < s := hs
    rw [(hd s).deriv, div_sub_div _ _ (by positivity) (by positivity)]
    refine div_pos ?_ (by positivity)
    have : 0 < s ^ 4 := by positivity
    nlinarith
  have := hs (Set.mem_Ici.2 le_rfl) (Set.mem_Ici.2 ht.le) ht
  simp at this
  exact this

end Shipgrav
