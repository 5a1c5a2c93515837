import Verif.Lemmas.Float64
import Mathlib.Analysis.SpecialFunctions.Exp
import Mathlib.Analysis.Complex.ExponentialBounds
import Mathlib.Tactic.Linarith
import Mathlib.Tactic.Positivity

/-! Relative errors of chains of floating point operations. -/

namespace Shipgrav
open Spec

/-- A factor between `e^-c` and `e^c`. -/
def Within (c t : ℝ) : Prop := Real.exp (-c) ≤ t ∧ t ≤ Real.exp c

theorem Within.pos {c t : ℝ} (h : Within c t) : 0 < t := (Real.exp_pos _).trans_le h.1

theorem within_zero : Within 0 1 := by simp [Within]

theorem Within.mono {c d t : ℝ} (h : Within c t) (hcd : c ≤ d) : Within d t :=
  ⟨(Real.exp_le_exp.2 (by linarith)).trans h.1, h.2.trans (Real.exp_le_exp.2 hcd)⟩

theorem Within.mul {c d s t : ℝ} (h : Within c s) (h' : Within d t) : Within (c + d) (s * t) := by
  constructor
  · rw [neg_add, Real.exp_add]
    exact mul_le_mul h.1 h'.1 (Real.exp_pos _).le h.pos.le
  · rw [Real.exp_add]
    exact mul_le_mul h.2 h'.2 h'.pos.le (Real.exp_pos _).le

theorem Within.inv {c t : ℝ} (h : Within c t) : Within c t⁻¹ := by
  constructor
  · rw [Real.exp_neg]
    exact inv_anti₀ h.pos h.2
  · have := inv_anti₀ (Real.exp_pos _) h.1
    rwa [Real.exp_neg, inv_inv] at this

theorem Within.abs_sub_one {c t : ℝ} (h : Within c t) : |t - 1| ≤ Real.exp c - 1 := by
  rw [abs_le]
  refine ⟨?_, by linarith [h.2]⟩
  have h1 := h.1
  rw [Real.exp_neg] at h1
  have h2 := Real.exp_pos c
  have h3 : 2 ≤ Real.exp c + (Real.exp c)⁻¹ := by
    have : 0 ≤ (Real.exp c - 1) ^ 2 * (Real.exp c)⁻¹ := by positivity
    have e : (Real.exp c - 1) ^ 2 * (Real.exp c)⁻¹ = Real.exp c + (Real.exp c)⁻¹ - 2 := by
      field_simp
      ring
    linarith
  linarith

/-- A factor within `d ≤ 1/2` of one. -/
theorem within_of_near {d t : ℝ} (hd : d ≤ 1 / 2) (h : |t - 1| ≤ d) : Within (2 * d) t := by
  have h0 : 0 ≤ d := (abs_nonneg _).trans h
  have h1 := abs_le.1 h
  constructor
  · have h2 := Real.add_one_le_exp (2 * d)
    rw [Real.exp_neg]
    have h3 : (Real.exp (2 * d))⁻¹ ≤ (2 * d + 1)⁻¹ := inv_anti₀ (by linarith) h2
    have h4 : (2 * d + 1)⁻¹ ≤ 1 - d := by
      rw [inv_le_comm₀ (by linarith) (by linarith)]
      rw [inv_le_comm₀ (by linarith) (by linarith)]
      rw [inv_eq_one_div, div_le_iff₀ (by linarith)]
      nlinarith
    linarith
  · have := Real.add_one_le_exp (2 * d)
    linarith

/-- One rounding is a factor within `2^-52`. -/
theorem rounds_factor {r : ℚ → ℚ} (hr : Rounds r) (z : ℚ) : ∃ t : ℝ, Within (1 / 2 ^ 52) t ∧ ((r z : ℚ) : ℝ) = z * t := by
  by_cases hz : z = 0
  · refine ⟨1, within_zero.mono (by positivity), ?_⟩
    rw [hz, hr.exact ⟨0, 0, by norm_num, by norm_num⟩]
    norm_num
  have hz' : (z : ℝ) ≠ 0 := by exact_mod_cast hz
  have h := hr.rel z
  refine ⟨(r z : ℝ) / z, ?_, by field_simp⟩
  have e : (1 : ℝ) / 2 ^ 52 = 2 * (1 / 2 ^ 53) := by norm_num
  rw [e]
  refine within_of_near (by norm_num) ?_
  have e2 : (r z : ℝ) / z - 1 = -(((z - r z : ℚ) : ℝ) / z) := by push_cast; field_simp; ring
  rw [e2, abs_neg, abs_div, div_le_iff₀ (abs_pos.2 hz')]
  have h2 : ((|z - r z| : ℚ) : ℝ) ≤ ((|z| / 2 ^ 53 : ℚ) : ℝ) := by exact_mod_cast h
  push_cast at h2
  rw [one_div, inv_mul_eq_div]
  push_cast
  exact h2

/-- A sum of rounded additions, from left to right, is the sum of the terms with a factor on each. -/
theorem foldl_factor {r : ℚ → ℚ} (hr : Rounds r) (l : List ℚ) : ∀ a : ℚ, ∃ (s : ℝ) (t : List ℝ),
    Within (l.length * (1 / 2 ^ 52)) s ∧ t.length = l.length ∧ (∀ x ∈ t, Within (l.length * (1 / 2 ^ 52)) x) ∧
      ((l.foldl (fun a b => r (a + b)) a : ℚ) : ℝ) = a * s + (List.zipWith (fun (x : ℚ) t => (x : ℝ) * t) l t).sum := by
  induction l with
  | nil => intro a; exact ⟨1, [], by simpa using within_zero, rfl, by simp, by simp⟩
  | cons b l ih =>
    intro a
    obtain ⟨s, t, h1, h2, h3, h4⟩ := ih (r (a + b))
    obtain ⟨q, hq, hq'⟩ := rounds_factor hr (a + b)
    have hlen : (((b :: l).length : ℕ) : ℝ) * (1 / 2 ^ 52) = 1 / 2 ^ 52 + (l.length : ℝ) * (1 / 2 ^ 52) := by
      rw [List.length_cons]; push_cast; ring
    rw [hlen]
    refine ⟨q * s, (q * s) :: t, hq.mul h1, by simp [h2], ?_, ?_⟩
    · intro x hx
      rcases List.mem_cons.1 hx with rfl | hx
      · exact hq.mul h1
      · refine (h3 x hx).mono ?_
        have : (0 : ℝ) ≤ 1 / 2 ^ 52 := by positivity
        linarith
    · rw [List.foldl_cons, h4, hq', List.zipWith_cons_cons, List.sum_cons]
      push_cast
      ring

end Shipgrav
