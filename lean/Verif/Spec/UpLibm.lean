import Verif.Spec.FloatLibm

/-! What is asked of the library for the up vectors. -/

namespace Shipgrav.Spec

/-- The arcus tangens, and the sine and the cosine of numbers between -2 and 2, are right up to `2⁻⁵¹`. -/
structure GoodUpLib (at' sn cs : ℚ → ℚ) : Prop where
  arctan : ∀ q : ℚ, |(at' q : ℝ) - Real.arctan q| ≤ 1 / 2 ^ 51
  sin : ∀ q : ℚ, |(q : ℝ)| ≤ 2 → |(sn q : ℝ) - Real.sin q| ≤ 1 / 2 ^ 51
  cos : ∀ q : ℚ, |(q : ℝ)| ≤ 2 → |(cs q : ℝ) - Real.cos q| ≤ 1 / 2 ^ 51

/-- Two columns of three numbers differ by at most `e` in every row. -/
def ColumnsWithin (e : ℝ) (u : ℚ × ℚ × ℚ) (v : ℝ × ℝ × ℝ) : Prop :=
  |(u.1 : ℝ) - v.1| ≤ e ∧ |(u.2.1 : ℝ) - v.2.1| ≤ e ∧ |(u.2.2 : ℝ) - v.2.2| ≤ e

end Shipgrav.Spec
