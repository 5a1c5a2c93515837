import Mathlib.Analysis.SpecialFunctions.Trigonometric.Basic
import Mathlib.Analysis.SpecialFunctions.Sqrt
import Mathlib.Analysis.SpecialFunctions.Trigonometric.Arctan
import Mathlib.Analysis.SpecialFunctions.Trigonometric.Inverse

/-! What is asked of the functions of a floating point library. -/

namespace Shipgrav.Spec

/-- The tangent is right up to about two units in the last place. -/
def GoodTan (tn : ℚ → ℚ) : Prop := ∀ q : ℚ, |(q : ℝ)| ≤ 1 → |(tn q : ℝ) - Real.tan q| ≤ |Real.tan q| / 2 ^ 51

/-- The sine is right up to about two units in the last place. -/
def GoodSin (sn : ℚ → ℚ) : Prop := ∀ q : ℚ, |(q : ℝ)| ≤ 2 → |(sn q : ℝ) - Real.sin q| ≤ |Real.sin q| / 2 ^ 51

/-- The sine, the cosine and the arcus tangens of numbers between -4 and 4 are right up to `2⁻⁵¹`. -/
def GoodTrig (sn cs at' : ℚ → ℚ) : Prop :=
  (∀ q : ℚ, |(q : ℝ)| ≤ 4 → |(sn q : ℝ) - Real.sin q| ≤ 1 / 2 ^ 51) ∧ (∀ q : ℚ, |(q : ℝ)| ≤ 4 → |(cs q : ℝ) - Real.cos q| ≤ 1 / 2 ^ 51) ∧
    ∀ q : ℚ, |(q : ℝ)| ≤ 4 → |(at' q : ℝ) - Real.arctan q| ≤ 1 / 2 ^ 51

/-- The square root is right up to about one unit in the last place. -/
def GoodSqrt (sq : ℚ → ℚ) : Prop := ∀ q : ℚ, 0 ≤ q → |(sq q : ℝ) - √q| ≤ √q / 2 ^ 52

/-- The square is right up to about one unit in the last place. -/
def GoodSqr (sq : ℚ → ℚ) : Prop := ∀ q : ℚ, |(sq q : ℝ) - (q : ℝ) ^ 2| ≤ (q : ℝ) ^ 2 / 2 ^ 52

/-- The functions of the tide prediction.  The sine and the cosine are those of numbers up to 100000 in size, the arcus tangens also that
of infinity. -/
structure GoodTideLib (sn cs at' asn acs : ℚ → ℚ) (inf : ℚ) (sq s2 s3 : ℚ → ℚ) : Prop where
  sin : ∀ q : ℚ, |(q : ℝ)| ≤ 100000 → |(sn q : ℝ) - Real.sin q| ≤ 1 / 2 ^ 51
  cos : ∀ q : ℚ, |(q : ℝ)| ≤ 100000 → |(cs q : ℝ) - Real.cos q| ≤ 1 / 2 ^ 51
  arctan : ∀ q : ℚ, |(at' q : ℝ) - Real.arctan q| ≤ 1 / 2 ^ 51
  arctanInf : |(inf : ℝ) - Real.pi / 2| ≤ 1 / 2 ^ 51
  arcsin : ∀ q : ℚ, |(q : ℝ)| ≤ 1 → |(asn q : ℝ) - Real.arcsin q| ≤ 1 / 2 ^ 51
  arccos : ∀ q : ℚ, |(q : ℝ)| ≤ 1 → |(acs q : ℝ) - Real.arccos q| ≤ 1 / 2 ^ 51
  sqrt : GoodSqrt sq
  sqr : GoodSqr s2
  cube : ∀ q : ℚ, |(s3 q : ℝ) - (q : ℝ) ^ 3| ≤ |(q : ℝ)| ^ 3 / 2 ^ 52

end Shipgrav.Spec
