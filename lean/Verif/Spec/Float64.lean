import Mathlib.Data.Rat.Floor
import Mathlib.Algebra.Order.Field.Power

/-! Double precision numbers and rounding to the nearest of them, as IEEE 754 describes it.  The exponent is not limited: numbers so large or
so small that the format runs out of exponents are left out. -/

namespace Shipgrav.Spec

/-- A number with at most 53 binary digits. -/
def IsDouble (x : ℚ) : Prop := ∃ m e : ℤ, |m| < 2 ^ 53 ∧ x = m * 2 ^ e

/-- `y` is a double precision number, and none is nearer to `x`. -/
def IsNearestDouble (x y : ℚ) : Prop := IsDouble y ∧ ∀ z, IsDouble z → |x - y| ≤ |x - z|

/-- `r` rounds to the nearest double precision number.  Which of two equally near ones it takes is left open. -/
structure Rounds (r : ℚ → ℚ) : Prop where
  double : ∀ x, IsDouble (r x)
  nearest : ∀ x y, IsDouble y → |x - r x| ≤ |x - y|

/-- The nearest whole number; of two equally near ones the even one. -/
def IsNearestEven (x : ℚ) (n : ℤ) : Prop := |x - n| < 1 / 2 ∨ |x - n| = 1 / 2 ∧ Even n

end Shipgrav.Spec
