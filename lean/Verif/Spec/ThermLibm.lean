import Verif.Spec.FloatLibm
import Verif.Spec.FloatExp
import Verif.Py.Erf

/-! What is asked of a floating point library by the thermal models. -/

namespace Shipgrav.Spec

/-- Exponential, square root and square are right up to a relative error, the sine and the error function up to `2⁻⁵¹`; the inverse of the complementary
error function, on (0, 1], up to `2⁻⁵⁰` times one more than its value. -/
structure GoodThermLib (ex sn er ei sq s2 : ℚ → ℚ) : Prop where
  exp : GoodExp ex
  sin : ∀ q : ℚ, |(q : ℝ)| ≤ 100000 → |(sn q : ℝ) - Real.sin q| ≤ 1 / 2 ^ 51
  erf : ∀ q : ℚ, |(er q : ℝ) - Shipgrav.erf q| ≤ 1 / 2 ^ 51
  erfcinv : ∀ q : ℚ, 0 < q → q ≤ 1 → ∀ x : ℝ, 1 - Shipgrav.erf x = q → |(ei q : ℝ) - x| ≤ (1 + |x|) / 2 ^ 50
  sqrt : GoodSqrt sq
  sqr : GoodSqr s2

/-- Ages are not negative: ages themselves, or distances from an axis that spreads. -/
def NoNegativeAges (time : Bool) (u : ℚ) (x : List ℚ) : Prop := (time = true ∧ ∀ v ∈ x, 0 ≤ v) ∨ (time = false ∧ 0 < u)

/-- Age in seconds, from an age in million years or from a distance and a rate per year. -/
noncomputable def seconds (time : Bool) (u x : ℝ) : ℝ := if time then x * (1000000 * 31557600) else |x| / (u / 31557600)

/-- Both have no value, or the values differ by at most `e` of the exact one. -/
def Agree (e : ℝ → ℝ) (a : Option ℚ) (b : Option ℝ) : Prop := (a = none ∧ b = none) ∨ ∃ (q : ℚ) (y : ℝ), a = some q ∧ b = some y ∧ |(q : ℝ) - y| ≤ e y

end Shipgrav.Spec
