import Verif.Spec.FloatLibm
import Mathlib.Analysis.SpecialFunctions.Complex.Arg

/-! What is asked of a floating point library by the navigation functions. -/

namespace Shipgrav.Spec

/-- Inner products of `n`, up to a hundred, terms are right up to `(n + 1) 2⁻⁵¹` times the sum of the sizes of the products, as they are when the `n` products are rounded
and added in any order. -/
def GoodDot (dot : List ℚ → List ℚ → ℚ) : Prop := ∀ a b : List ℚ, a.length = b.length → a.length ≤ 100 →
  |dot a b - (List.zipWith (· * ·) a b).sum| ≤ (a.length + 1) / 2 ^ 51 * (List.zipWith (fun x y => |x * y|) a b).sum

/-- The functions of the navigation part.  `arctan2 y x` is the angle of the point `(x, y)`. -/
structure GoodNavLib (sn cs sq s2 s3 : ℚ → ℚ) (at2 : ℚ → ℚ → ℚ) (dot : List ℚ → List ℚ → ℚ) : Prop where
  sin : ∀ q : ℚ, |(q : ℝ)| ≤ 100000 → |(sn q : ℝ) - Real.sin q| ≤ 1 / 2 ^ 51
  cos : ∀ q : ℚ, |(q : ℝ)| ≤ 100000 → |(cs q : ℝ) - Real.cos q| ≤ 1 / 2 ^ 51
  sqrt : GoodSqrt sq
  sqr : GoodSqr s2
  cube : ∀ q : ℚ, |(s3 q : ℝ) - (q : ℝ) ^ 3| ≤ |(q : ℝ)| ^ 3 / 2 ^ 52
  arctan2 : ∀ y x : ℚ, |(at2 y x : ℝ) - Complex.arg ⟨x, y⟩| ≤ 1 / 2 ^ 51
  dot : GoodDot dot

/-- A computed and an exact sample are missing together, or else are at most `e` apart. -/
def SampleWithin (e : ℝ) : Option ℚ → Option ℝ → Prop
  | none, none => True
  | some q, some x => |(q : ℝ) - x| ≤ e
  | _, _ => False

end Shipgrav.Spec
