import Verif.Spec.FloatLibm

/-! What is asked of a floating point library by the smoothing of the example scripts. -/

namespace Shipgrav.Spec

/-- Sums of `n`, up to a thousand, numbers are right up to `(n + 1) 2⁻⁵¹` times the sum of their sizes, as they are in any order of additions; and the same for inner
products.  Sine and cosine are right up to `2⁻⁵¹` between -7 and 7. -/
structure GoodFilterLib (sn cs : ℚ → ℚ) (sum : List ℚ → ℚ) (dot : List ℚ → List ℚ → ℚ) : Prop where
  sin : ∀ q : ℚ, |(q : ℝ)| ≤ 7 → |(sn q : ℝ) - Real.sin q| ≤ 1 / 2 ^ 51
  cos : ∀ q : ℚ, |(q : ℝ)| ≤ 7 → |(cs q : ℝ) - Real.cos q| ≤ 1 / 2 ^ 51
  sum : ∀ l : List ℚ, l.length ≤ 1000 → |sum l - l.sum| ≤ (l.length + 1) / 2 ^ 51 * (l.map fun x => |x|).sum
  dot : ∀ a b : List ℚ, a.length = b.length → a.length ≤ 1000 →
    |dot a b - (List.zipWith (· * ·) a b).sum| ≤ (a.length + 1) / 2 ^ 51 * (List.zipWith (fun x y => |x * y|) a b).sum

end Shipgrav.Spec
