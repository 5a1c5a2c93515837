import Mathlib.MeasureTheory.Integral.IntervalIntegral.Basic
import Mathlib.MeasureTheory.Measure.Lebesgue.Basic
import Mathlib.Analysis.SpecialFunctions.Sqrt

/-! Newton's law of gravitation: the downward attraction of mass below a point, per gravitational constant.  A mass `m` at distance `r` and depth
`z` attracts with `G m / r²`, of which the part `z / r` is downward. -/

namespace Shipgrav.Spec
open Real MeasureTheory

/-- Mass of density `σ` (per area) in the plane that lies `z` below the point `(X, Y)`. -/
noncomputable def sheetPull (σ : ℝ → ℝ → ℝ) (z X Y : ℝ) : ℝ :=
  ∫ p : ℝ × ℝ, σ p.1 p.2 * (z / √((p.1 - X) ^ 2 + (p.2 - Y) ^ 2 + z ^ 2) ^ 3)

/-- A layer between the depths `z1` and `z2` whose density `ρ` (per volume) varies sideways. -/
noncomputable def layerPull (ρ : ℝ → ℝ → ℝ) (z1 z2 X Y : ℝ) : ℝ := ∫ z in z1..z2, sheetPull ρ z X Y

/-- Mass of unit density between two surfaces, given by their depths (negative where they have changed places). -/
noncomputable def bodyPull (top bottom : ℝ → ℝ → ℝ) (X Y : ℝ) : ℝ :=
  ∫ p : ℝ × ℝ, ∫ z in top p.1 p.2..bottom p.1 p.2, z / √((p.1 - X) ^ 2 + (p.2 - Y) ^ 2 + z ^ 2) ^ 3

end Shipgrav.Spec
