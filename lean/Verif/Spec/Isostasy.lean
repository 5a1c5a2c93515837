import Mathlib.MeasureTheory.Integral.Bochner.Set
import Mathlib.MeasureTheory.Constructions.BorelSpace.Real
import Mathlib.MeasureTheory.Measure.Lebesgue.Basic

/-! How far the sea floor sinks because the rock below it contracts. -/

namespace Shipgrav.Spec
open MeasureTheory

/-- The rock below the sea floor has cooled from `Tm` to `T z` at depth `z` and has contracted by the fraction `a` per degree.  The column
keeps its weight: the contraction is taken up by sinking sea floor and water of density `rhow` above it, rock having density `rhom`. -/
noncomputable def isostaticSubsidence (rhom rhow a Tm : ℝ) (T : ℝ → ℝ) : ℝ :=
  rhom / (rhom - rhow) * ∫ z in Set.Ioi (0 : ℝ), a * (Tm - T z)

end Shipgrav.Spec
