import Mathlib.Analysis.Calculus.Deriv.Basic
import Mathlib.Analysis.SpecialFunctions.Trigonometric.Basic
import Mathlib.Algebra.BigOperators.Intervals
import Mathlib.Order.Interval.Finset.Nat

/-! What cooling means. -/

namespace Shipgrav.Spec
open Topology

/-- Seconds in a million Julian years. -/
noncomputable def secondsPerMyr : ℝ := 1000000 * (365.25 * 86400)

/-- The heat equation with diffusivity `k` holds for the temperature `T` (time, depth) at time `t` and depth `z`. -/
def HeatEquation (k : ℝ) (T : ℝ → ℝ → ℝ) (t z : ℝ) : Prop :=
  ∃ (Tz : ℝ → ℝ) (Tzz : ℝ), (∀ᶠ y in 𝓝 z, HasDerivAt (T t) (Tz y) y) ∧ HasDerivAt Tz Tzz z ∧ HasDerivAt (fun s => T s z) (k * Tzz) t

/-- `N` terms of the cooling series of a plate of thickness `L`, relative to the mantle temperature. -/
noncomputable def plateSeries (N : ℕ) (L k t z : ℝ) : ℝ :=
  z / L + ∑ n ∈ Finset.Icc 1 N, 2 / (n * Real.pi) * Real.exp (-(n * Real.pi / L) ^ 2 * k * t) * Real.sin (n * Real.pi * z / L)

end Shipgrav.Spec
