import Mathlib.Analysis.Calculus.Deriv.Basic
import Mathlib.Analysis.SpecialFunctions.Trigonometric.Basic
import Mathlib.MeasureTheory.Integral.IntervalIntegral.Basic

/-! A plate that cools from one temperature. -/

namespace Shipgrav.Spec
open Topology Filter

/-- `T t z` is the temperature at time `t` after the beginning and depth `z` in a plate of thickness `L` and diffusivity `k` that had the temperature
`Tm` throughout and is kept at 0 at the top and at `Tm` at the base from then on.  Derivatives at the top and the base are one-sided. -/
structure CoolingPlate (L k Tm : ℝ) (T : ℝ → ℝ → ℝ) : Prop where
  top : ∀ t > 0, T t 0 = 0
  base : ∀ t > 0, T t L = Tm
  continuous : ContinuousOn (fun p : ℝ × ℝ => T p.1 p.2) (Set.Ioi 0 ×ˢ Set.Icc 0 L)
  heat : ∃ Tz Tzz : ℝ → ℝ → ℝ, ContinuousOn (fun p : ℝ × ℝ => Tzz p.1 p.2) (Set.Ioi 0 ×ˢ Set.Icc 0 L) ∧
    ∀ t > 0, ∀ z ∈ Set.Icc 0 L, HasDerivWithinAt (T t) (Tz t z) (Set.Icc 0 L) z ∧ HasDerivWithinAt (Tz t) (Tzz t z) (Set.Icc 0 L) z ∧
      HasDerivAt (fun s => T s z) (k * Tzz t z) t
  start : Tendsto (fun t => ∫ z in (0 : ℝ)..L, (T t z - Tm) ^ 2) (𝓝[>] 0) (𝓝 0)

open Classical in
/-- The temperatures `T` of a plate of thickness `L` and the mantle temperature below it. -/
noncomputable def plateAndMantle (L Tm : ℝ) (T : ℝ → ℝ) (z : ℝ) : ℝ := if z ≤ L then T z else Tm

/-- How much of a departure of the form of half a wave over the plate is left after the time `t`. -/
noncomputable def plateDecay (L k t : ℝ) : ℝ := Real.exp (-((Real.pi / L) ^ 2 * k * t))

end Shipgrav.Spec
