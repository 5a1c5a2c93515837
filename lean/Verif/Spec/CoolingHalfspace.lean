import Mathlib.Analysis.Calculus.Deriv.Basic
import Mathlib.MeasureTheory.Integral.IntervalIntegral.Basic

/-! Rock without a base that cools from one temperature. -/

namespace Shipgrav.Spec
open Topology Filter

/-- `T t z` is the temperature at time `t` after the beginning and depth `z` in rock of diffusivity `k` that had the temperature `Tm` at all depths
and is kept at 0 at the top from then on.  Derivatives at the top are one-sided.  Of the temperature at depth it is asked only to be bounded. -/
structure CoolingHalfspace (k Tm : ℝ) (T : ℝ → ℝ → ℝ) : Prop where
  top : ∀ t > 0, T t 0 = 0
  bounded : ∃ B, ∀ t > 0, ∀ z ≥ 0, |T t z| ≤ B
  continuous : ContinuousOn (fun p : ℝ × ℝ => T p.1 p.2) (Set.Ioi 0 ×ˢ Set.Ici 0)
  heat : ∃ Tz Tzz : ℝ → ℝ → ℝ, ContinuousOn (fun p : ℝ × ℝ => Tzz p.1 p.2) (Set.Ioi 0 ×ˢ Set.Ici 0) ∧
    ∀ t > 0, ∀ z ≥ 0, HasDerivWithinAt (T t) (Tz t z) (Set.Ici 0) z ∧ HasDerivWithinAt (Tz t) (Tzz t z) (Set.Ici 0) z ∧
      HasDerivAt (fun s => T s z) (k * Tzz t z) t
  start : ∀ R > 0, Tendsto (fun t => ∫ z in (0 : ℝ)..R, (T t z - Tm) ^ 2) (𝓝[>] 0) (𝓝 0)

end Shipgrav.Spec
