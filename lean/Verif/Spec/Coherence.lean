import Mathlib.Analysis.SpecialFunctions.Trigonometric.Basic
import Mathlib.Algebra.BigOperators.Group.Finset.Basic

/-! Specification of the coherence of two series. -/

namespace Shipgrav.Spec
open Finset

/-- Component of frequency `k/L` of the `L` samples from `a` on: less their mean, under a cosine bell. -/
noncomputable def windowed (x : ℕ → ℝ) (L a k : ℕ) : ℂ :=
  ∑ j ∈ range L, (((1 - Real.cos (2 * Real.pi * j / L)) / 2 * (x (a + j) - (∑ i ∈ range L, x (a + i)) / L) : ℝ) : ℂ) *
    Complex.exp (-2 * Real.pi * Complex.I * (k * j) / L)

/-- Power of `x` at frequency `k/L`, over `S` segments that are `d` apart. -/
noncomputable def powerAt (x : ℕ → ℝ) (L d S k : ℕ) : ℝ := ∑ s ∈ range S, ‖windowed x L (s * d) k‖ ^ 2

/-- The common part of `x` and `y` at that frequency. -/
noncomputable def crossAt (x y : ℕ → ℝ) (L d S k : ℕ) : ℂ := ∑ s ∈ range S, (starRingEnd ℂ) (windowed x L (s * d) k) * windowed y L (s * d) k

open Classical in
/-- Magnitude-squared coherence; none where one of the series has no power. -/
noncomputable def coherenceAt (x y : ℕ → ℝ) (L d S k : ℕ) : Option ℝ :=
  if powerAt x L d S k = 0 ∨ powerAt y L d S k = 0 then none
  else some (‖crossAt x y L d S k‖ ^ 2 / (powerAt x L d S k * powerAt y L d S k))

end Shipgrav.Spec
