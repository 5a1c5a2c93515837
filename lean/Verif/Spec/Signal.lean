import Mathlib.Data.Real.Basic
import Mathlib.Algebra.BigOperators.Group.Finset.Basic
import Mathlib.Analysis.SpecialFunctions.Trigonometric.Basic

/-! Filters that run forwards and backwards over a record. -/

namespace Shipgrav.Spec

/-- A record, continued on both sides by its point reflection in the first and the last point. -/
noncomputable def continued (x : List ℝ) (t : ℤ) : ℝ :=
  let last : ℤ := x.length - 1
  if t < 0 then 2 * x.getD 0 0 - x.getD (-t).toNat 0
  else if t ≤ last then x.getD t.toNat 0
  else 2 * x.getD last.toNat 0 - x.getD (2 * last - t).toNat 0

/-- The weights `b` applied once forwards and once backwards to the signal `e`. -/
noncomputable def bothWays (b : List ℝ) (e : ℤ → ℝ) (t : ℤ) : ℝ :=
  ∑ j ∈ Finset.range b.length, ∑ k ∈ Finset.range b.length, b.getD j 0 * b.getD k 0 * e (t + k - j)

/-- A wave in a record: amplitude, period (in samples) and phase. -/
structure Ripple where
  amp : ℝ
  period : ℝ
  phase : ℝ

/-- Its value at time `t` (in samples). -/
noncomputable def Ripple.value (w : Ripple) (t : ℝ) : ℝ := w.amp * Real.cos (2 * Real.pi / w.period * t + w.phase)

end Shipgrav.Spec
