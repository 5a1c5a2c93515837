import Mathlib.Analysis.SpecialFunctions.Exp
import Mathlib.Algebra.BigOperators.Group.Finset.Basic

/-! Specification vocabulary for the Gaussian filter: finite impulse response filtering, written without
reference to the model. -/

namespace Shipgrav.Spec

/-- Value of the series `x` at integer time `t`, counting samples before the start (and after the end) as `0`. -/
noncomputable def sampleAt (x : List ℝ) (t : ℤ) : ℝ :=
  if 0 ≤ t then x.getD t.toNat 0 else 0

/-- Sample `i` of the causal FIR filter with weights `w 0, …, w (L-1)`; `w (L-1)` multiplies the newest sample. -/
noncomputable def fir (L : ℕ) (w : ℕ → ℝ) (x : List ℝ) (i : ℕ) : ℝ :=
  ∑ j ∈ Finset.range L, w j * sampleAt x ((i : ℤ) - (L - 1 : ℕ) + j)

/-- Number of weights for filter length `fl`. -/
def taps (fl : ℕ) : ℕ := 2 * (fl / 2) + 1

/-- Un-normalised weight at distance `d` samples from the window centre.  (The shape of the NAVO/LDEO filter as
coded: the bell curve `exp(-½(6 t/fl)²)` is centred on the *first neighbours* of the middle tap.) -/
noncomputable def bell (fl d : ℕ) : ℝ := Real.exp (-(1 / 2) * (((d : ℝ) - 1) * (6 / fl)) ^ 2)

/-- Un-normalised weight of tap `j`. -/
noncomputable def rawWeight (fl j : ℕ) : ℝ := bell fl (((j : ℤ) - (fl / 2 : ℕ)).natAbs)

/-- Normalised weight of tap `j`. -/
noncomputable def weight (fl j : ℕ) : ℝ :=
  rawWeight fl j / ∑ k ∈ Finset.range (taps fl), rawWeight fl k

end Shipgrav.Spec
