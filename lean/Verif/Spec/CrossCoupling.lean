import Verif.Spec.Nav
import Mathlib.Algebra.BigOperators.Group.Finset.Basic

/-! Curvature of a series, smoothed; stretches of data without gaps; least squares. -/

namespace Shipgrav.Spec
open Real

/-- Second derivative by two tenth-order central differences. -/
noncomputable def curvature (x : ℕ → ℝ) (i : ℕ) : ℝ := centralDiff10 (centralDiff10 x) i

/-- Weight of the low-pass filter before normalisation: a sinc of half width 200 samples, tapered to zero at the ends. -/
noncomputable def taper (j : ℕ) : ℝ :=
  let m : ℝ := j - 199 / 2
  let c := -cos (2 * π * j / 199)
  sin (π * m / 200) / m * ((1 + c) * (0.34 + 0.16 * c))

/-- The 200 weights of the low-pass filter. -/
noncomputable def lowpass (j : ℕ) : ℝ := taper j / ∑ k ∈ Finset.range 200, taper k

/-- The curvature of `x`, smoothed with the 200 values up to index `i + 210` counted from the start of the stretch. -/
noncomputable def smoothCurvature (x : ℕ → ℝ) (i : ℕ) : ℝ := ∑ j ∈ Finset.range 200, lowpass j * curvature x (i + 210 - j)

/-- The rows from the samples `s, …, e-1`. -/
noncomputable def stretchRows (x : ℕ → ℝ) (p : ℕ × ℕ) : List ℝ := samples (fun t => smoothCurvature x (p.1 + t)) (p.2 - p.1 - 420)

/-- There is a gap after sample `k`. -/
def GapAfter (times : ℕ → ℝ) (rate : ℝ) (n k : ℕ) : Prop := k + 1 < n ∧ 5 * rate < times (k + 1) - times k

/-- The stretches `[s, g)` that end at a gap, the next one starting after the gap sample. -/
def stretchesTo : ℕ → List ℕ → List (ℕ × ℕ)
  | _, [] => []
  | s, g :: gs => (s, g) :: stretchesTo (g + 1) gs

/-- The stretches that enter the regression, for the increasing list of all gaps. -/
def usedStretches (n : ℕ) (gaps : List ℕ) : List (ℕ × ℕ) :=
  (if gaps = [] then [(0, n)] else stretchesTo 0 gaps).filter fun p => 1000 ≤ p.2 - p.1

/-- `gaps` lists the gaps in increasing order. -/
def GapList (times : Option (ℕ → ℝ)) (rate : ℝ) (n : ℕ) (gaps : List ℕ) : Prop :=
  gaps.Pairwise (· < ·) ∧ ∀ k, k ∈ gaps ↔ ∃ t, times = some t ∧ GapAfter t rate n k

/-- The linear model leaves these residuals. -/
noncomputable def ssr (n : ℕ) (g : ℕ → ℝ) (x : Fin 5 → ℕ → ℝ) (c : ℝ) (β : Fin 5 → ℝ) : ℝ :=
  ∑ i ∈ Finset.range n, (g i - (c + ∑ k, β k * x k i)) ^ 2

/-- `c` and `β` are a least-squares solution. -/
def LeastSquares (n : ℕ) (g : ℕ → ℝ) (x : Fin 5 → ℕ → ℝ) (c : ℝ) (β : Fin 5 → ℝ) : Prop :=
  ∀ c' β', ssr n g x c β ≤ ssr n g x c' β'

/-- No nontrivial combination of the five series and a constant vanishes. -/
def Independent (n : ℕ) (x : Fin 5 → ℕ → ℝ) : Prop :=
  ∀ (c : ℝ) (β : Fin 5 → ℝ), (∀ i < n, c + ∑ k, β k * x k i = 0) → c = 0 ∧ β = 0

end Shipgrav.Spec
