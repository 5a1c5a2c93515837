import Mathlib.Analysis.SpecialFunctions.Trigonometric.Basic
import Mathlib.Algebra.BigOperators.Group.Finset.Basic
import Mathlib.Algebra.BigOperators.Intervals
import Mathlib.Order.Interval.Finset.Nat

/-! Parker's series in the space domain: sums of cosines. -/

namespace Shipgrav.Spec
open Real

/-- Number of cycles over the profile that belongs to DFT bin `k` of `N`. -/
def cycles (N k : ℕ) : ℕ := min k (N - k)

/-- The number that is used instead: for an odd number of points the upper bins are one too high. -/
def usedCycles (N k : ℕ) : ℕ := if k ≤ (N + 1) / 2 then k else N - k + N % 2

/-- Topography `h` at `N` equally spaced points, repeated periodically, seen from a height `c`, with wavenumber `κ k` for DFT bin `k`: five
powers of Parker's series; `g` is the attraction of a unit slab. -/
noncomputable def parkerLine (N : ℕ) (κ : ℕ → ℝ) (c g : ℝ) (h : ℕ → ℝ) (j : ℕ) : ℝ :=
  g / N * ∑ k ∈ Finset.Ico 1 N, exp (-c * κ k) * ∑ p ∈ Finset.Icc 1 5, κ k ^ (p - 1) / p.factorial *
    ∑ m ∈ Finset.range N, h m ^ p * cos (2 * π * k * ((j : ℝ) - m) / N)

/-- The profile with its end values carried on over twice its length. -/
def carriedOn (n : ℕ) (h : ℕ → ℝ) (m : ℕ) : ℝ := if m < 2 * n then h 0 else if m < 3 * n then h (m - 2 * n) else h (n - 1)

/-- Wavenumber of bin `(k, l)` of a grid of `M` rows spaced `dy` and `N` columns spaced `dx`. -/
noncomputable def gridWavenumber (M N : ℕ) (dy dx : ℝ) (k l : ℕ) : ℝ :=
  √((2 * π * cycles M k / (M * dy)) ^ 2 + (2 * π * cycles N l / (N * dx)) ^ 2)

/-- Topography `h` on `M × N` points, repeated periodically: `P` powers of Parker's series. -/
noncomputable def parkerGrid (M N : ℕ) (κ : ℕ → ℕ → ℝ) (c g : ℝ) (P : ℕ) (h : ℕ → ℕ → ℝ) (i j : ℕ) : ℝ :=
  g / (M * N) * ∑ k ∈ Finset.range M, ∑ l ∈ Finset.range N, if k = 0 ∧ l = 0 then 0 else
    exp (-c * κ k l) * ∑ p ∈ Finset.Icc 1 P, κ k l ^ (p - 1) / p.factorial *
      ∑ a ∈ Finset.range M, ∑ b ∈ Finset.range N,
        h a b ^ p * (cos (2 * π * k * ((i : ℝ) - a) / M) * cos (2 * π * l * ((j : ℝ) - b) / N))

/-- Continued by mirror images beyond the last row and the last column. -/
def mirrored (M N : ℕ) (h : ℕ → ℕ → ℝ) (a b : ℕ) : ℝ :=
  h (if a < M then a else 2 * M - 1 - a) (if b < N then b else 2 * N - 1 - b)

/-- Mean of the grid. -/
noncomputable def gridMean (M N : ℕ) (h : ℕ → ℕ → ℝ) : ℝ := (∑ i ∈ Finset.range M, ∑ j ∈ Finset.range N, h i j) / (M * N)

/-- Signed frequency of bin `j` of `n`. -/
def signedFreq (n j : ℕ) : ℤ := if 2 * j < n then j else (j : ℤ) - n

/-- The frequency that is used for the layer: bin `⌊n/2⌋ + 1` is taken as positive. -/
def layerFreq (n j : ℕ) : ℤ := if j ≤ n / 2 + 1 then j else (j : ℤ) - n

/-- Length of the wavenumber of bin `(k, l)` when the frequencies along each axis are `f n j`. -/
noncomputable def wavenumberOf (f : ℕ → ℕ → ℤ) (M N : ℕ) (dy dx : ℝ) (k l : ℕ) : ℝ :=
  √((2 * π * f N l / (N * dx)) ^ 2 + (2 * π * f M k / (M * dy)) ^ 2)

/-- A layer of density `rho` on a periodic grid of `M × N` points with wavenumber `κ k l` for bin `(k, l)`, between the depths `z1` and
`z2`: a sum of cosines. -/
noncomputable def layerGrid (M N : ℕ) (κ : ℕ → ℕ → ℝ) (z1 z2 g : ℝ) (rho : ℕ → ℕ → ℝ) (i j : ℕ) : ℝ :=
  g / (M * N) * ∑ k ∈ Finset.range M, ∑ l ∈ Finset.range N, if k = 0 ∧ l = 0 then 0 else
    (exp (-κ k l * z1) - exp (-κ k l * z2)) / κ k l *
      ∑ a ∈ Finset.range M, ∑ b ∈ Finset.range N,
        rho a b * cos (2 * π * (k * ((i : ℝ) - a) / M + l * ((j : ℝ) - b) / N))

end Shipgrav.Spec
