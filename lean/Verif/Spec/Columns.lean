import Mathlib.MeasureTheory.Integral.IntervalIntegral.Basic
import Verif.Spec.Parker

/-! Attraction of columns of rock, bin by bin: a sheet at height `z` is seen from the height `c` attenuated by `exp (-κ (c - z))`. -/

namespace Shipgrav.Spec
open Real

/-- A column of rock from level 0 to the height `h`, made of sheets, seen from the height `c` at wavenumber `κ`. -/
noncomputable def column (κ c h : ℝ) : ℝ := ∫ z in (0 : ℝ)..h, exp (-κ * (c - z))

/-- Attraction at point `j` of a line of `N` equally spaced columns of height `h m`, repeated periodically, without its mean. -/
noncomputable def columnLine (N : ℕ) (κ : ℕ → ℝ) (c g : ℝ) (h : ℕ → ℝ) (j : ℕ) : ℝ :=
  g / N * ∑ k ∈ Finset.Ico 1 N, ∑ m ∈ Finset.range N, column (κ k) c (h m) * cos (2 * π * k * ((j : ℝ) - m) / N)

/-- The same for a grid of `M × N` columns. -/
noncomputable def columnGrid (M N : ℕ) (κ : ℕ → ℕ → ℝ) (c g : ℝ) (h : ℕ → ℕ → ℝ) (i j : ℕ) : ℝ :=
  g / (M * N) * ∑ k ∈ Finset.range M, ∑ l ∈ Finset.range N, if k = 0 ∧ l = 0 then 0 else
    ∑ a ∈ Finset.range M, ∑ b ∈ Finset.range N,
      column (κ k l) c (h a b) * (cos (2 * π * k * ((i : ℝ) - a) / M) * cos (2 * π * l * ((j : ℝ) - b) / N))

end Shipgrav.Spec
