import Mathlib.Analysis.SpecialFunctions.Trigonometric.Basic
import Mathlib.Algebra.BigOperators.Group.Finset.Basic
import Mathlib.Data.List.GetD

/-! `np.fft.fft`, `ifft`, `fft2` and `ifft2` on complex numbers, as the sums that define them, and two-dimensional arrays. -/

namespace Shipgrav
open Complex

/-- `np.fft.fft(x)`. -/
noncomputable def fft (x : List ℂ) : List ℂ :=
  (List.range x.length).map fun (k : ℕ) => ∑ m ∈ Finset.range x.length, x.getD m 0 * exp (-2 * Real.pi * I * (k * m) / x.length)

/-- `np.fft.ifft(x)`. -/
noncomputable def ifft (x : List ℂ) : List ℂ :=
  (List.range x.length).map fun (k : ℕ) =>
    1 / x.length * ∑ m ∈ Finset.range x.length, x.getD m 0 * exp (2 * Real.pi * I * (k * m) / x.length)

/-- A two-dimensional array: `at i j` is the entry in row `i < rows` and column `j < cols`. -/
structure Mat (α : Type) where
  rows : ℕ
  cols : ℕ
  at' : ℕ → ℕ → α

/-- `np.fft.fft2(x)`. -/
noncomputable def fft2 (x : Mat ℂ) : Mat ℂ :=
  ⟨x.rows, x.cols, fun k l => ∑ a ∈ Finset.range x.rows, ∑ b ∈ Finset.range x.cols,
    x.at' a b * exp (-2 * Real.pi * I * ((k * a) / x.rows + (l * b) / x.cols))⟩

/-- `np.fft.ifft2(x)`. -/
noncomputable def ifft2 (x : Mat ℂ) : Mat ℂ :=
  ⟨x.rows, x.cols, fun i j => 1 / (x.rows * x.cols) * ∑ k ∈ Finset.range x.rows, ∑ l ∈ Finset.range x.cols,
    x.at' k l * exp (2 * Real.pi * I * ((i * k) / x.rows + (j * l) / x.cols))⟩

end Shipgrav
