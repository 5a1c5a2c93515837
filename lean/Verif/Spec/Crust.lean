import Verif.Spec.Parker

/-! Downward continuation. -/

namespace Shipgrav.Spec
open Real

/-- Cosine taper: 1 up to wavenumber `lo`, 0 beyond `hi`. -/
noncomputable def cosineTaper (lo hi k : ℝ) : ℝ := if k ≤ lo then 1 else if k ≤ hi then (cos ((k - lo) / (hi - lo) * π) + 1) / 2 else 0

/-- The wavenumber that is used for bin `i` of `n`, in cycles: that of the bin before. -/
def previousCycles (n i : ℕ) : ℕ := if i = 0 then 1 else cycles n (i - 1)

/-- Wavenumber of bin `(k, l)` when the cycles of a bin are given by `f`; along the second axis spacing zero stands for a line. -/
noncomputable def crustKappa (f : ℕ → ℕ → ℕ) (M N : ℕ) (dx dy : ℝ) (k l : ℕ) : ℝ :=
  √((2 * π * f M k / (M * dx)) ^ 2 + if dy = 0 then 0 else (2 * π * f N l / (N * dy)) ^ 2)

/-- The spectrum of `r` on `M × N` points multiplied by `F`, transformed **forward** a second time, over the number of points. -/
noncomputable def twiceForward (M N : ℕ) (F : ℕ → ℕ → ℝ) (r : ℕ → ℕ → ℝ) (i j : ℕ) : ℂ :=
  1 / (M * N) * ∑ k ∈ Finset.range M, ∑ l ∈ Finset.range N, (F k l : ℂ) * ∑ a ∈ Finset.range M, ∑ b ∈ Finset.range N,
    (r a b : ℂ) * Complex.exp (-2 * π * Complex.I * ((k * (a + i) : ℂ) / M + (l * (b + j) : ℂ) / N))

/-- Mean of `n` values. -/
noncomputable def meanOf (n : ℕ) (h : ℕ → ℝ) : ℝ := (∑ p ∈ Finset.range n, h p) / n

/-- Factor from gravity (gal) to relief (cm) at wavenumber `κ` (1/cm): taper between two wavelengths, continuation down by `zdown`, slab of
density contrast `rho`; lengths in km. -/
noncomputable def reliefFactor (zdown rho wlarge wsmall κ : ℝ) : ℝ :=
  cosineTaper (2 * π / (100000 * wlarge)) (2 * π / (100000 * wsmall)) κ * exp (κ * (100000 * zdown)) / (2 * π * 6.673e-8 * rho)

end Shipgrav.Spec
