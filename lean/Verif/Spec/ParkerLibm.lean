import Verif.Spec.FloatLibm
import Mathlib.Analysis.SpecialFunctions.Exp
import Mathlib.Analysis.SpecialFunctions.Complex.Circle

/-! What is asked of a floating point library by the gravity of a profile. -/

namespace Shipgrav.Spec

/-- A pair of rational numbers as a complex number. -/
noncomputable def pairC (p : ℚ × ℚ) : ℂ := ⟨(p.1 : ℝ), (p.2 : ℝ)⟩

/-- Every entry of the Fourier transform of `n` numbers of at most `M` is right up to `n M 2⁻⁴⁵`, every entry of the inverse transform of numbers of at most `M` up to
`M 2⁻⁴⁵`; exponential and powers have relative errors of at most `2⁻⁵¹`, sums of `n` numbers errors of at most `(n + 1) 2⁻⁵¹` times the sum of their sizes. -/
structure GoodParkerLib (fft : List ℚ → List (ℚ × ℚ)) (ifft : List (ℚ × ℚ) → List (ℚ × ℚ)) (ex sq : ℚ → ℚ) (pw : ℚ → ℕ → ℚ) (sum : List ℚ → ℚ) : Prop where
  fftLength : ∀ x, (fft x).length = x.length
  fft : ∀ (x : List ℚ) (M : ℝ), (∀ v ∈ x, |(v : ℝ)| ≤ M) → ∀ k < x.length,
    ‖pairC ((fft x).getD k (0, 0)) - ∑ m ∈ Finset.range x.length, ((x.getD m 0 : ℝ) : ℂ) * Complex.exp (-2 * Real.pi * Complex.I * (k * m) / x.length)‖ ≤ x.length * M / 2 ^ 45
  ifftLength : ∀ y, (ifft y).length = y.length
  ifft : ∀ (y : List (ℚ × ℚ)) (M : ℝ), (∀ v ∈ y, ‖pairC v‖ ≤ M) → ∀ j < y.length,
    ‖pairC ((ifft y).getD j (0, 0)) - 1 / y.length * ∑ m ∈ Finset.range y.length, pairC (y.getD m (0, 0)) * Complex.exp (2 * Real.pi * Complex.I * (j * m) / y.length)‖ ≤ M / 2 ^ 45
  exp : ∀ q : ℚ, |(ex q : ℝ) - Real.exp q| ≤ Real.exp q / 2 ^ 51
  sqrt : GoodSqrt sq
  pow : ∀ (q : ℚ) (j : ℕ), 1 ≤ j → j ≤ 5 → |(pw q j : ℝ) - (q : ℝ) ^ j| ≤ |(q : ℝ)| ^ j / 2 ^ 51
  sum : ∀ l : List ℚ, |sum l - l.sum| ≤ (l.length + 1) / 2 ^ 51 * (l.map fun x => |x|).sum

end Shipgrav.Spec
