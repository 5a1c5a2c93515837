import Verif.Spec.ParkerLibm
import Verif.Py.Fft

/-! What is asked of a floating point library by the gravity of a surface. -/

namespace Shipgrav.Spec

/-- Every entry of the Fourier transform of `m` numbers of at most `B` is right up to `m B 2⁻⁴⁵`, every entry of the inverse transform of numbers of at most `B` up to
`B 2⁻⁴⁵`; exponential and powers have relative errors of at most `2⁻⁵¹`, sums errors of at most `2⁻⁴⁶` times the sum of the sizes (pairwise summation). -/
structure GoodParker2Lib (fft : Mat ℚ → Mat (ℚ × ℚ)) (ifft : Mat (ℚ × ℚ) → Mat (ℚ × ℚ)) (ex sq : ℚ → ℚ) (pw : ℚ → ℕ → ℚ) (sum : List ℚ → ℚ) : Prop where
  fftShape : ∀ x, (fft x).rows = x.rows ∧ (fft x).cols = x.cols
  fft : ∀ (x : Mat ℚ) (B : ℝ), (∀ a < x.rows, ∀ b < x.cols, |(x.at' a b : ℝ)| ≤ B) → ∀ k < x.rows, ∀ l < x.cols,
    ‖pairC ((fft x).at' k l) - ∑ a ∈ Finset.range x.rows, ∑ b ∈ Finset.range x.cols, ((x.at' a b : ℝ) : ℂ) *
      Complex.exp (-2 * Real.pi * Complex.I * ((k * a) / x.rows + (l * b) / x.cols))‖ ≤ x.rows * x.cols * B / 2 ^ 45
  ifftShape : ∀ y, (ifft y).rows = y.rows ∧ (ifft y).cols = y.cols
  ifft : ∀ (y : Mat (ℚ × ℚ)) (B : ℝ), (∀ a < y.rows, ∀ b < y.cols, ‖pairC (y.at' a b)‖ ≤ B) → ∀ i < y.rows, ∀ j < y.cols,
    ‖pairC ((ifft y).at' i j) - 1 / (y.rows * y.cols) * ∑ k ∈ Finset.range y.rows, ∑ l ∈ Finset.range y.cols, pairC (y.at' k l) *
      Complex.exp (2 * Real.pi * Complex.I * ((i * k) / y.rows + (j * l) / y.cols))‖ ≤ B / 2 ^ 45
  exp : ∀ q : ℚ, |(ex q : ℝ) - Real.exp q| ≤ Real.exp q / 2 ^ 51
  sqrt : GoodSqrt sq
  pow : ∀ (q : ℚ) (j : ℕ), 1 ≤ j → j ≤ 20 → |(pw q j : ℝ) - (q : ℝ) ^ j| ≤ |(q : ℝ)| ^ j / 2 ^ 51
  sum : ∀ l : List ℚ, |sum l - l.sum| ≤ (l.map fun x => |x|).sum / 2 ^ 46

end Shipgrav.Spec
