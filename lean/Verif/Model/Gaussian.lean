import Mathlib.Analysis.SpecialFunctions.Exp
import Verif.Py.Core

/-! Model of `gaussian_filter` and `_gaussian_coeffs`, `/repo/shipgrav/utils.py` lines 9–71.
Floats are real numbers. -/

namespace Shipgrav

/-- `_gaussian_coeffs(fl)`, utils.py 43–71.

* line 51: `half_sample = np.floor(.5*fl)` is `⌊fl/2⌋`; line 52: `coeff_len = int(half_sample + 1)`;
* line 54: `6./fl` raises `ZeroDivisionError` for the integer `0`;
* line 56: `np.zeros(coeff_len)` raises `ValueError` for a negative length;
* lines 58–62: `i` runs `coeff_len, …, 1` while `m` runs `0, 1, …`;
* lines 65–66: `gauss_prms[0]` raises `IndexError` when the array is empty;
* line 69: normalisation. -/
noncomputable def gaussianCoeffs (fl : ℤ) : Except PyErr (List ℝ) :=
  let halfSample : ℤ := fl / 2
  let coeffLen : ℤ := halfSample + 1
  if fl = 0 then .error .zeroDivisionError
  else if coeffLen < 0 then .error .valueError
  else
    let frac : ℝ := 6 / (fl : ℝ)
    let gaussPrms : List ℝ := (List.range coeffLen.toNat).map fun (m : ℕ) =>
      let i : ℤ := coeffLen - m
      let x : ℝ := ((halfSample - i : ℤ) : ℝ) * frac
      Real.exp (-(1 / 2) * x ^ 2)
    match gaussPrms with
    | [] => .error .indexError
    | g0 :: gs =>
      let refl := gs.reverse ++ [g0] ++ gs
      .ok (refl.map (· / refl.sum))

/-- The loop of `gaussian_filter`, utils.py lines 34–38: shift the ring buffer, append `x[i]`, and emit the sum of
`ring_buffer*coeffs`. -/
def ringLoop (coeffs : List ℝ) : List ℝ → List ℝ → List ℝ
  | _, [] => []
  | ringBuffer, xi :: xs =>
    let ringBuffer' := ringBuffer.tail ++ [xi]
    (List.zipWith (· * ·) ringBuffer' coeffs).sum :: ringLoop coeffs ringBuffer' xs

/-- `gaussian_filter(x, fl)`, utils.py lines 9–40. -/
noncomputable def gaussianFilter (x : List ℝ) (fl : ℤ) : Except PyErr (List ℝ) :=
  if (x.length : ℤ) > fl then
    match gaussianCoeffs fl with
    | .error e => .error e
    | .ok coeffs => .ok (ringLoop coeffs (List.replicate coeffs.length 0) x)
  else .error .assertionError

end Shipgrav
