import Verif.Py.Float64

/-! `gaussian_filter` and `_gaussian_coeffs` once more (`/repo/shipgrav/utils.py` lines 9–71), in double precision.  `ex` stands for `np.exp`, which is
not correctly rounded; the theorems say what they need of it. -/

namespace Shipgrav

/-- `sum(v)` over an array, from left to right starting with 0, every addition rounded.  Lines 38, 69. -/
def fsum (l : List ℚ) : ℚ := l.foldl (fun a b => toDouble (a + b)) 0

/-- Lines 59–61: one coefficient before normalisation.  Half an integer power of two is exact, so the rounding of `-.5*…` changes nothing; it is
written out all the same. -/
def gaussTermF (ex : ℚ → ℚ) (fl k : ℤ) : ℚ :=
  let frac := toDouble (6 / fl)
  let x := toDouble (k * frac)
  ex (toDouble (-(1 / 2) * toDouble (x ^ 2)))

/-- `_gaussian_coeffs(fl)`, lines 43–71. -/
def gaussianCoeffsF (ex : ℚ → ℚ) (fl : ℤ) : Except PyErr (List ℚ) :=
  let halfSample : ℤ := fl / 2
  let coeffLen : ℤ := halfSample + 1
  if fl = 0 then .error .zeroDivisionError
  else if coeffLen < 0 then .error .valueError
  else
    let gaussPrms : List ℚ := (List.range coeffLen.toNat).map fun (m : ℕ) =>
      let i : ℤ := coeffLen - m
      gaussTermF ex fl (halfSample - i)
    match gaussPrms with
    | [] => .error .indexError
    | g0 :: gs =>
      let refl := gs.reverse ++ [g0] ++ gs
      .ok (refl.map fun g => toDouble (g / fsum refl))

/-- The loop of `gaussian_filter`, lines 34–38. -/
def ringLoopF (coeffs : List ℚ) : List ℚ → List ℚ → List ℚ
  | _, [] => []
  | ringBuffer, xi :: xs =>
    let ringBuffer' := ringBuffer.tail ++ [xi]
    fsum (List.zipWith (fun a b => toDouble (a * b)) ringBuffer' coeffs) :: ringLoopF coeffs ringBuffer' xs

/-- `gaussian_filter(x, fl)`, lines 9–40. -/
def gaussianFilterF (ex : ℚ → ℚ) (x : List ℚ) (fl : ℤ) : Except PyErr (List ℚ) :=
  if (x.length : ℤ) > fl then
    match gaussianCoeffsF ex fl with
    | .error e => .error e
    | .ok coeffs => .ok (ringLoopF coeffs (List.replicate coeffs.length 0) x)
  else .error .assertionError

end Shipgrav
