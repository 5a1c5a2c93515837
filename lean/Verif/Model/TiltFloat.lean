import Verif.Py.Float64

/-! `_tilt_filter` and the `lfilter` of `up_vecs` once more (`/repo/shipgrav/grav.py` lines 513–524 and 532–572), in double precision.  Every
addition, subtraction, multiplication and division is rounded; the tangent, the square root and the square (`x**2` is the C library's `pow`)
are those of a library, and the theorems say what they need of them. -/

namespace Shipgrav

/-- The library functions that `_tilt_filter` calls: `np.tan`, `np.sqrt` and `x**2`.  Lines 547–563. -/
structure Libm where
  tan : ℚ → ℚ
  sqrt : ℚ → ℚ
  sqr : ℚ → ℚ

/-- `np.pi`.  Line 550. -/
def piF : ℚ := 884279719003555 / 281474976710656

/-- Filter coefficients in double precision.  Lines 569–570. -/
structure BiquadF where
  b0 : ℚ
  b1 : ℚ
  b2 : ℚ
  a1 : ℚ
  a2 : ℚ

/-- `_tilt_filter` (lines 532–572).  `none` is a division by `d0 = 0`, which gives an infinite value or NaN. -/
def tiltFilterF (lm : Libm) (per dt damp : ℚ) : Except PyErr (Option BiquadF) :=
  let damp := if damp = 0 then toDouble (lm.sqrt 2 / 2) else damp
  if per = 0 then .error .zeroDivisionError
  else if dt = 0 then .error .zeroDivisionError
  else
    let w0 := toDouble (toDouble (2 * piF) / per)
    let ws := toDouble (1 / lm.sqrt (toDouble (6371100 / toDouble 9.8)))
    let om0 := toDouble (toDouble (2 / dt) * lm.tan (toDouble (toDouble (w0 * dt) / 2)))
    let omS := toDouble (toDouble (2 / dt) * lm.tan (toDouble (toDouble (ws * dt) / 2)))
    let a := toDouble (lm.sqr omS - lm.sqr om0)
    let b := toDouble (toDouble (toDouble (2 * damp) * om0) * toDouble (2 / dt))
    let c := toDouble (4 / lm.sqr dt)
    let d := lm.sqr om0
    let d0 := toDouble (toDouble (b + c) + d)
    if d0 = 0 then .ok none
    else
      .ok (some
        { b0 := toDouble (toDouble (a - b) / d0)
          b1 := toDouble (toDouble (2 * a) / d0)
          b2 := toDouble (toDouble (a + b) / d0)
          a1 := toDouble (toDouble (2 * toDouble (d - c)) / d0)
          a2 := toDouble (toDouble (toDouble (c + d) - b) / d0) })

/-- `lfilter(num, den, x)` with the state of the transposed direct form, in the order of scipy's C loop, without fused operations.
Lines 518, 524. -/
def lfilterGoF (f : BiquadF) : ℚ → ℚ → List ℚ → List ℚ
  | _, _, [] => []
  | z0, z1, x :: xs =>
    let y := toDouble (z0 + toDouble (f.b0 * x))
    y :: lfilterGoF f (toDouble (toDouble (z1 + toDouble (x * f.b1)) - toDouble (y * f.a1)))
      (toDouble (toDouble (x * f.b2) - toDouble (y * f.a2))) xs

/-- `lfilter` starts from rest (lines 518, 524). -/
def lfilter2F (f : BiquadF) (x : List ℚ) : List ℚ := lfilterGoF f 0 0 x

end Shipgrav
