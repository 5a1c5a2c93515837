import Verif.Py.Calendar
import Mathlib.Data.Int.Log

/-! Rounding to double precision, and the conversion between instants and seconds in double precision. -/

namespace Shipgrav

/-- Nearest double precision number, ties to even.  The exponent is not limited. -/
def toDouble (x : ℚ) : ℚ :=
  if x = 0 then 0 else roundHalfEven (x / 2 ^ (Int.log 2 |x| - 52)) * 2 ^ (Int.log 2 |x| - 52)

/-- `d.timestamp()` of an instant in UTC: the quotient of two integers, rounded once. -/
def timestampF (t : ℤ) : ℚ := toDouble ((t : ℚ) / 1000000)

/-- Whole part towards zero, `modf`. -/
def truncQ (x : ℚ) : ℤ := if 0 ≤ x then ⌊x⌋ else ⌈x⌉

/-- `datetime.fromtimestamp(x, timezone.utc)`: `modf` splits `x` without rounding, the product of the fractional part with `1e6` is rounded to
double precision and then to a whole number; outside the years 1–9999 it raises. -/
def fromTimestampF (x : ℚ) : Except PyErr ℤ :=
  let t := truncQ x * 1000000 + roundHalfEven (toDouble ((x - truncQ x) * 1000000))
  if instantUs 1 0 0 0 0 ≤ t ∧ t < instantUs (maxOrd + 1) 0 0 0 0 then .ok t else .error .valueError

example : toDouble (1 / 10) = 3602879701896397 / 36028797018963968 := by decide +kernel
example : timestampF 1647129600123457 = 863570283789527 / 524288 := by decide +kernel
example : fromTimestampF (timestampF 1647129600123457) = .ok 1647129600123457 := by decide +kernel

end Shipgrav
