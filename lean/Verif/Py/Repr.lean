import Verif.Py.Fmt
import Verif.Py.Float64

/-! `str` of a double precision number: the shortest decimal that is read back as the same number. -/

namespace Shipgrav

/-- The decimal of at most `k` significant digits that lies closest to `x > 0` among those that are read as `x`, if there is one: only the two
that enclose `x` can be (the even one of two equally close ones). -/
def decimalOf (x : ℚ) (k : ℕ) : Option ℚ :=
  let g : ℚ := 10 ^ (Int.log 10 x - k + 1)
  let n := ⌊x / g⌋
  let m := ⌈x / g⌉
  if toDouble (n * g) = x then
    if toDouble (m * g) = x ∧ (m * g - x < x - n * g ∨ (m * g - x = x - n * g ∧ m % 2 = 0)) then some (m * g) else some (n * g)
  else if toDouble (m * g) = x then some (m * g) else none

/-- The shortest decimal that is read as the double precision number `x > 0`; 17 significant digits are enough for every `x`. -/
def shortest (x : ℚ) : ℚ := ((List.range 17).findSome? fun i => decimalOf x (i + 1)).getD x

/-- `str(x)` for a float, the shortest decimal that is read as `x` (CPython's `repr`). -/
def doubleStr : PyFloat → Str
  | .fin q => floatStr (.fin (if q < 0 then - shortest (-q) else if q = 0 then 0 else shortest q))
  | x => floatStr x

/-- `float(s)`: the decimal that is written, rounded to double precision. -/
def parseDouble (s : Str) : Option PyFloat :=
  (parseFloat s).map fun
    | .fin q => .fin (toDouble q)
    | x => x

example : (parseDouble "33.10".toList).map doubleStr = some "33.1".toList := by decide +kernel
example : (parseDouble "0.1".toList).map doubleStr = some "0.1".toList := by decide +kernel
example : (parseDouble "-0.30000000000000004".toList).map doubleStr = some "-0.30000000000000004".toList := by decide +kernel
example : (parseDouble "59.9999999999999999".toList).map doubleStr = some "60.0".toList := by decide +kernel
example : (parseDouble "1e23".toList).map doubleStr = some "1e+23".toList := by decide +kernel
example : (parseDouble "9007199254740993".toList).map doubleStr = some "9007199254740992.0".toList := by decide +kernel
example : (parseDouble "5e-324".toList).isSome := by decide +kernel
example : (parseDouble ".00001234".toList).map doubleStr = some "1.234e-05".toList := by decide +kernel

end Shipgrav
