import Verif.Py.Core
import Mathlib.Data.Rat.Defs
import Mathlib.Data.Nat.Digits.Defs

/-! Python's `float(str)` and `int(str)` on ASCII strings.  Values are exact rationals (no rounding). -/

namespace Shipgrav

/-- Result of `float(s)` when it does not raise. -/
inductive PyFloat
  | fin (q : ℚ)
  | inf (neg : Bool)
  | nan
  deriving DecidableEq

def isRunChar (c : Char) : Bool := isDigit c || c == '_'

/-- No two adjacent underscores. -/
def noDoubleUnderscore : Str → Bool
  | '_' :: '_' :: _ => false
  | _ :: t => noDoubleUnderscore t
  | [] => true

/-- `digitpart` of the `float` grammar: digits, with single underscores allowed between digits. -/
def validRun (r : Str) : Bool :=
  (match r.head? with | some c => isDigit c | none => false) &&
  (match r.getLast? with | some c => isDigit c | none => false) &&
  r.all isRunChar && noDoubleUnderscore r

def digitVal (c : Char) : ℕ := c.toNat - '0'.toNat

/-- Numeric value of a digit run, ignoring underscores. -/
def runVal (r : Str) : ℕ := (r.filter isDigit).foldl (fun a c => 10 * a + digitVal c) 0

/-- Optional sign: `(negative?, rest)`. -/
def takeSign : Str → Bool × Str
  | '+' :: t => (false, t)
  | '-' :: t => (true, t)
  | t => (false, t)

def lowerC (c : Char) : Char := if 'A' ≤ c ∧ c ≤ 'Z' then Char.ofNat (c.toNat + 32) else c

/-- The exponent part; `some e` with `e` the exponent. -/
def parseExp : Str → Option ℤ
  | [] => some 0
  | c :: t =>
    if c = 'e' ∨ c = 'E' then
      let (neg, r) := takeSign t
      if validRun r then some (if neg then -(runVal r : ℤ) else runVal r) else none
    else none

/-- `10 ^ e` for an integer exponent. -/
def pow10 (e : ℤ) : ℚ := if 0 ≤ e then ((10 ^ e.toNat : ℕ) : ℚ) else 1 / ((10 ^ (-e).toNat : ℕ) : ℚ)

/-- The unsigned numeric part of a float literal. -/
def parseUFloat (t : Str) : Option ℚ :=
  let ip := t.takeWhile isRunChar
  match t.dropWhile isRunChar with
  | '.' :: r2 =>
    let fp := r2.takeWhile isRunChar
    if (ip = [] ∨ validRun ip) ∧ (fp = [] ∨ validRun fp) ∧ ¬ (ip = [] ∧ fp = []) then
      (parseExp (r2.dropWhile isRunChar)).map fun e =>
        ((runVal ip : ℚ) + (runVal fp : ℚ) / ((10 ^ (fp.filter isDigit).length : ℕ) : ℚ)) * pow10 e
    else none
  | r1 => if validRun ip then (parseExp r1).map fun e => (runVal ip : ℚ) * pow10 e else none

/-- `float(s)`; `none` stands for `ValueError`. -/
def parseFloat (s : Str) : Option PyFloat :=
  let (neg, t) := takeSign (strip s)
  let low := t.map lowerC
  if low = "inf".toList ∨ low = "infinity".toList then some (.inf neg)
  else if low = "nan".toList then some .nan
  else (parseUFloat t).map fun q => .fin (if neg then -q else q)

/-- `int(s)`; `none` stands for `ValueError`. -/
def parseInt (s : Str) : Option ℤ :=
  let (neg, t) := takeSign (strip s)
  if validRun t then some (if neg then -(runVal t : ℤ) else runVal t) else none

example : parseFloat "-12.50e1".toList = some (.fin (-125)) := by decide +kernel
example : parseFloat "1_0".toList = some (.fin 10) := by decide +kernel
example : parseFloat "1__0".toList = none := by decide +kernel
example : parseFloat ".".toList = none := by decide +kernel
example : parseFloat " 5. ".toList = some (.fin 5) := by decide +kernel
example : parseInt "007".toList = some 7 := by decide +kernel

end Shipgrav
