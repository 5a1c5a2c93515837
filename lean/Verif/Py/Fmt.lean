import Verif.Py.Num
import Mathlib.Data.Rat.Floor
import Mathlib.Data.Nat.Digits.Defs

/-! Number formatting: `'%0kd'`, `str(int)`, `str(float)`; and fixed-width regular expressions. -/

namespace Shipgrav

/-- The digit character of `d < 10`. -/
def digitC (d : ℕ) : Char := Char.ofNat (48 + d)

/-- The last `k` decimal digits of `n`, zero padded: `'%0kd' % n` when `n < 10^k`. -/
def zpad : (k : ℕ) → (n : ℕ) → Str
  | 0, _ => []
  | k + 1, n => zpad k (n / 10) ++ [digitC (n % 10)]

/-- `str(n)` for a natural number. -/
def natStr (n : ℕ) : Str := if n = 0 then ['0'] else (Nat.digits 10 n).reverse.map digitC

/-- Worker of `decPlaces`. -/
def decPlacesGo (den : ℕ) : (fuel k : ℕ) → ℕ
  | 0, k => k
  | fuel + 1, k => if 10 ^ k % den = 0 then k else decPlacesGo den fuel (k + 1)

/-- The least number of decimals that writes a fraction with denominator `den` exactly (if there is one). -/
def decPlaces (den : ℕ) : ℕ := decPlacesGo den den 0

/-- `str` of the two-digit exponent of a float. -/
def expStr (e : ℤ) : Str :=
  (if e < 0 then ['e', '-'] else ['e', '+']) ++ (if e.natAbs < 10 then '0' :: natStr e.natAbs else natStr e.natAbs)

/-- Drop trailing zeros. -/
def stripZeros (s : Str) : Str := rstripChars ['0'] s

/-- Scientific notation of `q > 0`, as `repr(float)` writes it. -/
def sciRepr (q : ℚ) : Str :=
  let k := decPlaces q.den
  let ds := natStr (q * 10 ^ k).num.toNat
  let mant := match stripZeros ds with
    | [] => []
    | [c] => [c]
    | c :: t => c :: '.' :: t
  mant ++ expStr ((ds.length : ℤ) - 1 - k)

/-- Positional notation of `q ≥ 0`: integer part, point, at least one decimal. -/
def posRepr (q : ℚ) : Str :=
  let k := max 1 (decPlaces q.den)
  natStr ⌊q⌋.toNat ++ '.' :: zpad k (Int.fract q * 10 ^ k).num.toNat

/-- `str(x)` for a float.  Finite floats are taken to be exact decimals (their shortest representation); CPython uses
scientific notation below `1e-4` and from `1e16` on. -/
def floatStr : PyFloat → Str
  | .nan => "nan".toList
  | .inf neg => (if neg then ['-'] else []) ++ "inf".toList
  | .fin q =>
    (if q < 0 then ['-'] else []) ++
      (if |q| = 0 ∨ (1 / 10000 ≤ |q| ∧ |q| < 10 ^ 16) then posRepr |q| else sciRepr |q|)

example : floatStr (.fin (25 / 2)) = "12.5".toList := by decide +kernel
example : floatStr (.fin 0) = "0.0".toList := by decide +kernel
example : floatStr (.fin (-7)) = "-7.0".toList := by decide +kernel
example : floatStr (.fin (1 / 20000)) = "5e-05".toList := by decide +kernel
example : floatStr (.fin (3 / 200000)) = "1.5e-05".toList := by decide +kernel
example : floatStr (.fin (120 * 10 ^ 15)) = "1.2e+17".toList := by decide +kernel
example : floatStr (.fin (1007 / 10000)) = "0.1007".toList := by decide +kernel

/-! ### Fixed-width patterns -/

/-- A regular expression made of single-character classes. -/
abbrev Pat := List (Char → Bool)

/-- `\d{n}` -/
def digP (n : ℕ) : Pat := List.replicate n isDigit

/-- A literal. -/
def litP (s : String) : Pat := s.toList.map (fun c x => x == c)

/-- `re.match`: the text matched at the start of `s`. -/
def matchP : Pat → Str → Option Str
  | [], _ => some []
  | p :: ps, c :: cs => if p c then (matchP ps cs).map (c :: ·) else none
  | _ :: _, [] => none

/-- `re.findall(...)[0]`: the text of the leftmost match. -/
def findP (ps : Pat) : Str → Option Str
  | [] => matchP ps []
  | c :: cs => match matchP ps (c :: cs) with
    | some m => some m
    | none => findP ps cs

/-- Slice `s[a:b]`. -/
def slice (a b : ℕ) (s : Str) : Str := (s.take b).drop a

example : findP (litP "NAV " ++ digP 2 ++ litP "/") "xNAV NAV 12/".toList = some "NAV 12/".toList := by decide +kernel

end Shipgrav
