import Mathlib.Data.List.Basic
import Mathlib.Order.Basic

/-!
# Python primitives used by the model

Exceptions as values, the `-999` sentinel, and the string methods that `shipgrav` calls.
Strings are `List Char`.  Only ASCII white space and digits are recognised (DESIGN.md §1).
-/

namespace Shipgrav

/-- The Python exceptions that the modelled code can raise. -/
inductive PyErr
  | valueError | indexError | keyError | assertionError | typeError | attributeError | zeroDivisionError | overflowError
  deriving DecidableEq, Repr

/-- What a reader function of `io.py` hands back: a value, or the integer `-999`. -/
inductive Ret (α : Type _)
  | val (a : α)
  | sentinel
  deriving DecidableEq, Repr

/-- A Python call that returns `a`, or `-999`, or raises. -/
abbrev PyRet (α : Type _) := Except PyErr (Ret α)

instance {ε α : Type _} [DecidableEq ε] [DecidableEq α] : DecidableEq (Except ε α)
  | .ok a, .ok b => if h : a = b then isTrue (by rw [h]) else isFalse (by intro e; cases e; exact h rfl)
  | .error a, .error b => if h : a = b then isTrue (by rw [h]) else isFalse (by intro e; cases e; exact h rfl)
  | .ok _, .error _ => isFalse (by intro e; cases e)
  | .error _, .ok _ => isFalse (by intro e; cases e)

abbrev Str := List Char

/-- ASCII white space as `str.isspace` sees it: blank, `\t \n \v \f \r` and the separators `\x1c`–`\x1f`. -/
def isSpace (c : Char) : Bool :=
  c == ' ' || (9 ≤ c.toNat && c.toNat ≤ 13) || (28 ≤ c.toNat && c.toNat ≤ 31)

/-- `\d` restricted to ASCII. -/
def isDigit (c : Char) : Bool := '0' ≤ c && c ≤ '9'

/-- `s.lstrip()` -/
def lstrip (s : Str) : Str := s.dropWhile isSpace

/-- `s.rstrip()` -/
def rstrip (s : Str) : Str := (s.reverse.dropWhile isSpace).reverse

/-- `s.strip()` -/
def strip (s : Str) : Str := rstrip (lstrip s)

/-- `s.rstrip(chars)`: strips every trailing character that belongs to the set `chars`. -/
def rstripChars (chars s : Str) : Str := (s.reverse.dropWhile (chars.contains ·)).reverse

/-- `s.strip(chars)` -/
def stripChars (chars s : Str) : Str := rstripChars chars (s.dropWhile (chars.contains ·))

/-- `s.startswith(p)` -/
def startsWith (p s : Str) : Bool := p.isPrefixOf s

/-- `sub in s` -/
def hasSub (sub s : Str) : Bool := decide (sub <:+: s)

/-- `s.split(c)` for a one-character separator. -/
def splitC (c : Char) : Str → List Str
  | [] => [[]]
  | x :: xs =>
    if x = c then [] :: splitC c xs
    else match splitC c xs with
      | [] => [[x]]
      | h :: t => (x :: h) :: t

/-- Worker of `splitS`: `skip` characters of a separator occurrence are still to be passed over,
`cur` is the current piece, reversed. -/
def splitGo (sep : Str) : (skip : ℕ) → (cur : Str) → Str → List Str
  | _, cur, [] => [cur.reverse]
  | skip + 1, cur, _ :: cs => splitGo sep skip cur cs
  | 0, cur, c :: cs =>
    if sep.isPrefixOf (c :: cs) then cur.reverse :: splitGo sep (sep.length - 1) [] cs
    else splitGo sep 0 (c :: cur) cs

/-- `s.split(sep)` for a non-empty separator string (Python raises `ValueError` on an empty one):
cut at the leftmost non-overlapping occurrences. -/
def splitS (sep s : Str) : List Str := splitGo sep 0 [] s

/-- Worker of `replaceS`. -/
def replaceGo (old new : Str) : (skip : ℕ) → Str → Str
  | _, [] => []
  | skip + 1, _ :: cs => replaceGo old new skip cs
  | 0, c :: cs =>
    if old.isPrefixOf (c :: cs) then new ++ replaceGo old new (old.length - 1) cs
    else c :: replaceGo old new 0 cs

/-- `re.sub(old, new, s)` for a literal, non-empty pattern: replace the leftmost non-overlapping occurrences. -/
def replaceS (old new s : Str) : Str := replaceGo old new 0 s

/-- `sep.join(parts)` for a one-character separator. -/
def joinC (c : Char) : List Str → Str
  | [] => []
  | [s] => s
  | s :: t => s ++ c :: joinC c t

/-- Python list indexing `l[n]` with a non-negative index: `IndexError` when out of range. -/
def pyGet {α : Type _} (l : List α) (n : ℕ) : Except PyErr α :=
  match l[n]? with
  | some a => .ok a
  | none => .error .indexError

/-- `l[-1]`. -/
def pyLast {α : Type _} (l : List α) : Except PyErr α :=
  match l.getLast? with
  | some a => .ok a
  | none => .error .indexError

end Shipgrav
