import Verif.Py.Fmt
import Mathlib.Algebra.Order.Ring.Rat

/-! Decimal numbers as text. -/

namespace Shipgrav.Spec

/-- The text `s` writes the number `q`: an optional minus sign, digits, and optionally a point and more digits. -/
inductive DecText : Str → ℚ → Prop
  | int (w n : ℕ) (hw : 1 ≤ w) (hn : n < 10 ^ w) : DecText (zpad w n) n
  | dec (w n k f : ℕ) (hw : 1 ≤ w) (hn : n < 10 ^ w) (hf : f < 10 ^ k) : DecText (zpad w n ++ '.' :: zpad k f) (n + f / 10 ^ k)
  | negInt (w n : ℕ) (hw : 1 ≤ w) (hn : n < 10 ^ w) : DecText ('-' :: zpad w n) (-n)
  | negDec (w n k f : ℕ) (hw : 1 ≤ w) (hn : n < 10 ^ w) (hf : f < 10 ^ k) :
      DecText ('-' :: (zpad w n ++ '.' :: zpad k f)) (-(n + f / 10 ^ k))

end Shipgrav.Spec
