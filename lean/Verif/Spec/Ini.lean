import Verif.Py.Num

/-! What a cleaned line is, stated without the split/join choreography of the code. -/

namespace Shipgrav.Spec

/-- The key: everything before the first `=`. -/
def iniKey (l : Str) : Str := l.takeWhile (· ≠ '=')

/-- The value: what follows the first `=`, up to the next `=` or `#`, without surrounding blanks. -/
def iniValue (l : Str) : Str := strip (((l.dropWhile (· ≠ '=')).drop 1).takeWhile (fun c => c ≠ '=' ∧ c ≠ '#'))

/-- Header, comment and blank lines. -/
def iniPassLine (l : Str) : Prop := l = [] ∨ l.head? = some '[' ∨ l.head? = some '#'

/-- A value that may stay as it is: boolean, quoted string, or number. -/
def iniPlainValue (v : Str) : Prop :=
  v = "true".toList ∨ v = "false".toList ∨ v.head? = some '"' ∨ (parseFloat v).isSome

/-- Dollar signs are dropped from a line that starts with one. -/
def iniDollar (l : Str) : Str := if l.head? = some '$' then l.filter (· ≠ '$') else l

instance (l : Str) : Decidable (iniPassLine l) := by unfold iniPassLine; infer_instance
instance (v : Str) : Decidable (iniPlainValue v) := by unfold iniPlainValue; infer_instance

/-- The cleaned line: `none` when the line has no `=` but needs one. -/
def iniCleanLine (ln : Str) : Option Str :=
  let l := iniDollar ln
  if iniPassLine l then some l
  else if '=' ∉ l then none
  else if iniPlainValue (iniValue l) then some l
  else some (iniKey l ++ "= \"".toList ++ iniValue l ++ "\"".toList)

end Shipgrav.Spec

namespace Shipgrav.Spec

/-- `Replaced old new s t`: `t` is `s` with the leftmost, non-overlapping occurrences of `old` replaced by `new`. -/
inductive Replaced (old new : Str) : Str → Str → Prop
  | nil : Replaced old new [] []
  | hit (s t : Str) : old ≠ [] → Replaced old new s t → Replaced old new (old ++ s) (new ++ t)
  | miss (c : Char) (s t : Str) : ¬ old <+: (c :: s) → Replaced old new s t → Replaced old new (c :: s) (c :: t)

/-- The textual substitutions of `clean_ini_to_toml`: `//` to `#`, tabs to two blanks, `TRUE` and `FALSE` to lower
case, in this order. -/
def IniSubstituted (s t : Str) : Prop :=
  ∃ s1 s2 s3, Replaced "//".toList "#".toList s s1 ∧ Replaced "\t".toList "  ".toList s1 s2 ∧
    Replaced "TRUE".toList "true".toList s2 s3 ∧ Replaced "FALSE".toList "false".toList s3 t

end Shipgrav.Spec
