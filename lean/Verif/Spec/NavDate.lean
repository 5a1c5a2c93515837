import Verif.Spec.NavParse
import Verif.Spec.Calendar

/-! Files of fixes whose date is not on the fix's own line. -/

namespace Shipgrav.Spec

/-- A line that starts with the date `y-m-d`. -/
def StartsWithDate (line : Str) (y m d : ℕ) : Prop :=
  y < 10000 ∧ m < 100 ∧ d < 100 ∧ ∃ tail, line = isoDate y m d ++ tail

/-- What the timestamp `t` of a Revelle fix with this clock time must be, given the lines `gap` between the previous fix
and this one: the date is taken from the last line of `gap` that starts with a date; without one there is no timestamp. -/
def RevelleStamp (gap : List Str) (hour mint sec us : ℤ) (t : Option ℤ) : Prop :=
  (∃ g1 line g2 y m d, gap = g1 ++ line :: g2 ∧ StartsWithDate line y m d ∧
      (∀ l ∈ g2, ¬ ∃ y m d, StartsWithDate l y m d) ∧
      ValidDate y m d ∧ ValidTime hour mint sec us ∧
      t = some (utcInstant y m d hour mint sec us)) ∨
    ((∀ l ∈ gap, ¬ ∃ y m d, StartsWithDate l y m d) ∧ t = none)

/-- A Revelle file: blocks of lines without the talker, each followed by a talker line, then trailing lines without it.
Every file has this form. -/
def revelleFile (blocks : List (List Str × Str)) (trailing : List Str) : List Str :=
  (blocks.map (fun b => b.1 ++ [b.2])).flatten ++ trailing

end Shipgrav.Spec
