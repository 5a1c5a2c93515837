import Verif.Spec.Dgs

/-! Data files with tagged lines. -/

namespace Shipgrav.Spec

/-- `data` is the text of a file with these lines: each ends with a line feed, which may be missing after the last one. -/
structure FileOf (lines : List Str) (data : Str) : Prop where
  feeds : ∀ l ∈ lines, '\n' ∉ l
  text : data = (lines.map (· ++ ['\n'])).flatten ∨ (data = joinC '\n' lines ∧ lines ≠ [] ∧ lines.getLast? ≠ some [])

/-- The lines that contain the tag. -/
def tagged (tag : Str) (lines : List Str) : List Str := lines.filter fun l => decide (tag <:+: l)

/-- The line `pre$TAG,field,field,…` followed by blanks (such as a carriage return). -/
def tagLine (tag pre : Str) (fs : List Str) (blanks : Str) : Str := pre ++ ('$' :: tag ++ (',' :: (joinC ',' fs ++ blanks)))

/-- What becomes of a text in a column that may hold anything: the number if it is one, NaN if there is none, and the text itself if it has a
character that occurs in no number. -/
structure CellOf (s : Str) (v : Val) : Prop where
  number : ∀ q, NumText s q → v = .num q
  empty : s = [] → v = .nan
  text : (∃ c ∈ s, foreign c = true) → v = .text s

end Shipgrav.Spec
