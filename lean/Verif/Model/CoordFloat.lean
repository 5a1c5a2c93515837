import Verif.Model.NavParse

/-! `_navcoords` once more (`/repo/shipgrav/io.py` lines 324–347), in double precision. -/

namespace Shipgrav

/-- Lines 339–342 / 343–345: `int(f[:k]) + float(f[k:])/60`, with `float`, the quotient and the sum each rounded to double precision; negated when
the hemisphere field, looked up only after that, equals `neg`. -/
def degMinF (k : ℕ) (f : Str) (hemi : Except PyErr Str) (neg : Str) : Except PyErr (Option ℚ) := do
  let d ← pyInt (f.take k)
  let m ← pyFloatQ (f.drop k)
  let v := m.map fun q => toDouble ((d : ℚ) + toDouble (toDouble q / 60))
  let h ← hemi
  return if h = neg then v.map (- ·) else v

/-- The loop body of `_navcoords`, lines 333–345. -/
def coordLineF (talker line : Str) : Except PyErr (Option ℚ × Option ℚ) := do
  let post ← ggaFields talker line
  let f1 ← pyGet post 1
  if f1 = [] then return (none, none)
  let f3 ← pyGet post 3
  if f3 = [] then return (none, none)
  let lat ← degMinF 2 f1 (pyGet post 2) ['S']
  let lon ← degMinF 3 f3 (pyGet post 4) ['W']
  return (lon, lat)

/-- `_navcoords`, lines 324–347. -/
def navcoordsF (allnav : List Str) (talker : Str) : Except PyErr (List (Option ℚ × Option ℚ)) :=
  (talkerLines talker allnav).mapM (coordLineF talker)

end Shipgrav
