import Verif.Model.Tide

/-! Model of the tide prediction with an array of altitudes, `/repo/shipgrav/grav.py` lines 42–187. -/

namespace Shipgrav

/-- numpy's rule for an operation on two arrays with one axis: the lengths are equal or one of them is one, and then its value is used throughout.
Used at line 164, `r = C*a + H`. -/
def broadcastPairs {α β : Type} (a : List α) (b : List β) : Except PyErr (List (α × β)) :=
  if a.length = b.length then .ok (a.zip b)
  else match a, b with
    | [x], b => .ok (b.map fun y => (x, y))
    | a, [y] => .ok (a.map fun x => (x, y))
    | _, _ => .error .valueError

/-- `longman_tide_prediction` with `return_components=True` for an array of altitudes, lines 42–187: `H = alt * 100.` (line 103) enters at line 164. -/
noncomputable def longmanAlt (lon lat : List ℝ) (times : List ℤ) (alt : List ℝ) : Except PyErr (List (Option (ℝ × ℝ × ℝ))) :=
  if lon.length ≠ lat.length then .error .assertionError
  else if lon.length ≠ times.length then .error .assertionError
  else do
    let qs ← broadcastPairs ((lon.zip lat).zip times) alt
    return qs.map fun q =>
      let (T, b) := tideTime q.1.2
      tidePoint q.1.1.1 q.1.1.2 q.2 T (tideHour b)

end Shipgrav
