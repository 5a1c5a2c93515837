import Verif.Py.Core
import Mathlib.Data.Rat.Defs
import Mathlib.Algebra.Order.Field.Rat

/-! Model of the comparison series of a motion sensor in `/repo/example-scripts/mru_coherence.py`.  Floats are rationals; NaN is `none`. -/

namespace Shipgrav

/-- `x.rolling(w).max()` (line 156; pandas): NaN where the window of the last `w` values is not full or has a NaN. -/
def rollingMax (w : ℕ) (x : List (Option ℚ)) : List (Option ℚ) :=
  (List.range x.length).map fun i =>
    if i + 1 < w then none
    else
      let window := (x.take (i + 1)).drop (i + 1 - w)
      if window.any Option.isNone then none else (window.filterMap id).max?

/-- `np.interp(x, xp, fp)` (line 155) for increasing `xp`: the first and last value beyond the ends, the value itself at one of the `xp`, and
in between the straight line, which is NaN if one of its ends is. -/
def npInterp (xp : List ℚ) (fp : List (Option ℚ)) (x : ℚ) : Option ℚ :=
  let c := xp.countP (· ≤ x)
  if c = 0 then fp.getD 0 none
  else if c = xp.length then fp.getD (xp.length - 1) none
  else
    let j := c - 1
    if xp.getD j 0 = x then fp.getD j none
    else match fp.getD j none, fp.getD (j + 1) none with
      | some a, some b => some ((b - a) / (xp.getD (j + 1) 0 - xp.getD j 0) * (x - xp.getD j 0) + a)
      | _, _ => none

/-- Lines 155–157 of `mru_coherence.py`: `mru_interp`. -/
def mruInterp (tsec mruT : List ℚ) (motion : List (Option ℚ)) : List ℚ :=
  tsec.map fun t => (npInterp mruT (rollingMax 1000 motion) t).getD 0

end Shipgrav
