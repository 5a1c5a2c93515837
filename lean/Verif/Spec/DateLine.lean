import Mathlib.Data.Rat.Defs
import Mathlib.Data.Rat.Floor
import Mathlib.Algebra.Order.Ring.Rat

/-! Longitude columns and the date line.  NaN is `none`. -/

namespace Shipgrav.Spec

/-- The step from sample `i` to sample `i + 1` exceeds one degree (NaN never does). -/
def JumpAt (lon : List (Option ℚ)) (i : ℕ) : Prop :=
  ∃ a b : ℚ, lon[i]? = some (some a) ∧ lon[i + 1]? = some (some b) ∧ 1 < |b - a|

/-- The longitude in (-180, 180] of a continuous longitude in (0, 360). -/
def wrapLon (v : ℚ) : ℚ := if v ≤ 180 then v else v - 360

/-- All longitudes on one side of 0: whichever side has fewer samples is moved by a full turn (ties move the positive
side). -/
def oneSided (lon : List (Option ℚ)) : List (Option ℚ) :=
  if lon.countP (fun x => x.any (· < 0)) < lon.countP (fun x => x.any (0 < ·)) then
    lon.map (Option.map fun v => if v < 0 then v + 360 else v)
  else
    lon.map (Option.map fun v => if 0 < v then v - 360 else v)

/-- `lon'` has the same samples as `lon` except that sample `i + 1` is the mean of samples `i` and `i + 2` for every `i` in
`pairs`. -/
def MiddlesReplaced (pairs : List ℕ) (lon lon' : List (Option ℚ)) : Prop :=
  lon'.length = lon.length ∧
    (∀ m, (∀ i ∈ pairs, m ≠ i + 1) → lon'[m]? = lon[m]?) ∧
    ∀ i ∈ pairs, ∃ a b : Option ℚ, lon[i]? = some a ∧ lon[i + 2]? = some b ∧
      lon'[i + 1]? = some (do return ((← a) + (← b)) / 2)

/-- The second column has NaN where the first one has, and else numbers that differ from those of the first by at most `e`. -/
def NearColumn (e : ℚ) (x x' : List (Option ℚ)) : Prop :=
  List.Forall₂ (fun a b => (a = none ∧ b = none) ∨ ∃ u v : ℚ, a = some u ∧ b = some v ∧ |v - u| ≤ e) x x'

/-- No step, as `rd` rounds it, exceeds one degree (NaN never does). -/
def SmallSteps (rd : ℚ → ℚ) (lon : List (Option ℚ)) : Prop :=
  ∀ (i : ℕ) a b, lon[i]? = some (some a) → lon[i + 1]? = some (some b) → |rd (b - a)| ≤ 1

end Shipgrav.Spec
