import Mathlib.Algebra.Order.Ring.Rat

/-! Vocabulary for the line picker. -/

namespace Shipgrav.Spec

/-- Row `i` of a table with times `ts` is the (first) one whose time is nearest to `x`. -/
def IsNearest (ts : List ℚ) (x : ℚ) (i : ℕ) : Prop :=
  ∃ t, ts[i]? = some t ∧ (∀ (j : ℕ) u, ts[j]? = some u → |x - t| ≤ |x - u|) ∧
    (∀ (j : ℕ) u, j < i → ts[j]? = some u → |x - t| < |x - u|)

/-- A mouse event: a move (inside the time-series axes at `x`, or elsewhere), or a click of a button (1 left, 3 right)
at data coordinate `x` (`none` outside all axes). -/
inductive Event
  | moveIn (x : ℚ)
  | moveOut
  | click (button : ℕ) (x : Option ℚ)
  deriving DecidableEq

/-- The picks a history of events leaves on the stack, oldest first. -/
inductive Picks (ts : List ℚ) : List Event → List ℕ → Prop
  | start : Picks ts [] []
  | left {h s} (x : ℚ) (i : ℕ) : Picks ts h s → IsNearest ts x i → Picks ts (h ++ [.click 1 (some x)]) (s ++ [i])
  | leftOutside {h s} : Picks ts h s → Picks ts (h ++ [.click 1 none]) s
  | right {h s} (x : Option ℚ) : Picks ts h s → Picks ts (h ++ [.click 3 x]) s.dropLast
  | otherButton {h s} (b : ℕ) (x : Option ℚ) : b ≠ 1 → b ≠ 3 → Picks ts h s → Picks ts (h ++ [.click b x]) s
  | moveIn {h s} (x : ℚ) : Picks ts h s → Picks ts (h ++ [.moveIn x]) s
  | moveOut {h s} : Picks ts h s → Picks ts (h ++ [.moveOut]) s

end Shipgrav.Spec
