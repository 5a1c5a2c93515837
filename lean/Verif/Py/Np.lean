import Mathlib.Data.Rat.Defs
import Mathlib.Algebra.Order.Ring.Rat
import Mathlib.Algebra.Order.Group.Unbundled.Abs

/-! numpy primitives on lists. -/

namespace Shipgrav

/-- Worker of `argmin`: `b` is the best value so far, found at index `bi`; `i` is the index of the head. -/
def argminGo {α : Type} [LT α] [DecidableRel (α := α) (· < ·)] (b : α) (bi : ℕ) : (i : ℕ) → List α → ℕ
  | _, [] => bi
  | i, a :: as => if a < b then argminGo a i (i + 1) as else argminGo b bi (i + 1) as

/-- `np.argmin` of a list without NaN: index of the first minimum; `none` for an empty list (`ValueError`). -/
def argmin {α : Type} [LT α] [DecidableRel (α := α) (· < ·)] : List α → Option ℕ
  | [] => none
  | a :: as => some (argminGo a 0 1 as)

/-- `np.searchsorted(x, v)` (side `'left'`) for ascending `x`: the number of leading entries smaller than `v`. -/
def searchsorted {α : Type} [LT α] [DecidableRel (α := α) (· < ·)] (x : List α) (v : α) : ℕ :=
  (x.takeWhile (· < v)).length

end Shipgrav
