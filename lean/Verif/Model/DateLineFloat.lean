import Verif.Py.Float64
import Verif.Model.ReadNav

/-! `_clean_180cross` once more (`/repo/shipgrav/io.py` lines 350–376), in double precision. -/

namespace Shipgrav

/-- numpy's `x % m` for floats: `fmod`, which is exact, and if its result has the other sign than `m` the rounded sum with `m`.  Lines 361, 363. -/
def npModF (x m : ℚ) : ℚ :=
  let r := x - m * truncQ (x / m)
  if r ≠ 0 ∧ (m < 0 ↔ ¬ r < 0) then toDouble (r + m) else r

/-- `abs(a - b) > 1` with the difference rounded, false when NaN is involved.  Lines 142, 366. -/
def jumpsF : Option ℚ → Option ℚ → Bool
  | some a, some b => decide (1 < |toDouble (b - a)|)
  | _, _ => false

/-- Worker of `jumpIdxF`.  Lines 142, 366. -/
def jumpGoF : (i : ℕ) → List (Option ℚ) → List ℕ
  | i, a :: b :: t => if jumpsF a b then i :: jumpGoF (i + 1) (b :: t) else jumpGoF (i + 1) (b :: t)
  | _, _ => []

/-- `np.where(abs(np.diff(x)) > 1)[0]`.  Lines 142, 366. -/
def jumpIdxF (x : List (Option ℚ)) : List ℕ := jumpGoF 0 x

/-- Lines 355–363: move the minority side across the date line. -/
def unwrapSidesF (lon : List (Option ℚ)) : List (Option ℚ) :=
  if (lon.filter isNeg).length < (lon.filter isPos).length then
    lon.map fun x => if isNeg x then x.map (fun v => toDouble (180 + npModF v 180)) else x
  else
    lon.map fun x => if isPos x then x.map (fun v => toDouble (-180 + npModF v (-180))) else x

/-- Line 372: `(a + b)/2`, NaN if either is. -/
def midpointF (a b : Option ℚ) : Option ℚ :=
  match a, b with
  | some a, some b => some (toDouble (toDouble (a + b) / 2))
  | _, _ => none

/-- Lines 370–372: overwrite the middle of each jump pair; `IndexError` if an index is out of range. -/
def fixPairsF : List ℕ → List (Option ℚ) → Except PyErr (List (Option ℚ))
  | [], x => .ok x
  | i :: is, x => do
    let a ← pyGet x i
    let b ← pyGet x (i + 2)
    fixPairsF is (x.set (i + 1) (midpointF a b))

/-- `_clean_180cross` on the longitude column, lines 350–376. -/
def cleanLonF (lon : List (Option ℚ)) : Except PyErr (List (Option ℚ)) :=
  let x := unwrapSidesF lon
  let ilocs := jumpIdxF x
  if ilocs.length % 2 ≠ 0 then .ok x
  else fixPairsF (strideGo 2 0 ilocs) x

example : npModF (-179.5) 180 = 0.5 := by decide +kernel
example : npModF (-180) 180 = 0 := by decide +kernel
example : npModF 179.5 (-180) = -0.5 := by decide +kernel
example : npModF 180 (-180) = 0 := by decide +kernel

end Shipgrav
