import Mathlib.Analysis.SpecialFunctions.Sqrt
import Mathlib.Analysis.Complex.Basic

/-! The platform tilt as a driven second-order system. -/

namespace Shipgrav.Spec

/-- `y` answers the drive `x` of the difference equation with these coefficients, starting from rest. -/
def Answers (b0 b1 b2 a1 a2 : ℝ) (x y : ℕ → ℝ) : Prop :=
  y 0 = b0 * x 0 ∧ y 1 = b0 * x 1 + b1 * x 0 - a1 * y 0 ∧
    ∀ n, y (n + 2) = b0 * x (n + 2) + b1 * x (n + 1) + b2 * x n - a1 * y (n + 1) - a2 * y n

/-- Response of the tilt to the drive in continuous time, at complex frequency `s`: a damped platform of angular frequency `w0` on an
earth with angular frequency `wS`. -/
noncomputable def platformResponse (w0 wS ζ : ℝ) (s : ℂ) : ℂ :=
  (wS ^ 2 - w0 ^ 2 - 2 * ζ * w0 * s) / (s ^ 2 + 2 * ζ * w0 * s + w0 ^ 2)

/-- Upward direction of a platform whose tangents of tilt are `c` (cross) and `l` (long); the order of the two rotations alternates. -/
noncomputable def upDirection (i : ℕ) (c l : ℝ) : ℝ × ℝ × ℝ :=
  let k := 1 / (√(1 + c ^ 2) * √(1 + l ^ 2))
  if Even i then (-c * k, -l * √(1 + c ^ 2) * k, k) else (-c * √(1 + l ^ 2) * k, -l * k, k)

/-- The acceleration that is used: nothing where it is missing or flagged. -/
noncomputable def usedAcc (flag : ℝ) (acc : Option ℝ) : ℝ :=
  open Classical in if 0 < flag then 0 else acc.getD 0

/-- The drive: acceleration in units of gravity, nothing where gravity is missing. -/
noncomputable def driveOf (flag : ℝ) (acc g : Option ℝ) : ℝ := usedAcc flag acc / g.getD 0

end Shipgrav.Spec
