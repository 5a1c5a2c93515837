import Mathlib.Analysis.SpecialFunctions.Trigonometric.Inverse
import Mathlib.Analysis.SpecialFunctions.Trigonometric.Arctan
import Mathlib.Analysis.SpecialFunctions.Sqrt
import Verif.Py.Core

/-! numpy operations on real numbers that can fail.  Where numpy gives `nan` or `inf` there is no value (`none`). -/

namespace Shipgrav

open Classical in
/-- `x / y`; `inf` or `nan` when `y` is zero. -/
noncomputable def divR (x y : ℝ) : Option ℝ := if y = 0 then none else some (x / y)

open Classical in
/-- `np.arcsin`; `nan` outside `[-1, 1]`. -/
noncomputable def arcsinR (x : ℝ) : Option ℝ := if |x| ≤ 1 then some (Real.arcsin x) else none

open Classical in
/-- `np.arccos`; `nan` outside `[-1, 1]`. -/
noncomputable def arccosR (x : ℝ) : Option ℝ := if |x| ≤ 1 then some (Real.arccos x) else none

open Classical in
/-- `np.sqrt`; `nan` for negative numbers. -/
noncomputable def sqrtR (x : ℝ) : Option ℝ := if 0 ≤ x then some (Real.sqrt x) else none

/-- `np.radians`, `np.deg2rad`. -/
noncomputable def radians (x : ℝ) : ℝ := x * (Real.pi / 180)

/-- `np.rad2deg`. -/
noncomputable def degrees (x : ℝ) : ℝ := x * (180 / Real.pi)

end Shipgrav
