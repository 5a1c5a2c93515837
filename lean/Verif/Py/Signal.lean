import Verif.Py.Core
import Mathlib.Data.Real.Basic

/-! `scipy.signal`: `lfilter` with initial state and `filtfilt` for filters without feedback (`a = 1`), with default arguments.  Floats are real
numbers. -/

namespace Shipgrav

/-- `np.convolve(b, x)` (mode `'full'`). -/
noncomputable def convolveFull (b x : List ℝ) : List ℝ :=
  (List.range (b.length + x.length - 1)).map fun n => ((List.range b.length).map fun j => if j ≤ n then b.getD j 0 * x.getD (n - j) 0 else 0).sum

/-- `lfilter_zi(b, 1)`: the state of the filter after a long constant input of one. -/
noncomputable def lfilterZi (b : List ℝ) : List ℝ :=
  let zi0 := (b.drop 1).sum
  (List.range (b.length - 1)).map fun k => zi0 - ((b.drop 1).take k).sum

/-- `lfilter(b, 1, x, zi=zi)[0]`: the convolution, the state added to its beginning, its end cut off. -/
noncomputable def lfilterState (b x zi : List ℝ) : List ℝ :=
  let full := convolveFull b x
  let full := (List.range full.length).map fun n => full.getD n 0 + zi.getD n 0
  full.take (full.length + 1 - b.length)

/-- `odd_ext(x, edge)`: the record continued on both sides by its point reflection in the end points. -/
noncomputable def oddExtend (x : List ℝ) (edge : ℕ) : List ℝ :=
  let left := (List.range edge).map fun i => 2 * x.getD 0 0 - x.getD (edge - i) 0
  let right := (List.range edge).map fun i => 2 * x.getD (x.length - 1) 0 - x.getD (x.length - 2 - i) 0
  left ++ x ++ right

/-- `filtfilt(b, 1, x)`: `ValueError` for a record that is too short; else forward and backward over the continued record. -/
noncomputable def filtfilt (b x : List ℝ) : Except PyErr (List ℝ) :=
  let edge := 3 * max 1 b.length
  if x.length ≤ edge then .error .valueError
  else
    let ext := oddExtend x edge
    let zi := lfilterZi b
    let y := lfilterState b ext (zi.map (· * ext.getD 0 0))
    let y2 := lfilterState b y.reverse (zi.map (· * y.getD (y.length - 1) 0))
    let y3 := y2.reverse
    .ok ((y3.take (y3.length - edge)).drop edge)

end Shipgrav
