import Verif.Py.Fft
import Verif.Py.Real
import Mathlib.Algebra.BigOperators.Group.List.Basic

/-! Model of the coherence in `/repo/example-scripts/mru_coherence.py` line 159: `scipy.signal.coherence(x, y)` with the defaults
`fs=1.0, window='hann', nperseg=256, noverlap=nperseg//2, detrend='constant'`, for two series of the same length.  Floats are reals; NaN is `none`. -/

namespace Shipgrav
open Complex

/-- Overlapping segments of `nper` samples, `step` samples apart, as many as fit.  Inside the call of line 159. -/
def welchSegments {α : Type} (nper : ℕ) (x : List α) : List (List α) :=
  let noverlap := nper / 2
  let step := nper - noverlap
  (List.range ((x.length - noverlap) / step)).map fun s => (x.drop (s * step)).take nper

/-- `get_window('hann', n)` (periodic).  Inside the call of line 159. -/
noncomputable def hannWindow (n : ℕ) : List ℝ :=
  if n ≤ 1 then List.replicate n 1 else (List.range n).map fun (j : ℕ) => 0.5 - 0.5 * Real.cos (2 * Real.pi * j / n)

/-- `detrend(…, type='constant')`.  Inside the call of line 159. -/
noncomputable def detrendConstant (x : List ℝ) : List ℝ := x.map (· - x.sum / x.length)

/-- The spectrum of one segment: detrended, windowed, transformed; of a real series only the first half is kept (`rfft`).  Inside the call of line 159. -/
noncomputable def segmentFft (x : List ℝ) : List ℂ :=
  (fft ((List.zipWith (· * ·) (hannWindow x.length) (detrendConstant x)).map ofReal)).take (x.length / 2 + 1)

/-- `csd`: mean over the segments of `conj(X) * Y`, scaled to a density; bins that stand for two frequencies count twice.  Inside the call of line 159. -/
noncomputable def csdBin (nper : ℕ) (X Y : List (List ℂ)) (k : ℕ) : ℂ :=
  let scale : ℝ := 1 / ((hannWindow nper).map (· ^ 2)).sum
  let twice : ℝ := if k = 0 ∨ (nper % 2 = 0 ∧ k = nper / 2) then 1 else 2
  (List.zipWith (fun a b => scale * twice * ((starRingEnd ℂ) (a.getD k 0) * b.getD k 0)) X Y).sum / X.length

/-- `Cxy = np.abs(Pxy)**2 / Pxx / Pyy`; where a spectrum is zero, so is the cross spectrum, and `0/0` is NaN.  Inside the call of line 159. -/
noncomputable def cohBin (nper : ℕ) (X Y : List (List ℂ)) (k : ℕ) : Option ℝ := do
  let q ← divR (‖csdBin nper X Y k‖ ^ 2) (csdBin nper X X k).re
  divR q (csdBin nper Y Y k).re

/-- `coherence(x, y)` (line 159): a NaN in one of the segments makes everything NaN. -/
noncomputable def coherence (x y : List (Option ℝ)) : List (Option ℝ) :=
  let nper := min 256 x.length
  let xs := welchSegments nper x
  let ys := welchSegments nper y
  if xs.any (·.any Option.isNone) || ys.any (·.any Option.isNone) then List.replicate (nper / 2 + 1) none
  else
    let X := xs.map fun s => segmentFft (s.map (·.getD 0))
    let Y := ys.map fun s => segmentFft (s.map (·.getD 0))
    (List.range (nper / 2 + 1)).map (cohBin nper X Y)

end Shipgrav
