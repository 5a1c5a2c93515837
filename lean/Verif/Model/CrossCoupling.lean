import Verif.Model.Nav
import Verif.Py.Real

/-! Model of `calc_cross_coupling_coefficients`, `/repo/shipgrav/grav.py` lines 340–450, up to the regression.

Floats are real numbers.  `tay10` (lines 12–13) is the list of nav.py.  `np.convolve(…, 'same')` is modelled for series of at least 11
samples, which the segments are.  `OLS(y, x).fit()` is a library call: the theorems speak about every least-squares solution. -/

namespace Shipgrav
open Real

open Classical in
/-- `np.sinc`.  Inside the call of line 413. -/
noncomputable def npSinc (x : ℝ) : ℝ := if x = 0 then 1 else sin (π * x) / (π * x)

/-- `scipy.signal.windows.blackman(M, sym=True)`.  Inside the call of line 413. -/
noncomputable def blackman (M n : ℕ) : ℝ :=
  let fac := -π + 2 * π * n / (M - 1)
  0.42 + 0.50 * cos fac + 0.08 * cos (2 * fac)

/-- `scipy.signal.firwin(taps, cutoff, window='blackman')` for one cutoff (line 413): windowed sinc with unit gain at zero frequency. -/
noncomputable def firwin (taps : ℕ) (cutoff : ℝ) : List ℝ :=
  let h := (List.range taps).map fun (n : ℕ) =>
    let m : ℝ := n - 0.5 * (taps - 1)
    cutoff * npSinc (cutoff * m) * blackman taps n
  h.map (· / h.sum)

/-- `lfilter(b, 1, x)` (lines 414–419). -/
noncomputable def lfilterFir (b x : List ℝ) : List ℝ := (List.range x.length).map fun (i : ℕ) => convAt x b i

/-- `x[k:-k]` for `k > 0` (lines 403–408, 422–427). -/
def trim {α : Type} (k : ℕ) (x : List α) : List α := (x.take (x.length - k)).drop k

/-- Lines 394–427 for one series of one segment. -/
noncomputable def ccProcess (x : List ℝ) : List ℝ :=
  let pp := convolveSame (convolveSame x tay10) tay10
  let pp := trim 10 pp
  let filterlength := 100
  let taps := 2 * filterlength
  let BM := firwin taps (1 / taps)
  trim taps (lfilterFir BM pp)

open Classical in
/-- `np.where(tdiff > 5*samplerate)[0]` (lines 371, 374). -/
noncomputable def gapIdx (times : List ℝ) (samplerate : ℝ) : List ℕ :=
  (List.range (times.length - 1)).filter fun k => times.getD (k + 1) 0 - times.getD k 0 > 5 * samplerate

/-- Lines 368–374: `end_inds`. -/
noncomputable def endInds (n : ℕ) (times : Option (List ℝ)) (samplerate : ℝ) : List ℕ :=
  match times with
  | none => [n]
  | some t => if gapIdx t samplerate ≠ [] then gapIdx t samplerate else [n]

/-- Lines 376 and 385–391: the bounds of the slices `end_inds[i-1]+1:end_inds[i]`, with -1 in front. -/
def spans (ends : List ℕ) : List (ℕ × ℕ) := ((0 :: ends.map (· + 1)).zip ends)

/-- `x[s:e]`.  Lines 386–391. -/
def ccSlice {α : Type} (x : List α) (s : ℕ × ℕ) : List α := (x.take s.2).drop s.1

/-- Lines 385–441 for one series: what is accumulated over the segments that are long enough. -/
noncomputable def ccSeries (faa x : List ℝ) (ends : List ℕ) : List ℝ :=
  ((spans ends).filter fun s => ¬ (ccSlice faa s).length < 1000).flatMap fun s => ccProcess (ccSlice x s)

/-- The regression table (lines 444–447). -/
structure CCTable where
  ve : List ℝ
  vcc : List ℝ
  al : List ℝ
  ax : List ℝ
  lev : List ℝ
  g : List ℝ

/-- Lines 340–450.  Columns of different lengths raise in `DataFrame`, an empty table raises in `add_constant`. -/
noncomputable def calcCC (faa vcc ve al ax level : List ℝ) (times : Option (List ℝ)) (samplerate : ℝ) : Except PyErr CCTable :=
  let ends := endInds faa.length times samplerate
  let faaTf := ccSeries faa faa ends
  let vccTf := ccSeries faa vcc ends
  let veTf := ccSeries faa ve ends
  let alTf := ccSeries faa al ends
  let axTf := ccSeries faa ax ends
  let leTf := ccSeries faa level ends
  if vccTf.length = faaTf.length ∧ veTf.length = faaTf.length ∧ alTf.length = faaTf.length ∧ axTf.length = faaTf.length ∧
      leTf.length = faaTf.length then
    if faaTf.length = 0 then .error .valueError
    else .ok ⟨veTf, vccTf, alTf, axTf, leTf, faaTf.map (-·)⟩
  else .error .valueError

end Shipgrav
