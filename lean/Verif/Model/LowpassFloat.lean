import Verif.Model.TiltFloat

/-! The smoothing of the example scripts (`Model/Lowpass`) once more, in double precision: every addition, subtraction, multiplication and division is rounded;
sine, cosine, the sum of an array and the inner products inside `np.convolve` are those of a library, because the order of their additions is not
fixed. -/

namespace Shipgrav

/-- The library functions that are called (`firwin`, `filtfilt` in `dgs_bgm_comp.py` lines 136–139). -/
structure FilterLibm where
  sin : ℚ → ℚ
  cos : ℚ → ℚ
  sum : List ℚ → ℚ
  dot : List ℚ → List ℚ → ℚ

/-- `np.sinc(x)`: `y = pi*where(x == 0, 1e-20, x); sin(y)/y`.  Inside `firwin` (`dgs_bgm_comp.py` line 136). -/
def sincF (lm : FilterLibm) (x : ℚ) : ℚ :=
  let y := toDouble (piF * if x = 0 then toDouble 1e-20 else x)
  toDouble (lm.sin y / y)

/-- `scipy.signal.windows.blackman(M, sym=True)`: `fac = linspace(-pi, pi, M)`, then `w += a[k]*cos(k*fac)` for the three terms, from zero.
Inside `firwin` (`dgs_bgm_comp.py` line 136). -/
def blackmanF (lm : FilterLibm) (M n : ℕ) : ℚ :=
  let step := toDouble (toDouble (piF - -piF) / (M - 1))
  let fac := if n + 1 = M then piF else toDouble (toDouble (n * step) + -piF)
  let w0 := toDouble (0 + toDouble (toDouble 0.42 * lm.cos 0))
  let w1 := toDouble (w0 + toDouble (toDouble 0.5 * lm.cos fac))
  toDouble (w1 + toDouble (toDouble 0.08 * lm.cos (toDouble (2 * fac))))

/-- `firwin(taps, cutoff, window='blackman')` before scaling: `right*sinc(right*m)*win` with `m = n - 0.5*(taps - 1)`, which is exact.
Inside `dgs_bgm_comp.py` line 136. -/
def firwinRawF (lm : FilterLibm) (taps : ℕ) (cutoff : ℚ) (n : ℕ) : ℚ :=
  toDouble (toDouble (cutoff * sincF lm (toDouble (cutoff * (n - (taps - 1) / 2)))) * blackmanF lm taps n)

/-- `firwin(taps, cutoff, window='blackman')` (`dgs_bgm_comp.py` line 136). -/
def firwinF (lm : FilterLibm) (taps : ℕ) (cutoff : ℚ) : List ℚ :=
  let h := (List.range taps).map (firwinRawF lm taps cutoff)
  h.map fun v => toDouble (v / lm.sum h)

/-- `np.convolve(b, x)`.  Where the arrays do not overlap the products are zero, which no rounding and no order changes.
Inside `filtfilt` (`dgs_bgm_comp.py` line 138). -/
def convolveFullF (lm : FilterLibm) (b x : List ℚ) : List ℚ :=
  (List.range (b.length + x.length - 1)).map fun n => lm.dot b ((List.range b.length).map fun j => if j ≤ n then x.getD (n - j) 0 else 0)

/-- `lfilter_zi(b, 1)`: the sum of `b[1:]`, less the sums of its first entries.  Inside `filtfilt` (`dgs_bgm_comp.py` line 138). -/
def lfilterZiF (lm : FilterLibm) (b : List ℚ) : List ℚ :=
  let zi0 := lm.sum (b.drop 1)
  (List.range (b.length - 1)).map fun k => toDouble (zi0 - ((b.drop 1).take k).foldl (fun a v => toDouble (a + v)) 0)

/-- `lfilter(b, 1, x, zi=zi)[0]`: the state is added to the beginning of the convolution, the end is cut off.
Inside `filtfilt` (`dgs_bgm_comp.py` line 138). -/
def lfilterStateF (lm : FilterLibm) (b x zi : List ℚ) : List ℚ :=
  let full := convolveFullF lm b x
  let full := (List.range full.length).map fun n => if n < zi.length then toDouble (full.getD n 0 + zi.getD n 0) else full.getD n 0
  full.take (full.length + 1 - b.length)

/-- `odd_ext(x, edge)`.  Inside `filtfilt` (`dgs_bgm_comp.py` line 138). -/
def oddExtendF (x : List ℚ) (edge : ℕ) : List ℚ :=
  let left := (List.range edge).map fun i => toDouble (toDouble (2 * x.getD 0 0) - x.getD (edge - i) 0)
  let right := (List.range edge).map fun i => toDouble (toDouble (2 * x.getD (x.length - 1) 0) - x.getD (x.length - 2 - i) 0)
  left ++ x ++ right

/-- `filtfilt(b, 1, x)` (`dgs_bgm_comp.py` line 138). -/
def filtfiltF (lm : FilterLibm) (b x : List ℚ) : Except PyErr (List ℚ) :=
  let edge := 3 * max 1 b.length
  if x.length ≤ edge then .error .valueError
  else
    let ext := oddExtendF x edge
    let zi := lfilterZiF lm b
    let y := lfilterStateF lm b ext (zi.map fun v => toDouble (v * ext.getD 0 0))
    let y2 := lfilterStateF lm b y.reverse (zi.map fun v => toDouble (v * y.getD (y.length - 1) 0))
    let y3 := y2.reverse
    .ok ((y3.take (y3.length - edge)).drop edge)

/-- `filtfilt(firwin(taps, wn, window='blackman'), 1, faa)` (`dgs_bgm_comp.py` lines 131–139 and the other scripts, see `lowpassScript`). -/
def lowpassScriptF (lm : FilterLibm) (sampling : ℚ) (faa : List ℚ) : Except PyErr (List ℚ) :=
  let freq := toDouble (1 / 240)
  let nyquist := toDouble (sampling / 2)
  let wn := toDouble (freq / nyquist)
  filtfiltF lm (firwinF lm (2 * 240) wn) faa

end Shipgrav
