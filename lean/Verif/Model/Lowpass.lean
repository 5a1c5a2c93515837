import Verif.Py.Signal
import Verif.Model.CrossCoupling

/-! Model of the smoothing and trimming of free-air anomalies in the example scripts.  Floats are real numbers. -/

namespace Shipgrav

/-- `taps = 2*240` (`dgs_bgm_comp.py` line 131; the same in the other scripts). -/
def lowpassTaps : ℕ := 2 * 240

/-- `filtfilt(firwin(taps, wn, window='blackman'), 1, faa)` with `freq = 1./240`, `nyquist = sampling/2`, `wn = freq/nyquist`
(`dgs_bgm_comp.py` lines 131–139, `dgs_ccp_calc.py` 150–158, `dgs_raw_comp.py` 224–231, `mru_coherence.py` 106–113,
`interactive_line_pick.py` 93–100, `RMBA_calc.py` 158–164).  `wn` lies between 0 and 1. -/
noncomputable def lowpassScript (sampling : ℝ) (faa : List ℝ) : Except PyErr (List ℝ) :=
  let freq : ℝ := 1 / 240
  let nyquist := sampling / 2
  let wn := freq / nyquist
  filtfilt (firwin lowpassTaps wn) faa

/-- `x[taps:-taps//2]` (`dgs_bgm_comp.py` lines 153–158, `dgs_ccp_calc.py` 173–178, `dgs_raw_comp.py` 244–247,
`interactive_line_pick.py` 104–106): what is plotted or kept.  `-taps//2` is `(-taps)//2`, that is −240. -/
def trimPlot {α : Type} (x : List α) : List α := (x.take (x.length - 240)).drop lowpassTaps

/-- `x[taps:-taps]` (`RMBA_calc.py` line 168, where the anomaly is put into the tracked line). -/
def trimTrack {α : Type} (x : List α) : List α := (x.take (x.length - lowpassTaps)).drop lowpassTaps

end Shipgrav
