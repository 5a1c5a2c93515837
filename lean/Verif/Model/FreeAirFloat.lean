import Verif.Model.TideFloat
import Verif.Model.LatCorrFloat

/-! The free-air anomaly of the example scripts once more (`/repo/example-scripts/dgs_bgm_comp.py` lines 117–127; the same in `dgs_ccp_calc.py` 93–102,
`dgs_raw_comp.py` 112–121, `mru_coherence.py` 93–102, `interactive_line_pick.py` 81–90), in double precision. -/

namespace Shipgrav

/-- `lat_corr` (lines 119–120) at one latitude; the height is zero. -/
def latCorrF (lm : TideLibm) (lat : ℚ) : ℚ :=
  let l : LatLibm := ⟨lm.sin, lm.sqrt, lm.sqr⟩
  toDouble (wgsGravF l lat + freeAirF l lat 0 false)

/-- `faa` and `full_field` (lines 118–127). -/
def faaScriptF (lm : TideLibm) (grav lon lat : List ℚ) (times : List ℤ) (sampling : ℚ) : Except PyErr (List ℚ × List ℚ) :=
  let ellipsoidHt := List.replicate lat.length (0 : ℚ)
  let latCorr := lat.map (latCorrF lm)
  match eotvosFullF lm.toEotLibm lon lat ellipsoidHt sampling 6378137 (toDouble 6356752.3142) with
  | .error e => .error e
  | .ok eotvosCorr =>
    match longmanF lm lon lat times 0 with
    | .error e => .error e
    | .ok tide =>
      let rows := ((grav.zip latCorr).zip eotvosCorr).zip (tide.map (·.1))
      .ok (rows.map fun p => toDouble (toDouble (toDouble (p.1.1.1 - p.1.1.2) + p.1.2) + p.2),
        rows.map fun p => toDouble (toDouble (p.1.1.1 + p.1.2) + p.2))

end Shipgrav
