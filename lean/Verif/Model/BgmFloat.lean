import Verif.Py.Float64
import Verif.Model.Bgm

/-! `read_bgm_raw` (`/repo/shipgrav/io.py` lines 416–474) with the scaling of line 472 in double precision. -/

namespace Shipgrav

/-- `scale * x` for a float `scale` and a column of counts: the scale factor is the nearest one in double precision, the count is converted, and the
product is rounded.  Line 472. -/
def mulValF (scale : ℚ) : Val → Except PyErr Val
  | .num q => .ok (.num (toDouble (toDouble scale * toDouble q)))
  | .nan => .ok .nan
  | _ => .error .typeError

/-- Line 472: `dat['rgrav'] = scale*dat['counts']`. -/
def addGravityF (scale : ℚ) (dat : Table) : Except PyErr Table := do
  let cs ← dat.get "counts".toList
  let gs ← cs.mapM (mulValF scale)
  return dat.set "rgrav".toList gs

/-- Lines 456–474, with `dats` the tables collected so far. -/
def bgmLoopF (read : Option TableReader) (scale : ℚ) : List (List Str) → List Table → Except PyErr (Ret Table)
  | [], dats => (concat dats).map Ret.val
  | f :: fs, dats =>
    match read with
    | none => .ok .sentinel
    | some read => do
      let dat ← read f
      let dat ← addGravityF scale dat
      bgmLoopF (some read) scale fs (dats ++ [dat])

/-- `read_bgm_raw`, lines 416–474. -/
def readBgmRawF (other : OtherTimes) (files : List (List Str)) (ship : Str) (scale : Option ℚ)
    (shipFunction : Option TableReader) : Except PyErr (Ret Table) :=
  match scale.or (bgmScales.lookup ship) with
  | none => .ok .sentinel
  | some scale => bgmLoopF (shipFunction.or (bgmBuiltin other ship)) scale files []

end Shipgrav
