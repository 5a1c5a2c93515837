import Verif.Py.Core
import Verif.Py.Np
import Verif.Spec.Cursor

/-! Model of `_SnappingCursor`, `/repo/shipgrav/utils.py` lines 178–278, as a state machine over mouse events
(`Spec.Event`).  Drawing calls have no effect on the state; numbers are rationals. -/

namespace Shipgrav
open Spec

/-- A row of `data`: `tsec`, `lon_new`, `lat_new`.  Lines 258–260. -/
structure CurRow where
  tsec : ℚ
  lon : ℚ
  lat : ℚ
  deriving DecidableEq

/-- What the cursor is built from: the data frame and the plotted line (lines 216–228). -/
structure CurData where
  rows : List CurRow
  lineX : List ℚ
  lineY : List ℚ

/-- The mutable attributes.  Lines 221–230. -/
structure CurState where
  lastIndex : Option ℤ := none
  visible : Bool := true
  hLine : ℚ
  vLine : ℚ
  dot : ℚ × ℚ
  xSeg : List ℚ := []
  ySeg : List ℚ := []
  iSeg : List ℕ := []
  /-- `xdata`, `ydata` of `self.scatters[0]` -/
  scatter : List ℚ × List ℚ := ([], [])
  deriving DecidableEq

/-- Lines 258 and 266: `np.argmin(abs(x - self.data['tsec']))`; `ValueError` when the frame is empty. -/
def nearestRow (d : CurData) (x : ℚ) : Except PyErr ℕ :=
  match argmin (d.rows.map (fun r => |x - r.tsec|)) with
  | some i => .ok i
  | none => .error .valueError

/-- `list[index]` with a Python integer index (negative counts from the end).  Lines 251–252. -/
def pyIdx {α : Type} (l : List α) (i : ℤ) : Except PyErr α :=
  if 0 ≤ i then pyGet l i.toNat
  else if -(l.length : ℤ) ≤ i then pyGet l (i + l.length).toNat
  else .error .indexError

/-- `on_mouse_move`, lines 238–261.  Result: new state and exception, if any. -/
def onMouseMove (d : CurData) (s : CurState) : Option ℚ → CurState × Option PyErr
  | none => ({ s with lastIndex := none, visible := false }, none)
  | some x =>
    let s := { s with visible := true }
    let index : ℤ := min (searchsorted d.lineX x : ℤ) (d.lineX.length - 1)
    if s.lastIndex = some index then (s, none)
    else
      let s := { s with lastIndex := some index }
      match pyIdx d.lineX index, pyIdx d.lineY index with
      | .ok x', .ok y' =>
        let s := { s with hLine := y', vLine := x' }
        match nearestRow d x' with
        | .error e => (s, some e)
        | .ok i =>
          match d.rows[i]? with
          | none => (s, some .indexError)
          | some r => ({ s with dot := (r.lon, r.lat) }, none)
      | .error e, _ => (s, some e)
      | _, .error e => (s, some e)

/-- `on_mouse_click`, lines 263–278. -/
def onMouseClick (d : CurData) (s : CurState) (button : ℕ) (xdata : Option ℚ) : CurState × Option PyErr :=
  if button = 1 then
    match xdata with
    | none => (s, some .typeError)          -- `None - Series`
    | some x =>
      match nearestRow d x with
      | .error e => (s, some e)
      | .ok i =>
        match d.rows[i]? with
        | none => (s, some .indexError)
        | some r =>
          let xs := s.xSeg ++ [r.lon]
          let ys := s.ySeg ++ [r.lat]
          ({ s with xSeg := xs, ySeg := ys, iSeg := s.iSeg ++ [i], scatter := (xs, ys) }, none)
  else if button = 3 then
    -- three `pop()` calls in turn; the first that fails stops the handler
    if s.xSeg = [] then (s, some .indexError)
    else
      let s := { s with xSeg := s.xSeg.dropLast }
      if s.ySeg = [] then (s, some .indexError)
      else
        let s := { s with ySeg := s.ySeg.dropLast }
        if s.iSeg = [] then (s, some .indexError)
        else
          let s := { s with iSeg := s.iSeg.dropLast }
          ({ s with scatter := (s.xSeg, s.ySeg) }, none)
  else (s, none)

/-- One event.  Lines 238–278. -/
def curStep (d : CurData) (s : CurState) : Event → CurState × Option PyErr
  | .moveIn x => onMouseMove d s (some x)
  | .moveOut => onMouseMove d s none
  | .click b x => onMouseClick d s b x

/-- A history of events from a fresh cursor. matplotlib reports an exception in a handler and carries on, so the state is
simply threaded through.  Lines 238–278. -/
def curRun (d : CurData) (s : CurState) (h : List Event) : CurState := h.foldl (fun s e => (curStep d s e).1) s

/-- `__init__`, lines 215–230: nothing picked. -/
def curInit (h v : ℚ) (dot : ℚ × ℚ) : CurState := { hLine := h, vLine := v, dot := dot }

end Shipgrav
