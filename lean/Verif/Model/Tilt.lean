import Verif.Py.Real

/-! Model of `up_vecs`, `_tilt_filter` and `_calc_up_vecs`, `/repo/shipgrav/grav.py` lines 479–609.

Floats are real numbers; `none` in an input array is NaN.  The four arrays are numpy arrays (broadcasting of arrays with one
element is left out).  An infinite value (division of a nonzero acceleration by zero gravity, `tan` at its pole, a zero denominator of
the filter) leaves the model: `UpResult.notFinite`. -/

namespace Shipgrav
open Real

/-- Filter coefficients: numerator `b0, b1, b2`, denominator `1, a1, a2`.  Lines 569–570. -/
structure Biquad where
  b0 : ℝ
  b1 : ℝ
  b2 : ℝ
  a1 : ℝ
  a2 : ℝ

open Classical in
/-- `_tilt_filter` (lines 532–572); `per` and `dt` are Python floats, so zero raises, the rest is numpy.  `damp=False` is 0. -/
noncomputable def tiltFilter (per dt damp : ℝ) : Except PyErr (Option Biquad) :=
  let damp := if damp = 0 then √2 / 2 else damp
  if per = 0 then .error .zeroDivisionError
  else if dt = 0 then .error .zeroDivisionError
  else
    let w0 := 2 * π / per
    let ws := 1 / √(6371100 / 9.8)
    .ok do
      let t0 ← divR (sin (w0 * dt / 2)) (cos (w0 * dt / 2))
      let tS ← divR (sin (ws * dt / 2)) (cos (ws * dt / 2))
      let om0 := 2 / dt * t0
      let omS := 2 / dt * tS
      let a := omS ^ 2 - om0 ^ 2
      let b := 2 * damp * om0 * (2 / dt)
      let c := 4 / dt ^ 2
      let d := om0 ^ 2
      let d0 := b + c + d
      let b0 ← divR (a - b) d0
      let b1 ← divR (2 * a) d0
      let b2 ← divR (a + b) d0
      let a1 ← divR (2 * (d - c)) d0
      let a2 ← divR (c + d - b) d0
      some ⟨b0, b1, b2, a1, a2⟩

/-- `lfilter(num, den, x)` with the state of the transposed direct form.  Lines 518, 524. -/
noncomputable def lfilterGo (f : Biquad) : ℝ → ℝ → List ℝ → List ℝ
  | _, _, [] => []
  | z0, z1, x :: xs =>
    let y := f.b0 * x + z0
    y :: lfilterGo f (f.b1 * x - f.a1 * y + z1) (f.b2 * x - f.a2 * y) xs

/-- `lfilter` starts from rest (lines 518, 524). -/
noncomputable def lfilter2 (f : Biquad) (x : List ℝ) : List ℝ := lfilterGo f 0 0 x

/-- A column of three numbers.  Line 603. -/
abbrev Vec := ℝ × ℝ × ℝ

/-- `np.matmul` of a 3×3 matrix, given by its rows, and a vector.  Lines 605, 607. -/
noncomputable def matVec (r1 r2 r3 v : Vec) : Vec :=
  (r1.1 * v.1 + r1.2.1 * v.2.1 + r1.2.2 * v.2.2, r2.1 * v.1 + r2.2.1 * v.2.1 + r2.2.2 * v.2.2, r3.1 * v.1 + r3.2.1 * v.2.1 + r3.2.2 * v.2.2)

/-- The loop body of `_calc_up_vecs` (lines 597–607). -/
noncomputable def upVec (i : ℕ) (ctilt ltilt : ℝ) : Vec :=
  let sc := sin ctilt
  let cc := cos ctilt
  let sl := sin ltilt
  let cl := cos ltilt
  let rotc := matVec (cc, 0, -sc) (0, 1, 0) (sc, 0, cc)
  let rotl := matVec (1, 0, 0) (0, cl, -sl) (0, sl, cl)
  let platUp := (0, 0, 1)
  if i % 2 = 0 then rotc (rotl platUp) else rotl (rotc platUp)

/-- `_calc_up_vecs` (lines 575–611): the columns of the result.  A shorter `ltilt` raises. -/
noncomputable def calcUpVecs (ctilt ltilt : List ℝ) : Except PyErr (List Vec) :=
  if ltilt.length < ctilt.length then .error .indexError
  else .ok ((ctilt.zip ltilt).zipIdx.map fun p => upVec p.2 p.1.1 p.1.2)

/-- `acc[np.isnan(acc)] = 0`.  Lines 505–506. -/
noncomputable def nanToZero (acc : List (Option ℝ)) : List (Option ℝ) := acc.map fun v => some (v.getD 0)

open Classical in
/-- `acc[on_off > 0] = 0` for arrays of the same length.  Lines 509–510. -/
noncomputable def zeroWhere (onOff : List ℝ) (acc : List (Option ℝ)) : List (Option ℝ) :=
  List.zipWith (fun o v => if o > 0 then some 0 else v) onOff acc

open Classical in
/-- One entry of `drive = acc/g; drive[np.isnan(drive)] = 0`: `none` is an infinite value.  Lines 516–517, 522–523. -/
noncomputable def driveAt (acc g : Option ℝ) : Option ℝ :=
  match acc, g with
  | some a, some g => if g = 0 then (if a = 0 then some 0 else none) else some (a / g)
  | _, _ => some 0

/-- All entries, if all are finite.  Lines 516–523. -/
def allFinite : List (Option ℝ) → Option (List ℝ)
  | [] => some []
  | none :: _ => none
  | some a :: l => (allFinite l).map (a :: ·)

/-- What the call gives.  Lines 478–529. -/
inductive UpResult
  | err (e : PyErr)
  | notFinite
  | vecs (l : List Vec)

/-- Lines 513–518 (the same in 521–524): the tilt of one axis. -/
noncomputable def axisTilt (acc g : List (Option ℝ)) (per dt damp : ℝ) : Except PyErr (Option (List ℝ)) :=
  match tiltFilter per dt damp with
  | .error e => .error e
  | .ok f =>
    if acc.length ≠ g.length then .error .valueError
    else .ok do
      let f ← f
      let drive ← allFinite (List.zipWith driveAt acc g)
      some (lfilter2 f drive)

/-- The part of `up_vecs` after the in-place changes (lines 512–529). -/
noncomputable def upResult (dt : ℝ) (g cacc lacc : List (Option ℝ)) (cper cdamp lper ldamp : ℝ) : UpResult :=
  match axisTilt cacc g cper dt cdamp with
  | .error e => .err e
  | .ok ct =>
    match axisTilt lacc g lper dt ldamp with
    | .error e => .err e
    | .ok lt =>
      match ct, lt with
      | some ct, some lt =>
        match calcUpVecs (ct.map arctan) (lt.map arctan) with
        | .error e => .err e
        | .ok l => .vecs l
      | _, _ => .notFinite

/-- `up_vecs` (lines 478–529): the caller's two acceleration arrays after the call, and the result.  The boolean masks must fit. -/
noncomputable def upVecs (dt : ℝ) (g cacc lacc : List (Option ℝ)) (onOff : List ℝ) (cper cdamp lper ldamp : ℝ) :
    (List (Option ℝ) × List (Option ℝ)) × UpResult :=
  let cacc := nanToZero cacc
  let lacc := nanToZero lacc
  if onOff.length ≠ cacc.length then ((cacc, lacc), .err .indexError)
  else
    let cacc := zeroWhere onOff cacc
    if onOff.length ≠ lacc.length then ((cacc, lacc), .err .indexError)
    else
      let lacc := zeroWhere onOff lacc
      ((cacc, lacc), upResult dt g cacc lacc cper cdamp lper ldamp)

end Shipgrav
