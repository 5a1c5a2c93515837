import Verif.Model.TiltFloat

/-! `up_vecs` and `_calc_up_vecs` once more (`/repo/shipgrav/grav.py` lines 478–529 and 575–611), in double precision; `_tilt_filter` and
`lfilter` are in `Model/TiltFloat`.  `none` in an array is NaN, as in `Model/Tilt`; an infinite value leaves the model. -/

namespace Shipgrav

/-- The library functions: those of `_tilt_filter`, and `np.arctan`, `np.sin`, `np.cos`.  Lines 527, 588–591. -/
structure UpLib where
  base : Libm
  arctan : ℚ → ℚ
  sin : ℚ → ℚ
  cos : ℚ → ℚ

/-- A column of three numbers.  Line 603. -/
abbrev VecF := ℚ × ℚ × ℚ

/-- One entry of `np.matmul`: in these rotations at most one of the three products is not zero, so neither the order of the sum nor fused
operations matter.  Lines 605, 607. -/
def dot3F (r v : VecF) : ℚ := toDouble (toDouble (toDouble (r.1 * v.1) + toDouble (r.2.1 * v.2.1)) + toDouble (r.2.2 * v.2.2))

/-- `np.matmul` of a 3×3 matrix, given by its rows, and a vector.  Lines 605, 607. -/
def matVecF (r1 r2 r3 v : VecF) : VecF := (dot3F r1 v, dot3F r2 v, dot3F r3 v)

/-- The loop body of `_calc_up_vecs` (lines 597–607). -/
def upVecF (lib : UpLib) (i : ℕ) (ctilt ltilt : ℚ) : VecF :=
  let sc := lib.sin ctilt
  let cc := lib.cos ctilt
  let sl := lib.sin ltilt
  let cl := lib.cos ltilt
  let rotc := matVecF (cc, 0, -sc) (0, 1, 0) (sc, 0, cc)
  let rotl := matVecF (1, 0, 0) (0, cl, -sl) (0, sl, cl)
  let platUp := (0, 0, 1)
  if i % 2 = 0 then rotc (rotl platUp) else rotl (rotc platUp)

/-- `_calc_up_vecs` (lines 575–611): the columns of the result.  A shorter `ltilt` raises. -/
def calcUpVecsF (lib : UpLib) (ctilt ltilt : List ℚ) : Except PyErr (List VecF) :=
  if ltilt.length < ctilt.length then .error .indexError
  else .ok ((ctilt.zip ltilt).zipIdx.map fun p => upVecF lib p.2 p.1.1 p.1.2)

/-- `acc[np.isnan(acc)] = 0`.  Lines 505–506. -/
def nanToZeroF (acc : List (Option ℚ)) : List (Option ℚ) := acc.map fun v => some (v.getD 0)

/-- `acc[on_off > 0] = 0` for arrays of the same length.  Lines 509–510. -/
def zeroWhereF (onOff : List ℚ) (acc : List (Option ℚ)) : List (Option ℚ) :=
  List.zipWith (fun o v => if o > 0 then some 0 else v) onOff acc

/-- One entry of `drive = acc/g; drive[np.isnan(drive)] = 0`: `none` is an infinite value.  Lines 516–517, 522–523. -/
def driveAtF (acc g : Option ℚ) : Option ℚ :=
  match acc, g with
  | some a, some g => if g = 0 then (if a = 0 then some 0 else none) else some (toDouble (a / g))
  | _, _ => some 0

/-- All entries, if all are finite.  Lines 516–523. -/
def allFiniteF : List (Option ℚ) → Option (List ℚ)
  | [] => some []
  | none :: _ => none
  | some a :: l => (allFiniteF l).map (a :: ·)

/-- What the call gives.  Lines 478–529. -/
inductive UpResultF
  | err (e : PyErr)
  | notFinite
  | vecs (l : List VecF)

/-- Lines 513–518 (the same in 521–524): the tilt of one axis. -/
def axisTiltF (lib : UpLib) (acc g : List (Option ℚ)) (per dt damp : ℚ) : Except PyErr (Option (List ℚ)) :=
  match tiltFilterF lib.base per dt damp with
  | .error e => .error e
  | .ok f =>
    if acc.length ≠ g.length then .error .valueError
    else .ok do
      let f ← f
      let drive ← allFiniteF (List.zipWith driveAtF acc g)
      some (lfilter2F f drive)

/-- The part of `up_vecs` after the in-place changes (lines 512–529). -/
def upResultF (lib : UpLib) (dt : ℚ) (g cacc lacc : List (Option ℚ)) (cper cdamp lper ldamp : ℚ) : UpResultF :=
  match axisTiltF lib cacc g cper dt cdamp with
  | .error e => .err e
  | .ok ct =>
    match axisTiltF lib lacc g lper dt ldamp with
    | .error e => .err e
    | .ok lt =>
      match ct, lt with
      | some ct, some lt =>
        match calcUpVecsF lib (ct.map lib.arctan) (lt.map lib.arctan) with
        | .error e => .err e
        | .ok l => .vecs l
      | _, _ => .notFinite

/-- `up_vecs` (lines 478–529): the caller's two acceleration arrays after the call, and the result.  The boolean masks must fit. -/
def upVecsF (lib : UpLib) (dt : ℚ) (g cacc lacc : List (Option ℚ)) (onOff : List ℚ) (cper cdamp lper ldamp : ℚ) :
    (List (Option ℚ) × List (Option ℚ)) × UpResultF :=
  let cacc := nanToZeroF cacc
  let lacc := nanToZeroF lacc
  if onOff.length ≠ cacc.length then ((cacc, lacc), .err .indexError)
  else
    let cacc := zeroWhereF onOff cacc
    if onOff.length ≠ lacc.length then ((cacc, lacc), .err .indexError)
    else
      let lacc := zeroWhereF onOff lacc
      ((cacc, lacc), upResultF lib dt g cacc lacc cper cdamp lper ldamp)

end Shipgrav
