import Verif.Model.Eotvos
import Verif.Model.LatCorrFloat

/-! `eotvos_full` and `center_diff` once more (`/repo/shipgrav/grav.py` lines 194–296 and 457–475), in double precision.  The code is written once for
every arithmetic; in double precision every operation and every literal is rounded, and the sine, the cosine, the arcus tangens and the square are those of
a library. -/

namespace Shipgrav

/-- The arithmetic in which a formula is computed.  Lines 228–293. -/
structure Arith (α : Type) where
  /-- a literal of the source -/
  lit : ℚ → α
  add : α → α → α
  sub : α → α → α
  mul : α → α → α
  neg : α → α
  sin : α → α
  cos : α → α
  arctan : α → α

/-- Real numbers.  Lines 228–293. -/
noncomputable def exactArith : Arith ℝ := ⟨fun q => q, (· + ·), (· - ·), (· * ·), (- ·), Real.sin, Real.cos, Real.arctan⟩

/-- The library functions of this part: `np.sin`, `np.cos`, `np.arctan` and `samp**2`.  Lines 244–247, 255, 472. -/
structure EotLibm where
  sin : ℚ → ℚ
  cos : ℚ → ℚ
  arctan : ℚ → ℚ
  sqr : ℚ → ℚ

/-- Double precision.  A change of sign is exact.  Lines 228–293. -/
def doubleArith (lm : EotLibm) : Arith ℚ :=
  ⟨toDouble, fun x y => toDouble (x + y), fun x y => toDouble (x - y), fun x y => toDouble (x * y), (- ·), lm.sin, lm.cos, lm.arctan⟩

/-- A row of three numbers (lines 260–289). -/
structure RowOf (α : Type) where
  x : α
  y : α
  z : α

/-- `np.cross` of rows (lines 275–286). -/
def RowOf.cross {α : Type} (A : Arith α) (u v : RowOf α) : RowOf α :=
  ⟨A.sub (A.mul u.y v.z) (A.mul u.z v.y), A.sub (A.mul u.z v.x) (A.mul u.x v.z), A.sub (A.mul u.x v.y) (A.mul u.y v.x)⟩

/-- `2*w` (line 275). -/
def RowOf.twice {α : Type} (A : Arith α) (u : RowOf α) : RowOf α := ⟨A.mul (A.lit 2) u.x, A.mul (A.lit 2) u.y, A.mul (A.lit 2) u.z⟩

/-- Lines 228–293 for one sample, given the axis, the flattening, the latitude in radians, the height and the differences. -/
def eotvosRowG {α : Type} (A : Arith α) (a ecc latr ht dlat ddlat dlon ddlon dht ddht : α) : α :=
  let We := A.lit 0.00007292115
  let mps2mgal := A.lit 100000
  let zero := A.lit 0
  let slat := A.sin latr
  let clat := A.cos latr
  let s2lat := A.sin (A.mul (A.lit 2) latr)
  let c2lat := A.cos (A.mul (A.lit 2) latr)
  let rp := A.mul a (A.sub (A.lit 1) (A.mul (A.mul ecc slat) slat))
  let drp := A.mul (A.mul (A.mul (A.neg a) dlat) ecc) s2lat
  let ddrp := A.sub (A.mul (A.mul (A.mul (A.neg a) ddlat) ecc) s2lat) (A.mul (A.mul (A.mul (A.mul (A.mul (A.lit 2) a) dlat) dlat) ecc) c2lat)
  let D := A.arctan (A.mul ecc s2lat)
  let dD := A.mul (A.mul (A.mul (A.lit 2) dlat) ecc) c2lat
  let ddD := A.sub (A.mul (A.mul (A.mul (A.lit 2) ddlat) ecc) c2lat) (A.mul (A.mul (A.mul (A.mul (A.lit 4) dlat) dlat) ecc) s2lat)
  let r : RowOf α := ⟨A.mul (A.neg rp) (A.sin D), zero, A.sub (A.mul (A.neg rp) (A.cos D)) ht⟩
  let rdot : RowOf α := ⟨A.sub (A.mul (A.neg drp) (A.sin D)) (A.mul (A.mul rp dD) (A.cos D)), zero,
    A.sub (A.add (A.mul (A.neg drp) (A.cos D)) (A.mul (A.mul rp dD) (A.sin D))) dht⟩
  let ci := A.sub (A.sub (A.mul (A.neg ddrp) (A.sin D)) (A.mul (A.mul (A.mul (A.lit 2) drp) dD) (A.cos D)))
    (A.mul rp (A.sub (A.mul ddD (A.cos D)) (A.mul (A.mul dD dD) (A.sin D))))
  let ck := A.sub (A.add (A.add (A.mul (A.neg ddrp) (A.cos D)) (A.mul (A.mul (A.mul (A.lit 2) drp) dD) (A.sin D)))
    (A.mul rp (A.add (A.mul ddD (A.sin D)) (A.mul (A.mul dD dD) (A.cos D))))) ddht
  let rdotdot : RowOf α := ⟨ci, zero, ck⟩
  let w : RowOf α := ⟨A.mul (A.add dlon We) clat, A.neg dlat, A.mul (A.neg (A.add dlon We)) slat⟩
  let wdot : RowOf α := ⟨A.sub (A.mul dlon clat) (A.mul (A.mul (A.add dlon We) dlat) slat), A.neg ddlat,
    A.sub (A.mul (A.neg ddlon) slat) (A.mul (A.mul (A.add dlon We) dlat) clat)⟩
  let w2xrdot := (w.twice A).cross A rdot
  let wdotxr := wdot.cross A r
  let wxr := w.cross A r
  let wxwxr := w.cross A wxr
  let we : RowOf α := ⟨A.mul We clat, zero, A.mul (A.neg We) slat⟩
  let wexr := we.cross A r
  let wexwexr := we.cross A wexr
  let az := A.add (A.add (A.add rdotdot.z w2xrdot.z) wdotxr.z) wxwxr.z
  A.mul (A.sub az wexwexr.z) mps2mgal

/-- `center_diff` with order 1 or 2 in double precision (lines 457–475). -/
def centerDiffF (lm : EotLibm) (y : List ℚ) (n : ℤ) (samp : ℚ) : List ℚ :=
  if n = 1 then ((from2 y).zip (upto2 y)).map fun p => toDouble (toDouble (p.1 - p.2) * toDouble (samp / 2))
  else (((upto2 y).zip (inner y)).zip (from2 y)).map fun p => toDouble (toDouble (toDouble (p.1.1 - toDouble (2 * p.1.2)) + p.2) * lm.sqr samp)

/-- `eotvos_full`, lines 194–296, in double precision. -/
def eotvosFullF (lm : EotLibm) (lon lat ht : List ℚ) (samp a b : ℚ) : Except PyErr (List ℚ) :=
  if lon.length ≠ lat.length ∨ ht.length ≠ lat.length then .error .valueError
  else
    let ecc := toDouble (toDouble (a - b) / a)
    let latr := lat.map deg2radF
    let lonr := lon.map deg2radF
    let dlat := centerDiffF lm latr 1 samp
    let ddlat := centerDiffF lm latr 2 samp
    let dlon := centerDiffF lm lonr 1 samp
    let ddlon := centerDiffF lm lonr 2 samp
    let dht := centerDiffF lm ht 1 samp
    let ddht := centerDiffF lm ht 2 samp
    let E := (List.range (inner latr).length).map fun (k : ℕ) => eotvosRowG (doubleArith lm) a ecc ((inner latr).getD k 0) ((inner ht).getD k 0) (dlat.getD k 0)
      (ddlat.getD k 0) (dlon.getD k 0) (ddlon.getD k 0) (dht.getD k 0) (ddht.getD k 0)
    match E.head?, E.getLast? with
    | some first, some last => .ok (first :: E ++ [last])
    | _, _ => .error .indexError

end Shipgrav
