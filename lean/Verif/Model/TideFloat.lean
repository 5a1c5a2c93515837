import Verif.Model.Tide
import Verif.Model.EotvosFloat

/-! The tide prediction once more (`/repo/shipgrav/grav.py` lines 20–187), in double precision.  As for the Eötvös correction the code is written once for every
arithmetic; in double precision every operation and every literal is rounded, and the functions are those of a library.  A quotient with a zero divisor is 0 here, with
the exception of the one in line 132, whose divisor can be zero. -/

namespace Shipgrav

/-- The arithmetic of the tide prediction: that of the Eötvös correction with more functions.  Lines 84–185. -/
structure TideArith (α : Type) extends Arith α where
  div : α → α → α
  /-- `np.radians` -/
  rad : α → α
  arcsin : α → α
  arccos : α → α
  /-- `np.arctan(y/x)` -/
  atanq : α → α → α
  sqrt : α → α
  /-- `**2` -/
  sqr : α → α
  /-- `**3` -/
  cube : α → α

/-- Real numbers.  Lines 84–185. -/
noncomputable def exactTide : TideArith ℝ :=
  { exactArith with
    div := (· / ·)
    rad := radians
    arcsin := Real.arcsin
    arccos := Real.arccos
    atanq := fun y x => Real.arctan (y / x)
    sqrt := Real.sqrt
    sqr := (· ^ 2)
    cube := (· ^ 3) }

/-- The library functions of this part.  Lines 119–180. -/
structure TideLibm extends EotLibm where
  arcsin : ℚ → ℚ
  arccos : ℚ → ℚ
  /-- `np.arctan(np.inf)` -/
  arctanInf : ℚ
  sqrt : ℚ → ℚ
  cube : ℚ → ℚ

/-- Double precision.  In line 132 a positive number divided by zero is infinite (the divisor is `1 + cos_alpha`, whose zero is positive), and a negative one negative
infinite.  Lines 84–185. -/
def doubleTide (lm : TideLibm) : TideArith ℚ :=
  { doubleArith lm.toEotLibm with
    div := fun x y => toDouble (x / y)
    rad := deg2radF
    arcsin := lm.arcsin
    arccos := lm.arccos
    atanq := fun y x => if x = 0 then (if 0 ≤ y then lm.arctanInf else -lm.arctanInf) else lm.arctan (toDouble (y / x))
    sqrt := lm.sqrt
    sqr := lm.sqr
    cube := lm.cube }

/-- Lines 20–39 with the parts of the time difference and of the time of day, which are whole numbers. -/
def tideTimeG {α : Type} (A : TideArith α) (days seconds hour minute second : α) : α × α :=
  (A.div (A.add days (A.div (A.div seconds (A.lit 3600)) (A.lit 24))) (A.lit 36525),
    A.add (A.add hour (A.div minute (A.lit 60))) (A.div second (A.lit 3600)))

/-- `_convert_datetime_tidetime`, lines 20–39, in double precision. -/
def tideTimeF (lm : TideLibm) (t : ℤ) : ℚ × ℚ :=
  let dt := t - tideOrigin
  tideTimeG (doubleTide lm) (dt / 86400000000 : ℤ) (dt % 86400000000 / 1000000 : ℤ) (t / 3600000000 % 24 : ℤ) (t / 60000000 % 60 : ℤ) (t / 1000000 % 60 : ℤ)

/-- Lines 80–83 in double precision. -/
def tideHourF (t0 : ℚ) : ℚ :=
  let t0 := if t0 < 0 then toDouble (t0 + 24) else t0
  if 24 ≤ t0 then t0 else t0

/-- The arguments of moon and sun (lines 110–116, 144, 146). -/
structure ArgsOf (α : Type) where
  s : α
  p : α
  h : α
  N : α
  p1 : α
  e1 : α

/-- Lines 84–85, 110–116, 144 and 146. -/
def tideArgsG {α : Type} (A : TideArith α) (T : α) : ArgsOf α :=
  let TT := A.mul T T
  let TTT := A.mul (A.mul T T) T
  { s := A.add (A.add (A.lit 4.720023434) (A.mul (A.lit 8399.709299) T)) (A.mul (A.lit 0.0000440696) TT)
    p := A.sub (A.sub (A.add (A.lit 5.835124713) (A.mul (A.lit 71.01800936) T)) (A.mul (A.lit 0.000180545) TT)) (A.mul (A.lit 0.00000021817) TTT)
    h := A.add (A.add (A.lit 4.88162792) (A.mul (A.lit 628.3319509) T)) (A.mul (A.lit 0.00000527962) TT)
    N := A.add (A.sub (A.lit 4.523588564) (A.mul (A.lit 33.75715303) T)) (A.mul (A.lit 0.000036749) TT)
    p1 := A.add (A.add (A.lit 4.908229461) (A.mul (A.lit 0.03000526416) T)) (A.mul (A.lit 0.000007902463) TT)
    e1 := A.sub (A.sub (A.lit 0.01675104) (A.mul (A.lit 0.0000418) T)) (A.mul (A.lit 0.000000126) TT) }

/-- Line 101. -/
def tideOmegaG {α : Type} (A : TideArith α) : α := A.rad (A.lit 23.452)

/-- Lines 119–132: `I`, `nu` and `alpha` from `N`. -/
def nodeAnglesG {α : Type} (A : TideArith α) (N : α) : α × α × α :=
  let i := A.lit 0.08979719
  let omega := tideOmegaG A
  let I := A.arccos (A.sub (A.mul (A.cos omega) (A.cos i)) (A.mul (A.mul (A.sin omega) (A.sin i)) (A.cos N)))
  let nu := A.arcsin (A.div (A.mul (A.sin i) (A.sin N)) (A.sin I))
  let cosAlpha := A.add (A.mul (A.cos N) (A.cos nu)) (A.mul (A.mul (A.sin N) (A.sin nu)) (A.cos omega))
  let sinAlpha := A.div (A.mul (A.sin omega) (A.sin N)) (A.sin I)
  (I, nu, A.mul (A.lit 2) (A.atanq sinAlpha (A.add (A.lit 1) cosAlpha)))

/-- Lines 139–140. -/
def moonLongitudeG {α : Type} (A : TideArith α) (sigma s p h : α) : α :=
  let e := A.lit 0.05490
  let m := A.lit 0.074804
  A.add (A.add (A.add (A.add sigma (A.mul (A.mul (A.lit 2) e) (A.sin (A.sub s p))))
    (A.mul (A.mul (A.mul (A.lit (5 / 4)) e) e) (A.sin (A.mul (A.lit 2) (A.sub s p)))))
    (A.mul (A.mul (A.mul (A.lit (15 / 4)) m) e) (A.sin (A.add (A.sub s (A.mul (A.lit 2) h)) p))))
    (A.mul (A.mul (A.mul (A.lit (11 / 8)) m) m) (A.sin (A.mul (A.lit 2) (A.sub s h))))

/-- Lines 153–154 and 156–158 (with the sun's arguments). -/
def cosZenithG {α : Type} (A : TideArith α) (lamb I L chi : α) : α :=
  A.add (A.mul (A.mul (A.sin lamb) (A.sin I)) (A.sin L))
    (A.mul (A.cos lamb) (A.add (A.mul (A.sqr (A.cos (A.mul (A.lit 0.5) I))) (A.cos (A.sub L chi)))
      (A.mul (A.sqr (A.sin (A.mul (A.lit 0.5) I))) (A.cos (A.add L chi)))))

/-- Lines 162–164. -/
def earthRadiusG {α : Type} (A : TideArith α) (lamb H : α) : α :=
  let C := A.sqrt (A.div (A.lit 1) (A.add (A.lit 1) (A.mul (A.lit 0.006738) (A.sqr (A.sin lamb)))))
  A.add (A.mul C (A.lit 637827000)) H

/-- Lines 166 and 170–172. -/
def moonDistanceG {α : Type} (A : TideArith α) (s p h : α) : α :=
  let e := A.lit 0.05490
  let m := A.lit 0.074804
  let c := A.lit 38440200000
  let aprime := A.div (A.lit 1) (A.mul c (A.sub (A.lit 1) (A.mul e e)))
  A.div (A.lit 1) (A.add (A.add (A.add (A.add (A.div (A.lit 1) c) (A.mul (A.mul aprime e) (A.cos (A.sub s p))))
    (A.mul (A.mul (A.mul aprime e) e) (A.cos (A.mul (A.lit 2) (A.sub s p)))))
    (A.mul (A.mul (A.mul (A.mul (A.lit (15 / 8)) aprime) m) e) (A.cos (A.add (A.sub s (A.mul (A.lit 2) h)) p))))
    (A.mul (A.mul (A.mul aprime m) m) (A.cos (A.mul (A.lit 2) (A.sub s h)))))

/-- Lines 168 and 174. -/
def sunDistanceG {α : Type} (A : TideArith α) (e1 h p1 : α) : α :=
  let c1 := A.lit 14950000000000
  let aprime1 := A.div (A.lit 1) (A.mul c1 (A.sub (A.lit 1) (A.mul e1 e1)))
  A.div (A.lit 1) (A.add (A.div (A.lit 1) c1) (A.mul (A.mul aprime1 e1) (A.cos (A.sub h p1))))

/-- Lines 176–180: the accelerations of moon and sun. -/
def tideForceG {α : Type} (A : TideArith α) (r d D cosTheta cosPhi : α) : α × α :=
  let mu := A.lit 6.673e-8
  let M := A.lit 73537000000000000000000000
  let S := A.lit 1993000000000000000000000000000000
  let d3 := A.mul (A.mul d d) d
  (A.add (A.mul (A.div (A.mul (A.mul mu M) r) d3) (A.sub (A.mul (A.lit 3) (A.sqr cosTheta)) (A.lit 1)))
    (A.mul (A.mul (A.lit (3 / 2)) (A.div (A.mul (A.mul (A.mul mu M) r) r) (A.mul d3 d)))
      (A.sub (A.mul (A.lit 5) (A.cube cosTheta)) (A.mul (A.lit 3) cosTheta))),
   A.mul (A.div (A.mul (A.mul mu S) r) (A.mul (A.mul D D) D)) (A.sub (A.mul (A.lit 3) (A.sqr cosPhi)) (A.lit 1)))

/-- Lines 182–185: total, lunar and solar effect in mGal. -/
def tideTotalG {α : Type} (A : TideArith α) (g : α × α) : α × α × α :=
  let love := A.sub (A.add (A.lit 1) (A.lit 0.612)) (A.mul (A.lit 1.5) (A.lit 0.303))
  (A.mul (A.mul (A.add g.1 g.2) (A.lit 1000)) love, A.mul (A.mul g.1 (A.lit 1000)) love, A.mul (A.mul g.2 (A.lit 1000)) love)

/-- Lines 102–185 for one point, given the arguments: total, lunar and solar effect. -/
def tideFromArgsG {α : Type} (A : TideArith α) (lon lat alt t0 : α) (a : ArgsOf α) : α × α × α :=
  let lamb := A.rad lat
  let H := A.mul alt (A.lit 100)
  let L := A.neg lon
  let n := nodeAnglesG A a.N
  let t := A.rad (A.sub (A.mul (A.lit 15) (A.sub t0 (A.lit 12))) L)
  let chi := A.sub (A.add t a.h) n.2.1
  let xi := A.sub a.N n.2.2
  let sigma := A.sub a.s xi
  let Lmoon := moonLongitudeG A sigma a.s a.p a.h
  let chi1 := A.add t a.h
  let Lsun := A.add a.h (A.mul (A.mul (A.lit 2) a.e1) (A.sin (A.sub a.h a.p1)))
  let cosTheta := cosZenithG A lamb n.1 Lmoon chi
  let cosPhi := cosZenithG A lamb (tideOmegaG A) Lsun chi1
  let r := earthRadiusG A lamb H
  let d := moonDistanceG A a.s a.p a.h
  let D := sunDistanceG A a.e1 a.h a.p1
  tideTotalG A (tideForceG A r d D cosTheta cosPhi)

/-- Lines 84–185 for one point: total, lunar and solar effect. -/
def tidePointG {α : Type} (A : TideArith α) (lon lat alt T t0 : α) : α × α × α := tideFromArgsG A lon lat alt t0 (tideArgsG A T)

/-- `longman_tide_prediction` with `return_components=True`, lines 42–187, in double precision. -/
def longmanF (lm : TideLibm) (lon lat : List ℚ) (times : List ℤ) (alt : ℚ) : Except PyErr (List (ℚ × ℚ × ℚ)) :=
  if lon.length ≠ lat.length then .error .assertionError
  else if lon.length ≠ times.length then .error .assertionError
  else .ok (((lon.zip lat).zip times).map fun q =>
    let (T, b) := tideTimeF lm q.2
    tidePointG (doubleTide lm) q.1.1 q.1.2 alt T (tideHourF b))

end Shipgrav
