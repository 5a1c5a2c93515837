import Verif.Model.Parker1d
import Verif.Model.TiltFloat

/-! Model of `grav1d_padded` in double precision, `/repo/shipgrav/grav.py` lines 618–685: every addition, subtraction, multiplication and division is rounded; complex numbers
are pairs.  Fourier transforms, powers, exponential, square root and the sum inside `np.mean` are those of a library. -/

namespace Shipgrav

/-- The library functions that are called (lines 618–685). -/
structure ParkerLibm where
  fft : List ℚ → List (ℚ × ℚ)
  ifft : List (ℚ × ℚ) → List (ℚ × ℚ)
  exp : ℚ → ℚ
  sqrt : ℚ → ℚ
  pow : ℚ → ℕ → ℚ
  sum : List ℚ → ℚ

/-- A complex number times a real one: the imaginary part of the factor is zero, and its products change nothing.  Lines 676, 680. -/
def cmulF (z : ℚ × ℚ) (c : ℚ) : ℚ × ℚ := (toDouble (z.1 * c), toDouble (z.2 * c))

/-- The sum of two complex numbers.  Line 678. -/
def caddF (z w : ℚ × ℚ) : ℚ × ℚ := (toDouble (z.1 + w.1), toDouble (z.2 + w.2))

/-- Lines 662–667: `kwn1`. -/
def wavenumbers1dF (lm : ParkerLibm) (nxt : ℕ) (dx : ℚ) : List ℚ :=
  let k := toDouble (toDouble (2 * piF) / toDouble (nxt * dx))
  let k2 := lm.pow k 2
  let xi := mirrorIndices (halfIndices nxt)
  let xxk := xi.map fun (i : ℕ) => toDouble (toDouble (((i : ℚ) - 1) * (i - 1)) * k2)
  (xxk.take nxt).map lm.sqrt

/-- Lines 653–656; products with one are exact. -/
def padTopoF (topo : List ℚ) : List ℚ :=
  List.replicate (2 * topo.length) (topo.headD 0) ++ (topo ++ List.replicate (2 * topo.length) (topo.getLastD 0))

/-- One turn of the loop, lines 674–678.  numpy divides a complex number by a real one by multiplying with the reciprocal. -/
def parkerTerm1dF (lm : ParkerLibm) (pad kwn : List ℚ) (ip : ℕ) : List (ℚ × ℚ) :=
  List.zipWith (fun f k => cmulF (cmulF f (lm.pow k (ip - 1))) (toDouble (1 / ip.factorial))) (lm.fft (pad.map fun v => lm.pow v ip)) kwn

/-- Lines 669–678: `SUMtopo`. -/
def parkerSum1dF (lm : ParkerLibm) (pad kwn : List ℚ) : List (ℚ × ℚ) :=
  let ftopo := (lm.fft pad).set 0 (0, 0)
  [2, 3, 4, 5].foldl (fun sum ip => List.zipWith caddF sum (parkerTerm1dF lm pad kwn ip)) ftopo

/-- Lines 645–651, 680–682: `data` after the inverse transform. -/
def parkerData1dF (lm : ParkerLibm) (xtopo topo : List ℚ) (zlev rho : ℚ) : List (ℚ × ℚ) :=
  let G := toDouble (toDouble 6.673 * toDouble 1e-8)
  let grav := toDouble (toDouble (toDouble (2 * piF) * G) * rho)
  let baselev := toDouble (lm.sum topo / topo.length)
  let dx := toDouble (toDouble (xtopo.getLastD 0 - xtopo.headD 0) / (xtopo.length - 1))
  let pad := padTopoF topo
  let kwn := wavenumbers1dF lm pad.length dx
  let data := List.zipWith (fun s k => cmulF (cmulF s grav) (lm.exp (toDouble (-toDouble (zlev - baselev) * k)))) (parkerSum1dF lm pad kwn) kwn
  lm.ifft data

/-- `grav1d_padded` (lines 618–685).  Empty arrays raise. -/
def grav1dPaddedF (lm : ParkerLibm) (xtopo topo : List ℚ) (zlev rho : ℚ) : Except PyErr (List ℚ) :=
  if xtopo = [] then .error .indexError
  else if topo = [] then .error .indexError
  else
    let nx := xtopo.length
    .ok ((((parkerData1dF lm xtopo topo zlev rho).take (3 * nx)).drop (2 * nx)).map fun d => toDouble (d.1 * 100))

end Shipgrav
