import Verif.Py.Core
import Verif.Py.Fft

/-! Model of `grav1d_padded`, `/repo/shipgrav/grav.py` lines 618–685.

Floats are real and complex numbers; `xtopo` has at least two points that span a nonzero distance (otherwise numpy goes on with NaN or
infinite wavenumbers). -/

namespace Shipgrav
open Real

/-- `np.arange(1, mfx+1)` with `mfx = nxt/2. + 1` (lines 660, 664), as integers: `⌈mfx⌉` numbers. -/
def halfIndices (nxt : ℕ) : List ℕ := (List.range ((nxt + 1) / 2 + 1)).map (· + 1)

/-- `np.append(xi1, xi1[-2:0:-1])` (line 665), for at least two entries. -/
def mirrorIndices (xi1 : List ℕ) : List ℕ := xi1 ++ ((xi1.take (xi1.length - 1)).drop 1).reverse

/-- Lines 662–667: `kwn1`. -/
noncomputable def wavenumbers1d (nxt : ℕ) (dx : ℝ) : List ℝ :=
  let k := (2 * π) / (nxt * dx)
  let k2 := k ^ 2
  let xi := mirrorIndices (halfIndices nxt)
  let xxk := xi.map fun (i : ℕ) => ((i : ℝ) - 1) * (i - 1) * k2
  (xxk.take nxt).map (√·)

/-- Lines 653–656: the profile, extended by twice its length on both sides. -/
def padTopo (topo : List ℝ) : List ℝ :=
  List.replicate (2 * topo.length) (topo.headD 0) ++ (topo ++ List.replicate (2 * topo.length) (topo.getLastD 0))

/-- One turn of the loop, lines 674–678. -/
noncomputable def parkerTerm1d (pad kwn : List ℝ) (ip : ℕ) : List ℂ :=
  List.zipWith (fun (f : ℂ) (k : ℝ) => f * ((k ^ (ip - 1) : ℝ) : ℂ) / (ip.factorial : ℂ)) (fft (pad.map fun v => ((v ^ ip : ℝ) : ℂ))) kwn

/-- Lines 669–678: `SUMtopo`. -/
noncomputable def parkerSum1d (pad kwn : List ℝ) : List ℂ :=
  let ftopo := (fft (pad.map fun (v : ℝ) => (v : ℂ))).set 0 0
  [2, 3, 4, 5].foldl (fun sum ip => List.zipWith (· + ·) sum (parkerTerm1d pad kwn ip)) ftopo

/-- Lines 645–651, 680–682: `data` after the inverse transform. -/
noncomputable def parkerData1d (xtopo topo : List ℝ) (zlev rho : ℝ) : List ℂ :=
  let G : ℝ := 6.673 * 1e-8
  let grav := 2 * π * G * rho
  let baselev := topo.sum / topo.length
  let dx := (xtopo.getLastD 0 - xtopo.headD 0) / (xtopo.length - 1)
  let pad := padTopo topo
  let kwn := wavenumbers1d pad.length dx
  let data := List.zipWith (fun (s : ℂ) (k : ℝ) => s * (grav : ℂ) * ((exp (-(zlev - baselev) * k) : ℝ) : ℂ)) (parkerSum1d pad kwn) kwn
  ifft data

/-- `grav1d_padded` (lines 618–685).  Empty arrays raise. -/
noncomputable def grav1dPadded (xtopo topo : List ℝ) (zlev rho : ℝ) : Except PyErr (List ℝ) :=
  if xtopo = [] then .error .indexError
  else if topo = [] then .error .indexError
  else
    let nx := xtopo.length
    .ok ((((parkerData1d xtopo topo zlev rho).take (3 * nx)).drop (2 * nx)).map fun d => d.re * 100)

end Shipgrav
