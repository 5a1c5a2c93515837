import Verif.Model.Parker2dFloat

/-! Model of `grav2d_layer_variable_density` in double precision, `/repo/shipgrav/grav.py` lines 816–886.  Spacings that make a wavenumber infinite are left out, as in the exact
model. -/

namespace Shipgrav

/-- `_kvalue` (lines 860–886) for one axis: index `j` of `n`. -/
def kvalueF (j n : ℕ) (dk : ℚ) : ℚ := if 2 * j ≤ n + 2 then toDouble (j * dk) else toDouble (((j : ℚ) - n) * dk)

/-- A complex number divided by a real one, line 852: numpy multiplies with the reciprocal. -/
def cdivF (z : ℚ × ℚ) (c : ℚ) : ℚ × ℚ := cmulF z (toDouble (1 / c))

/-- `k` of line 848 at row `i` and column `j`. -/
def layerWavenumberF (lm : Parker2Libm) (ny nx : ℕ) (dy dx : ℚ) (i j : ℕ) : ℚ :=
  let dkx := toDouble (toDouble (2 * piF) / toDouble (nx * dx))
  let dky := toDouble (toDouble (2 * piF) / toDouble (ny * dy))
  let kx := kvalueF j nx dkx
  let ky := kvalueF i ny dky
  lm.sqrt (toDouble (lm.pow kx 2 + lm.pow ky 2))

/-- `grav2d_layer_variable_density` (lines 816–857). -/
def grav2dLayerF (lm : Parker2Libm) (rho : Mat ℚ) (dx dy z1 z2 : ℚ) : Mat ℚ :=
  let si2mg := 1e5
  let km2m := 1e3
  let G := toDouble 6.673e-11
  let grav := toDouble (toDouble (2 * piF) * G)
  let ny := rho.rows
  let nx := rho.cols
  let ifrho := lm.fft2 rho
  let crho : Mat (ℚ × ℚ) := ⟨ny, nx, fun i j =>
    let k := layerWavenumberF lm ny nx dy dx i j
    if k = 0 then (0, 0)
    else cdivF (cmulF (cmulF (ifrho.at' i j) grav) (toDouble (lm.exp (toDouble (-k * z1)) - lm.exp (toDouble (-k * z2))))) k⟩
  let grho := lm.ifft2 crho
  ⟨grho.rows, grho.cols, fun i j => toDouble (toDouble ((grho.at' i j).1 * si2mg) * km2m)⟩

end Shipgrav
