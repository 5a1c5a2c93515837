import Verif.Py.Fft
import Verif.Py.Core
import Mathlib.Analysis.SpecialFunctions.Sqrt

/-!
Downward continuation of gravity to crustal thickness (shipgrav/grav.py lines 1135–1256).  The residual is a list of real numbers; the column
vectors that are returned are lists of complex numbers.  The sizes are natural numbers and all scalars are Python floats.
-/

namespace Shipgrav
open Real

/-- Lines 1207–1218 for one axis: the number that is squared for index `i` of `n`; `i > n/2 + 1` compares with a float. -/
noncomputable def crustIndex (n i : ℕ) : ℝ := (if 2 * i > n + 2 then ((n : ℝ) / 2 + 1) * 2 - i else i) - 1

/-- Lines 1205–1218: wavenumber of bin `(i, j)`. -/
noncomputable def crustWavenumber (nx ny : ℕ) (kint1 kint2 : ℝ) (i j : ℕ) : ℝ :=
  √(kint1 ^ 2 * crustIndex nx i ^ 2 + kint2 ^ 2 * crustIndex ny j ^ 2)

open Classical in
/-- Lines 1228–1233: the taper. -/
noncomputable def crustWeight (kcut1 kcut2 k : ℝ) : ℝ :=
  if k > kcut2 then 0
  else if k > kcut1 ∧ k ≤ kcut2 then
    let t := (k - kcut1) / (kcut2 - kcut1) * π
    (cos t + 1) / 2
  else 1

/-- `.reshape(-1, 1)` as a list.  Lines 1242, 1253. -/
def flattenMat {α : Type} (m : Mat α) : List α := (List.range (m.rows * m.cols)).map fun p => m.at' (p / m.cols) (p % m.cols)

open Classical in
/-- `crustal_thickness_2D` (lines 1135–1256); the second result is returned with `back=True`.  Dividing the Python floats by zero raises: sizes,
spacing, density contrast, wavelengths. -/
noncomputable def crustalThickness2D (ur : List ℝ) (nx ny : ℕ) (dx dy zdown rho wlarge wsmall : ℝ) (back : Bool) :
    Except PyErr (List ℂ × Option (List ℂ)) :=
  if ¬ wlarge > wsmall then .error .assertionError
  else
    let ave := ur.sum / ur.length
    let ur := ur.map fun v => -0.001 * (v - ave)
    let dx := dx * 1e5
    let dy := dy * 1e5
    let zdown := zdown * 1e5
    let wlarge := wlarge * 1e5
    let wsmall := wsmall * 1e5
    if wlarge = 0 ∨ wsmall = 0 ∨ nx = 0 ∨ ny = 0 ∨ rho = 0 ∨ dx = 0 then .error .zeroDivisionError
    else
      let kcut1 := 2 * π / wlarge
      let kcut2 := 2 * π / wsmall
      let prod : ℝ := 1 / (nx * ny)
      let G := 6.673e-8
      let topo1 := 1 / (2 * π * G * rho)
      let kint1 := 2 * π / (nx * dx)
      let kint2 := if dy ≠ 0 then 2 * π / (ny * dy) else 0
      if ur.length ≠ nx * ny then .error .valueError
      else
        let ft := fft2 ⟨nx, ny, fun i j => (ur.getD (i * ny + j) 0 : ℂ)⟩
        let ft : Mat ℂ := ⟨nx, ny, fun i j =>
          let k := crustWavenumber nx ny kint1 kint2 i j
          ft.at' i j * (exp (k * zdown) : ℝ) * (topo1 : ℝ) * (crustWeight kcut1 kcut2 k : ℝ)⟩
        let thick := (flattenMat (fft2 ft)).map fun (v : ℂ) => v * (prod : ℝ) / (1e5 : ℝ)
        if back then
          let ft : Mat ℂ := ⟨nx, ny, fun i j => -ft.at' i j * (exp (-crustWavenumber nx ny kint1 kint2 i j * zdown) : ℝ) / (topo1 : ℝ)⟩
          let grav := (flattenMat (fft2 ft)).map fun (v : ℂ) => v * (prod : ℝ) * 1000 + (ave : ℝ)
          .ok (thick.reverse, some grav.reverse)
        else .ok (thick, none)

end Shipgrav
