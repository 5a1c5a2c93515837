import Verif.Py.Core
import Verif.Py.Fft

/-! Model of `grav2d_folding` (`/repo/shipgrav/grav.py` lines 688–813), `grav2d_layer_variable_density` (816–857) and `_kvalue` (860–886).

Floats are real and complex numbers; grid spacings of the layer are nonzero.  Broadcasting of axes of length one in `data*kwn1` is left out: a
grid whose shape differs from that of the wavenumbers raises. -/

namespace Shipgrav
open Real

/-- Lines 757–758, 768–769 and 772–773: `np.arange(1, mf+1)` followed by `[mf-2:0:-1]`, `mf = int(n/2 + 1)`. -/
def foldIndices (n : ℕ) : List ℕ :=
  let mf := n / 2 + 1
  let xi1 := (List.range mf).map (· + 1)
  xi1 ++ ((xi1.take (mf - 1)).drop 1).reverse

/-- `(xi-1)*(xi-1)*k2` (lines 770, 774). -/
noncomputable def squaredWavenumbers (n : ℕ) (d : ℝ) : List ℝ :=
  let kint := (2 * π) / (n * d)
  (foldIndices n).map fun (i : ℕ) => ((i : ℝ) - 1) * (i - 1) * (kint * kint)

open Classical in
/-- Lines 751–780.  Division by zero raises (the spacings are Python floats); the loop over columns raises where a column does not fit or
`yyk` is too short; then the transpose. -/
noncomputable def wavenumbers2d (nxt nyt : ℕ) (dx dy : ℝ) : Except PyErr (Mat ℝ) :=
  let yyk := squaredWavenumbers nyt dy
  let xxk := squaredWavenumbers nxt dx
  if nxt * dx = 0 ∨ nyt * dy = 0 then .error .zeroDivisionError
  else if xxk.length ≠ nxt then .error .valueError
  else if yyk.length < nyt then .error .indexError
  else .ok ⟨nyt, nxt, fun j i => √(xxk.getD i 0 + yyk.getD j 0)⟩

/-- Lines 783–785: `vstack` with `flipud`, `hstack` with `fliplr`. -/
def foldGrid {α : Type} (Z : Mat α) : Mat α :=
  let V : Mat α := ⟨2 * Z.rows, Z.cols, fun i j => if i < Z.rows then Z.at' i j else Z.at' (2 * Z.rows - 1 - i) j⟩
  ⟨V.rows, 2 * V.cols, fun i j => if j < V.cols then V.at' i j else V.at' i (2 * V.cols - 1 - j)⟩

/-- Mean of all entries.  Line 728. -/
noncomputable def matMean (Z : Mat ℝ) : ℝ :=
  (∑ i ∈ Finset.range Z.rows, ∑ j ∈ Finset.range Z.cols, Z.at' i j) / (Z.rows * Z.cols)

/-- One turn of the loop, lines 795–802. -/
noncomputable def parkerTerm2d (Z kwn : Mat ℝ) (i fact : ℕ) : Mat ℂ :=
  let data := fft2 ⟨Z.rows, Z.cols, fun a b => ((Z.at' a b ^ i : ℝ) : ℂ)⟩
  ⟨Z.rows, Z.cols, fun a b => open Classical in
    if kwn.at' a b = 0 then 0 else data.at' a b * ((kwn.at' a b ^ (i - 1) : ℝ) : ℂ) / (fact : ℂ)⟩

/-- The loop of lines 793–804: `i = 2, …, npower`, `fact` grows along. -/
noncomputable def parkerLoop2d (Z kwn : Mat ℝ) : ℕ → ℕ → ℕ → Mat ℂ → Mat ℂ
  | 0, _, _, csum => csum
  | n + 1, i, fact, csum =>
    let fact := fact * i
    let data := parkerTerm2d Z kwn i fact
    parkerLoop2d Z kwn n (i + 1) fact ⟨csum.rows, csum.cols, fun a b => csum.at' a b + data.at' a b⟩

/-- Lines 787–804: `csum`. -/
noncomputable def parkerSum2d (Z kwn : Mat ℝ) (npower : ℕ) : Mat ℂ :=
  let data := fft2 ⟨Z.rows, Z.cols, fun a b => (Z.at' a b : ℂ)⟩
  let data : Mat ℂ := ⟨data.rows, data.cols, fun a b => if a = 0 ∧ b = 0 then 0 else data.at' a b⟩
  parkerLoop2d Z kwn (npower - 1) 2 1 data

/-- Lines 787–810 with the scaled and folded grid: `data` after the inverse transform. -/
noncomputable def parkerData2d (Z kwn : Mat ℝ) (grav zlev : ℝ) (npower : ℕ) : Mat ℂ :=
  let csum := parkerSum2d Z kwn npower
  ifft2 ⟨csum.rows, csum.cols, fun a b => csum.at' a b * (grav : ℂ) * ((exp (-zlev * kwn.at' a b) : ℝ) : ℂ)⟩

/-- `grav2d_folding` (lines 688–813); `nx = len(X)`, `ny = len(Y)`.  The maximum of an empty grid raises (line 721). -/
noncomputable def grav2dFolding (nx ny : ℕ) (Z : Mat ℝ) (dx dy drho dz : ℝ) (ifold : Bool) (npower : ℕ) : Except PyErr (Mat ℝ) :=
  if Z.rows = 0 ∨ Z.cols = 0 then .error .valueError
  else
    let slev := matMean Z
    let Z : Mat ℝ := ⟨Z.rows, Z.cols, fun i j => 100 * (slev - Z.at' i j)⟩
    let slev := slev * 100
    let dx := 100000 * dx
    let dy := 100000 * dy
    let dz := dz * 100
    let nxt := if ifold then nx * 2 else nx
    let nyt := if ifold then ny * 2 else ny
    let G := 6.673e-8
    let conv := 1000
    let grav := 2 * π * G * conv * drho
    match wavenumbers2d nxt nyt dx dy with
    | .error e => .error e
    | .ok kwn =>
      let Z := if ifold then foldGrid Z else Z
      if Z.rows ≠ kwn.rows ∨ Z.cols ≠ kwn.cols then .error .valueError
      else
        let data := parkerData2d Z kwn grav (slev + dz) npower
        .ok ⟨min ny data.rows, min nx data.cols, fun i j => (data.at' i j).re⟩

/-- `_kvalue` (lines 860–886) for one axis: index `j` of `n`.  `j <= n/2+1` compares with a float. -/
noncomputable def kvalue (j n : ℕ) (dk : ℝ) : ℝ := if 2 * j ≤ n + 2 then j * dk else ((j : ℝ) - n) * dk

open Classical in
/-- `grav2d_layer_variable_density` (lines 816–857). -/
noncomputable def grav2dLayer (rho : Mat ℝ) (dx dy z1 z2 : ℝ) : Mat ℝ :=
  let si2mg := 1e5
  let km2m := 1e3
  let G := 6.673e-11
  let grav := 2 * π * G
  let ny := rho.rows
  let nx := rho.cols
  let dkx := 2 * π / (nx * dx)
  let dky := 2 * π / (ny * dy)
  let ifrho := fft2 ⟨ny, nx, fun i j => (rho.at' i j : ℂ)⟩
  let crho : Mat ℂ := ⟨ny, nx, fun i j =>
    let kx := kvalue j nx dkx
    let ky := kvalue i ny dky
    let k := √(kx ^ 2 + ky ^ 2)
    if k = 0 then 0 else ifrho.at' i j * (grav : ℂ) * ((exp (-k * z1) - exp (-k * z2) : ℝ) : ℂ) / (k : ℂ)⟩
  let grho := ifft2 crho
  ⟨ny, nx, fun i j => (grho.at' i j).re * si2mg * km2m⟩

end Shipgrav
