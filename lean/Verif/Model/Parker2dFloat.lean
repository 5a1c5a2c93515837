import Verif.Model.Parker2d
import Verif.Model.Parker1dFloat

/-! Model of `grav2d_folding` in double precision, `/repo/shipgrav/grav.py` lines 688–813: every addition, subtraction, multiplication and division is rounded; complex numbers
are pairs.  Fourier transforms, powers, exponential, square root and the sum inside `np.mean` are those of a library.  Grids are those of the exact model. -/

namespace Shipgrav

/-- The library functions that are called (lines 688–813). -/
structure Parker2Libm where
  fft2 : Mat ℚ → Mat (ℚ × ℚ)
  ifft2 : Mat (ℚ × ℚ) → Mat (ℚ × ℚ)
  exp : ℚ → ℚ
  sqrt : ℚ → ℚ
  pow : ℚ → ℕ → ℚ
  sum : List ℚ → ℚ

/-- Lines 751–754, 770 and 774; the squares of the indices are integers. -/
def squaredWavenumbersF (n : ℕ) (d : ℚ) : List ℚ :=
  let kint := toDouble (toDouble (2 * piF) / toDouble (n * d))
  (foldIndices n).map fun (i : ℕ) => toDouble ((((i : ℚ) - 1) * (i - 1)) * toDouble (kint * kint))

/-- Lines 751–780. -/
def wavenumbers2dF (lm : Parker2Libm) (nxt nyt : ℕ) (dx dy : ℚ) : Except PyErr (Mat ℚ) :=
  let yyk := squaredWavenumbersF nyt dy
  let xxk := squaredWavenumbersF nxt dx
  if toDouble (nxt * dx) = 0 ∨ toDouble (nyt * dy) = 0 then .error .zeroDivisionError
  else if xxk.length ≠ nxt then .error .valueError
  else if yyk.length < nyt then .error .indexError
  else .ok ⟨nyt, nxt, fun j i => lm.sqrt (toDouble (xxk.getD i 0 + yyk.getD j 0))⟩

/-- `Z.flatten()`.  Line 728. -/
def flattenF (Z : Mat ℚ) : List ℚ := (List.range Z.rows).flatMap fun i => (List.range Z.cols).map fun j => Z.at' i j

/-- `np.mean`, line 728. -/
def matMeanF (lm : Parker2Libm) (Z : Mat ℚ) : ℚ := toDouble (lm.sum (flattenF Z) / ((Z.rows * Z.cols : ℕ) : ℚ))

/-- One turn of the loop, lines 795–802. -/
def parkerTerm2dF (lm : Parker2Libm) (Z kwn : Mat ℚ) (i fact : ℕ) : Mat (ℚ × ℚ) :=
  let data := lm.fft2 ⟨Z.rows, Z.cols, fun a b => lm.pow (Z.at' a b) i⟩
  ⟨Z.rows, Z.cols, fun a b =>
    if kwn.at' a b = 0 then (0, 0) else cmulF (cmulF (data.at' a b) (lm.pow (kwn.at' a b) (i - 1))) (toDouble (1 / fact))⟩

/-- The loop of lines 793–804. -/
def parkerLoop2dF (lm : Parker2Libm) (Z kwn : Mat ℚ) : ℕ → ℕ → ℕ → Mat (ℚ × ℚ) → Mat (ℚ × ℚ)
  | 0, _, _, csum => csum
  | n + 1, i, fact, csum =>
    let fact := fact * i
    let data := parkerTerm2dF lm Z kwn i fact
    parkerLoop2dF lm Z kwn n (i + 1) fact ⟨csum.rows, csum.cols, fun a b => caddF (csum.at' a b) (data.at' a b)⟩

/-- Lines 787–804: `csum`. -/
def parkerSum2dF (lm : Parker2Libm) (Z kwn : Mat ℚ) (npower : ℕ) : Mat (ℚ × ℚ) :=
  let data := lm.fft2 Z
  let data : Mat (ℚ × ℚ) := ⟨data.rows, data.cols, fun a b => if a = 0 ∧ b = 0 then (0, 0) else data.at' a b⟩
  parkerLoop2dF lm Z kwn (npower - 1) 2 1 data

/-- Lines 787–810: `data` after the inverse transform. -/
def parkerData2dF (lm : Parker2Libm) (Z kwn : Mat ℚ) (grav zlev : ℚ) (npower : ℕ) : Mat (ℚ × ℚ) :=
  let csum := parkerSum2dF lm Z kwn npower
  lm.ifft2 ⟨csum.rows, csum.cols, fun a b => cmulF (cmulF (csum.at' a b) grav) (lm.exp (toDouble (-zlev * kwn.at' a b)))⟩

/-- `grav2d_folding` (lines 688–813). -/
def grav2dFoldingF (lm : Parker2Libm) (nx ny : ℕ) (Z : Mat ℚ) (dx dy drho dz : ℚ) (ifold : Bool) (npower : ℕ) : Except PyErr (Mat ℚ) :=
  if Z.rows = 0 ∨ Z.cols = 0 then .error .valueError
  else
    let slev := matMeanF lm Z
    let Z : Mat ℚ := ⟨Z.rows, Z.cols, fun i j => toDouble (100 * toDouble (slev - Z.at' i j))⟩
    let slev := toDouble (slev * 100)
    let dx := toDouble (100000 * dx)
    let dy := toDouble (100000 * dy)
    let dz := toDouble (dz * 100)
    let nxt := if ifold then nx * 2 else nx
    let nyt := if ifold then ny * 2 else ny
    let G := toDouble 6.673e-8
    let conv := 1000
    let grav := toDouble (toDouble (toDouble (toDouble (2 * piF) * G) * conv) * drho)
    match wavenumbers2dF lm nxt nyt dx dy with
    | .error e => .error e
    | .ok kwn =>
      let Z := if ifold then foldGrid Z else Z
      if Z.rows ≠ kwn.rows ∨ Z.cols ≠ kwn.cols then .error .valueError
      else
        let data := parkerData2dF lm Z kwn grav (toDouble (slev + dz)) npower
        .ok ⟨min ny data.rows, min nx data.cols, fun i j => (data.at' i j).1⟩

end Shipgrav
