import Verif.Lemmas.Parker2d
import Mathlib.Analysis.Real.Pi.Bounds

/-! Property theorems C70 and C71: gravity of a surface. -/

namespace Shipgrav
open Spec

/-- What the call does with grids of the right shape. -/
private theorem folding_eq (nx ny : ℕ) (hnx : 0 < nx) (hny : 0 < ny) (h : ℕ → ℕ → ℝ) (dx dy drho dz : ℝ) (hdx : dx ≠ 0) (hdy : dy ≠ 0)
    (npower : ℕ) (ifold : Bool) (hx : ifold = false → nx % 2 = 0 ∨ nx = 1) (hy : ifold = false → ny % 2 = 0 ∨ ny = 1) :
    ∃ R, grav2dFolding nx ny ⟨ny, nx, h⟩ dx dy drho dz ifold npower = .ok R ∧ R.rows = ny ∧ R.cols = nx ∧
      ∀ i < ny, ∀ j < nx, R.at' i j =
        let M := if ifold then 2 * ny else ny
        let N := if ifold then 2 * nx else nx
        let depth := fun a b => 100 * (gridMean ny nx h - h a b)
        parkerGrid M N (gridWavenumber M N (100000 * dy) (100000 * dx)) (100 * (gridMean ny nx h + dz))
          (2 * Real.pi * 6.673e-8 * 1000 * drho) (max 1 npower) (if ifold then mirrored ny nx depth else depth) i j := by
  have hdx' : 100000 * dx ≠ 0 := mul_ne_zero (by norm_num) hdx
  have hdy' : 100000 * dy ≠ 0 := mul_ne_zero (by norm_num) hdy
  have hmean : matMean ⟨ny, nx, h⟩ = gridMean ny nx h := rfl
  cases ifold with
  | true =>
    obtain ⟨kwn, hk, hr, hc, hv⟩ := wavenumbers2d_ok (nx * 2) (ny * 2) (100000 * dx) (100000 * dy) (by omega) (by omega) hdx' hdy'
      (Or.inl (by omega)) (Or.inl (by omega))
    obtain ⟨Z, hZ⟩ : ∃ Z : Mat ℝ, Z = foldGrid ⟨ny, nx, fun i j => 100 * (gridMean ny nx h - h i j)⟩ := ⟨_, rfl⟩
    have hZr : Z.rows = 2 * ny := by rw [hZ]; rfl
    have hZc : Z.cols = 2 * nx := by rw [hZ]; rfl
    have hZa : Z.at' = mirrored ny nx (fun a b => 100 * (gridMean ny nx h - h a b)) := by
      rw [hZ]; unfold foldGrid mirrored
      funext a b
      simp only
      split <;> split <;> rfl
    refine ⟨?R, ?a, ?b, ?c, ?d⟩
    case a =>
      unfold grav2dFolding
      simp only [hmean]
      rw [if_neg (by omega)]
      simp only [if_true, hk, ← hZ]
      rw [if_neg (by rw [hZr, hZc, hr, hc]; omega)]
    · simp only [parkerData2d, ifft2]
      rw [(parkerSum2d_eq Z kwn kwn.at' npower (fun _ _ _ _ => rfl) ?_).1, hZr]
      · omega
      · intro k hk' l hl'
        rw [hv k (by omega) l (by omega)]
        exact gridWavenumber_zero _ _ _ _ hdx' hdy' k l (by omega) (by omega)
    · simp only [parkerData2d, ifft2]
      rw [(parkerSum2d_eq Z kwn kwn.at' npower (fun _ _ _ _ => rfl) ?_).2.1, hZc]
      · omega
      · intro k hk' l hl'
        rw [hv k (by omega) l (by omega)]
        exact gridWavenumber_zero _ _ _ _ hdx' hdy' k l (by omega) (by omega)
    · intro i _ j _
      simp only
      rw [parkerData2d_eq Z kwn (gridWavenumber (2 * ny) (2 * nx) (100000 * dy) (100000 * dx)), Complex.ofReal_re, hZr, hZc, hZa]
      · simp only [if_true]
        rw [show gridMean ny nx h * 100 + dz * 100 = 100 * (gridMean ny nx h + dz) by ring]
      · intro k hk' l hl'
        rw [hv k (by omega) l (by omega), mul_comm ny, mul_comm nx]
      · intro k hk' l hl'
        exact gridWavenumber_zero _ _ _ _ hdx' hdy' k l (by omega) (by omega)
      · intro k l h1 h2
        rw [hZr] at h2 ⊢
        exact (gridWavenumber_symm _ _ _ _ k l).1 h1 h2
      · intro k l h1 h2
        rw [hZc] at h2 ⊢
        exact (gridWavenumber_symm _ _ _ _ k l).2 h1 h2
  | false =>
    obtain ⟨kwn, hk, hr, hc, hv⟩ := wavenumbers2d_ok nx ny (100000 * dx) (100000 * dy) hnx hny hdx' hdy' (hx rfl) (hy rfl)
    obtain ⟨Z, hZ⟩ : ∃ Z : Mat ℝ, Z = ⟨ny, nx, fun i j => 100 * (gridMean ny nx h - h i j)⟩ := ⟨_, rfl⟩
    have hZr : Z.rows = ny := by rw [hZ]
    have hZc : Z.cols = nx := by rw [hZ]
    have hZa : Z.at' = (fun a b => 100 * (gridMean ny nx h - h a b)) := by rw [hZ]
    refine ⟨?R2, ?a2, ?b2, ?c2, ?d2⟩
    case a2 =>
      unfold grav2dFolding
      simp only [hmean]
      rw [if_neg (by omega)]
      simp only [Bool.false_eq_true, if_false, hk, ← hZ]
      rw [if_neg (by rw [hZr, hZc, hr, hc]; omega)]
    · simp only [parkerData2d, ifft2]
      rw [(parkerSum2d_eq Z kwn kwn.at' npower (fun _ _ _ _ => rfl) ?_).1, hZr]
      · omega
      · intro k hk' l hl'
        rw [hv k (by omega) l (by omega)]
        exact gridWavenumber_zero _ _ _ _ hdx' hdy' k l (by omega) (by omega)
    · simp only [parkerData2d, ifft2]
      rw [(parkerSum2d_eq Z kwn kwn.at' npower (fun _ _ _ _ => rfl) ?_).2.1, hZc]
      · omega
      · intro k hk' l hl'
        rw [hv k (by omega) l (by omega)]
        exact gridWavenumber_zero _ _ _ _ hdx' hdy' k l (by omega) (by omega)
    · intro i _ j _
      simp only
      rw [parkerData2d_eq Z kwn (gridWavenumber ny nx (100000 * dy) (100000 * dx)), Complex.ofReal_re, hZr, hZc, hZa]
      · simp only [Bool.false_eq_true, if_false]
        rw [show gridMean ny nx h * 100 + dz * 100 = 100 * (gridMean ny nx h + dz) by ring]
      · intro k hk' l hl'
        rw [hv k (by omega) l (by omega)]
      · intro k hk' l hl'
        exact gridWavenumber_zero _ _ _ _ hdx' hdy' k l (by omega) (by omega)
      · intro k l h1 h2
        rw [hZr] at h2 ⊢
        exact (gridWavenumber_symm _ _ _ _ k l).1 h1 h2
      · intro k l h1 h2
        rw [hZc] at h2 ⊢
        exact (gridWavenumber_symm _ _ _ _ k l).2 h1 h2

/-- **C71.** The anomaly of a grid with folding: Parker's series for the grid continued by mirror images, in cm, seen from `dz` above the
mean depth. -/
theorem C71_value_folded (nx ny : ℕ) (hnx : 0 < nx) (hny : 0 < ny) (h : ℕ → ℕ → ℝ) (dx dy drho dz : ℝ) (hdx : dx ≠ 0) (hdy : dy ≠ 0)
    (npower : ℕ) :
    ∃ R, grav2dFolding nx ny ⟨ny, nx, h⟩ dx dy drho dz true npower = .ok R ∧ R.rows = ny ∧ R.cols = nx ∧
      ∀ i < ny, ∀ j < nx, R.at' i j =
        parkerGrid (2 * ny) (2 * nx) (gridWavenumber (2 * ny) (2 * nx) (100000 * dy) (100000 * dx)) (100 * (gridMean ny nx h + dz))
          (2 * Real.pi * 6.673e-8 * 1000 * drho) (max 1 npower) (mirrored ny nx fun a b => 100 * (gridMean ny nx h - h a b)) i j :=
  folding_eq nx ny hnx hny h dx dy drho dz hdx hdy npower true (by simp) (by simp)

/-- **C71.** The same without folding, for even dimensions (or 1): the grid itself repeats. -/
theorem C71_value_unfolded (nx ny : ℕ) (hnx : 0 < nx) (hny : 0 < ny) (h : ℕ → ℕ → ℝ) (dx dy drho dz : ℝ) (hdx : dx ≠ 0) (hdy : dy ≠ 0)
    (npower : ℕ) (hx : Even nx ∨ nx = 1) (hy : Even ny ∨ ny = 1) :
    ∃ R, grav2dFolding nx ny ⟨ny, nx, h⟩ dx dy drho dz false npower = .ok R ∧ R.rows = ny ∧ R.cols = nx ∧
      ∀ i < ny, ∀ j < nx, R.at' i j =
        parkerGrid ny nx (gridWavenumber ny nx (100000 * dy) (100000 * dx)) (100 * (gridMean ny nx h + dz))
          (2 * Real.pi * 6.673e-8 * 1000 * drho) (max 1 npower) (fun a b => 100 * (gridMean ny nx h - h a b)) i j :=
  folding_eq nx ny hnx hny h dx dy drho dz hdx hdy npower false (fun _ => hx.imp_left Nat.even_iff.mp) (fun _ => hy.imp_left Nat.even_iff.mp)

/-- **C70.** With folding every non-empty grid of shape `(len(Y), len(X))` works and gives that shape. -/
theorem C70_folded_shape (Z : Mat ℝ) (hr : 0 < Z.rows) (hc : 0 < Z.cols) (dx dy drho dz : ℝ) (hdx : dx ≠ 0) (hdy : dy ≠ 0) (npower : ℕ) :
    ∃ R, grav2dFolding Z.cols Z.rows Z dx dy drho dz true npower = .ok R ∧ R.rows = Z.rows ∧ R.cols = Z.cols := by
  obtain ⟨M, N, h⟩ := Z
  obtain ⟨R, h1, h2, h3, _⟩ := C71_value_folded N M hc hr h dx dy drho dz hdx hdy npower
  exact ⟨R, h1, h2, h3⟩

/-- **C70.** Every other shape raises, in particular the `N × M` shape of the documentation when the numbers differ. -/
theorem C70_folded_wrong_shape (nx ny : ℕ) (hnx : 0 < nx) (hny : 0 < ny) (Z : Mat ℝ) (dx dy drho dz : ℝ) (hdx : dx ≠ 0) (hdy : dy ≠ 0)
    (npower : ℕ) (hZ : Z.rows ≠ ny ∨ Z.cols ≠ nx) :
    grav2dFolding nx ny Z dx dy drho dz true npower = .error .valueError := by
  unfold grav2dFolding
  by_cases h0 : Z.rows = 0 ∨ Z.cols = 0
  · rw [if_pos h0]
  · rw [if_neg h0]
    obtain ⟨kwn, hk, hr, hc, _⟩ := wavenumbers2d_ok (nx * 2) (ny * 2) (100000 * dx) (100000 * dy) (by omega) (by omega)
      (mul_ne_zero (by norm_num) hdx) (mul_ne_zero (by norm_num) hdy) (Or.inl (by omega)) (Or.inl (by omega))
    simp only [if_true, hk]
    rw [if_pos]
    simp only [foldGrid, hr, hc]
    omega

/-- **C70.** Without folding an odd number of columns greater than 1 raises, whatever the grid. -/
theorem C70_unfolded_odd_columns (nx ny : ℕ) (hnx : Odd nx) (h1 : nx ≠ 1) (hny : 0 < ny) (Z : Mat ℝ) (dx dy drho dz : ℝ) (hdx : dx ≠ 0) (hdy : dy ≠ 0)
    (npower : ℕ) : grav2dFolding nx ny Z dx dy drho dz false npower = .error .valueError := by
  unfold grav2dFolding
  by_cases h0 : Z.rows = 0 ∨ Z.cols = 0
  · rw [if_pos h0]
  · rw [if_neg h0]
    have hn : 0 < nx := hnx.pos
    have hw : wavenumbers2d nx ny (100000 * dx) (100000 * dy) = .error .valueError := by
      unfold wavenumbers2d
      simp only
      have hxr : (nx : ℝ) ≠ 0 := by exact_mod_cast hn.ne'
      have hyr : (ny : ℝ) ≠ 0 := by exact_mod_cast hny.ne'
      rw [if_neg (by simp [hxr, hyr, hdx, hdy]), if_pos]
      unfold squaredWavenumbers
      simp only [List.length_map]
      rw [foldIndices_length nx hn, if_neg]
      · omega
      · have := Nat.odd_iff.mp hnx; omega
    simp [hw]

/-- **C70.** Without folding an odd number of rows greater than 1 raises, whatever the grid. -/
theorem C70_unfolded_odd_rows (nx ny : ℕ) (hnx : 0 < nx) (hny : Odd ny) (h1 : ny ≠ 1) (Z : Mat ℝ) (dx dy drho dz : ℝ) (hdx : dx ≠ 0) (hdy : dy ≠ 0)
    (npower : ℕ) :
    grav2dFolding nx ny Z dx dy drho dz false npower = .error .valueError ∨
      grav2dFolding nx ny Z dx dy drho dz false npower = .error .indexError := by
  unfold grav2dFolding
  by_cases h0 : Z.rows = 0 ∨ Z.cols = 0
  · left; rw [if_pos h0]
  · rw [if_neg h0]
    have hn : 0 < ny := hny.pos
    have hw : wavenumbers2d nx ny (100000 * dx) (100000 * dy) = .error .valueError ∨
        wavenumbers2d nx ny (100000 * dx) (100000 * dy) = .error .indexError := by
      unfold wavenumbers2d
      simp only
      have hxr : (nx : ℝ) ≠ 0 := by exact_mod_cast hnx.ne'
      have hyr : (ny : ℝ) ≠ 0 := by exact_mod_cast hn.ne'
      rw [if_neg (by simp [hxr, hyr, hdx, hdy])]
      split
      · left; rfl
      · right
        rw [if_pos]
        unfold squaredWavenumbers
        simp only [List.length_map]
        rw [foldIndices_length ny hn, if_neg]
        · omega
        · have := Nat.odd_iff.mp hny; omega
    rcases hw with hw | hw <;> simp [hw]

private theorem parkerGrid_zero (M N : ℕ) (κ : ℕ → ℕ → ℝ) (c g : ℝ) (P i j : ℕ) : parkerGrid M N κ c g P (fun _ _ => 0) i j = 0 := by
  unfold parkerGrid
  rw [mul_eq_zero]; right
  apply Finset.sum_eq_zero
  intro k _
  apply Finset.sum_eq_zero
  intro l _
  split
  · rfl
  · rw [mul_eq_zero]; right
    apply Finset.sum_eq_zero
    intro p hp
    have : p ≠ 0 := by have := (Finset.mem_Icc.mp hp).1; omega
    rw [mul_eq_zero]; right
    apply Finset.sum_eq_zero
    intro a _
    apply Finset.sum_eq_zero
    intro b _
    rw [zero_pow this, zero_mul]

/-- **C71.** A flat surface gives zero everywhere, with and without folding. -/
theorem C71_flat (nx ny : ℕ) (hnx : 0 < nx) (hny : 0 < ny) (z : ℝ) (dx dy drho dz : ℝ) (npower : ℕ) (ifold : Bool) (R : Mat ℝ)
    (hdx : dx ≠ 0) (hdy : dy ≠ 0) (hx : ifold = false → Even nx ∨ nx = 1) (hy : ifold = false → Even ny ∨ ny = 1)
    (hR : grav2dFolding nx ny ⟨ny, nx, fun _ _ => z⟩ dx dy drho dz ifold npower = .ok R) : ∀ i < ny, ∀ j < nx, R.at' i j = 0 := by
  obtain ⟨R', h1, _, _, hv⟩ := folding_eq nx ny hnx hny (fun _ _ => z) dx dy drho dz hdx hdy npower ifold
    (fun h => (hx h).imp_left Nat.even_iff.mp) (fun h => (hy h).imp_left Nat.even_iff.mp)
  rw [hR] at h1
  injection h1 with h1
  subst h1
  intro i hi j hj
  rw [hv i hi j hj]
  have hm : gridMean ny nx (fun _ _ => z) = z := by
    unfold gridMean
    have hxr : (nx : ℝ) ≠ 0 := by exact_mod_cast hnx.ne'
    have hyr : (ny : ℝ) ≠ 0 := by exact_mod_cast hny.ne'
    simp only [Finset.sum_const, Finset.card_range, nsmul_eq_mul]
    field_simp
  simp only [hm, sub_self, mul_zero]
  have hmir : mirrored ny nx (fun _ _ => (0 : ℝ)) = fun _ _ => 0 := rfl
  rw [hmir, ite_self]
  exact parkerGrid_zero _ _ _ _ _ _ _ _

/-- **C71.** The anomaly is linear in the density contrast, with and without folding. -/
theorem C71_linear (nx ny : ℕ) (hnx : 0 < nx) (hny : 0 < ny) (h : ℕ → ℕ → ℝ) (dx dy r₁ r₂ s t dz : ℝ) (npower : ℕ) (ifold : Bool) (hdx : dx ≠ 0) (hdy : dy ≠ 0)
    (hx : ifold = false → Even nx ∨ nx = 1) (hy : ifold = false → Even ny ∨ ny = 1) :
    ∃ R₁ R₂ R, grav2dFolding nx ny ⟨ny, nx, h⟩ dx dy r₁ dz ifold npower = .ok R₁ ∧
      grav2dFolding nx ny ⟨ny, nx, h⟩ dx dy r₂ dz ifold npower = .ok R₂ ∧
      grav2dFolding nx ny ⟨ny, nx, h⟩ dx dy (s * r₁ + t * r₂) dz ifold npower = .ok R ∧
      ∀ i < ny, ∀ j < nx, R.at' i j = s * R₁.at' i j + t * R₂.at' i j := by
  cases ifold
  · obtain ⟨R₁, a₁, _, _, v₁⟩ := C71_value_unfolded nx ny hnx hny h dx dy r₁ dz hdx hdy npower (hx rfl) (hy rfl)
    obtain ⟨R₂, a₂, _, _, v₂⟩ := C71_value_unfolded nx ny hnx hny h dx dy r₂ dz hdx hdy npower (hx rfl) (hy rfl)
    obtain ⟨R, a, _, _, v⟩ := C71_value_unfolded nx ny hnx hny h dx dy (s * r₁ + t * r₂) dz hdx hdy npower (hx rfl) (hy rfl)
    refine ⟨R₁, R₂, R, a₁, a₂, a, fun i hi j hj => ?_⟩
    rw [v i hi j hj, v₁ i hi j hj, v₂ i hi j hj]
    unfold parkerGrid
    ring
  · obtain ⟨R₁, a₁, _, _, v₁⟩ := C71_value_folded nx ny hnx hny h dx dy r₁ dz hdx hdy npower
    obtain ⟨R₂, a₂, _, _, v₂⟩ := C71_value_folded nx ny hnx hny h dx dy r₂ dz hdx hdy npower
    obtain ⟨R, a, _, _, v⟩ := C71_value_folded nx ny hnx hny h dx dy (s * r₁ + t * r₂) dz hdx hdy npower
    refine ⟨R₁, R₂, R, a₁, a₂, a, fun i hi j hj => ?_⟩
    rw [v i hi j hj, v₁ i hi j hj, v₂ i hi j hj]
    unfold parkerGrid
    ring

/-- **C71.** The inverse transform is real before its real part is taken, whatever the surface. -/
theorem C71_real (nxt nyt : ℕ) (hnx : 0 < nxt) (hny : 0 < nyt) (hx : Even nxt ∨ nxt = 1) (hy : Even nyt ∨ nyt = 1) (h : ℕ → ℕ → ℝ)
    (dx dy grav zlev : ℝ) (hdx : dx ≠ 0) (hdy : dy ≠ 0) (npower : ℕ) :
    ∃ kwn, wavenumbers2d nxt nyt dx dy = .ok kwn ∧ ∀ i j, ((parkerData2d ⟨nyt, nxt, h⟩ kwn grav zlev npower).at' i j).im = 0 := by
  obtain ⟨kwn, hk, hr, hc, hv⟩ := wavenumbers2d_ok nxt nyt dx dy hnx hny hdx hdy (hx.imp_left Nat.even_iff.mp) (hy.imp_left Nat.even_iff.mp)
  refine ⟨kwn, hk, fun i j => ?_⟩
  rw [parkerData2d_eq ⟨nyt, nxt, h⟩ kwn (gridWavenumber nyt nxt dy dx)]
  · exact Complex.ofReal_im _
  · exact hv
  · intro k hk' l hl'
    exact gridWavenumber_zero _ _ _ _ hdx hdy k l hk' hl'
  · intro k l h1 h2
    exact (gridWavenumber_symm _ _ _ _ k l).1 h1 h2
  · intro k l h1 h2
    exact (gridWavenumber_symm _ _ _ _ k l).2 h1 h2

/-- Reflection of the columns of the mirrored grid. -/
private theorem sum_flip (n : ℕ) (f : ℕ → ℝ) :
    ∑ b ∈ Finset.range (2 * n), f b = ∑ b ∈ Finset.range (2 * n), f (if b < n then n - 1 - b else 3 * n - 1 - b) := by
  refine Finset.sum_bij' (fun b _ => if b < n then n - 1 - b else 3 * n - 1 - b) (fun b _ => if b < n then n - 1 - b else 3 * n - 1 - b) ?_ ?_ ?_ ?_ ?_
  · intro b hb; simp only [Finset.mem_range] at hb ⊢; split <;> omega
  · intro b hb; simp only [Finset.mem_range] at hb ⊢; split <;> omega
  · intro b hb; simp only [Finset.mem_range] at hb; split <;> split <;> omega
  · intro b hb; simp only [Finset.mem_range] at hb; split <;> split <;> omega
  · intro b hb
    simp only [Finset.mem_range] at hb
    congr 1
    split <;> split <;> omega

private theorem cos_flip (n l b j : ℕ) (hn : 0 < n) (hb : b < 2 * n) (hj : j < n) :
    Real.cos (2 * Real.pi * l * ((j : ℝ) - ((if b < n then n - 1 - b else 3 * n - 1 - b : ℕ) : ℝ)) / ((2 * n : ℕ) : ℝ)) =
      Real.cos (2 * Real.pi * l * (((n - 1 - j : ℕ) : ℝ) - b) / ((2 * n : ℕ) : ℝ)) := by
  have hnr : (n : ℝ) ≠ 0 := by exact_mod_cast hn.ne'
  have hj' : ((n - 1 - j : ℕ) : ℝ) = n - 1 - j := by
    rw [Nat.cast_sub (by omega), Nat.cast_sub (by omega)]; push_cast; ring
  rw [hj']
  split
  · rename_i h
    have : ((n - 1 - b : ℕ) : ℝ) = n - 1 - b := by
      rw [Nat.cast_sub (by omega), Nat.cast_sub (by omega)]; push_cast; ring
    rw [this, ← Real.cos_neg]
    congr 1
    push_cast
    ring
  · rename_i h
    have : ((3 * n - 1 - b : ℕ) : ℝ) = 3 * n - 1 - b := by
      rw [Nat.cast_sub (by omega), Nat.cast_sub (by omega)]; push_cast; ring
    rw [this, ← Real.cos_neg]
    rw [show -(2 * Real.pi * l * ((j : ℝ) - (3 * n - 1 - b)) / ((2 * n : ℕ) : ℝ)) =
      2 * Real.pi * l * ((n : ℝ) - 1 - j - b) / ((2 * n : ℕ) : ℝ) + l * (2 * Real.pi) by push_cast; field_simp; ring]
    exact Real.cos_add_nat_mul_two_pi _ _

private theorem flip_key (n b : ℕ) (hb : b < 2 * n) :
    (n - 1 - if (if b < n then n - 1 - b else 3 * n - 1 - b) < n then (if b < n then n - 1 - b else 3 * n - 1 - b)
      else 2 * n - 1 - (if b < n then n - 1 - b else 3 * n - 1 - b)) = if b < n then b else 2 * n - 1 - b := by
  by_cases h : b < n
  · rw [if_pos h, if_pos (by omega), if_pos h]; omega
  · rw [if_neg h, if_neg (by omega), if_neg h]; omega

private theorem parkerGrid_flipX (M n : ℕ) (hn : 0 < n) (m : ℕ) (κ : ℕ → ℕ → ℝ) (c g : ℝ) (P : ℕ) (h : ℕ → ℕ → ℝ) (i j : ℕ) (hj : j < n) :
    parkerGrid M (2 * n) κ c g P (mirrored m n fun a b => h a (n - 1 - b)) i j = parkerGrid M (2 * n) κ c g P (mirrored m n h) i (n - 1 - j) := by
  unfold parkerGrid
  congr 1
  apply Finset.sum_congr rfl
  intro k _
  apply Finset.sum_congr rfl
  intro l _
  split
  · rfl
  congr 1
  apply Finset.sum_congr rfl
  intro p _
  congr 1
  apply Finset.sum_congr rfl
  intro a _
  rw [sum_flip n]
  apply Finset.sum_congr rfl
  intro b hb
  have hb' := Finset.mem_range.mp hb
  rw [cos_flip n l b j hn hb' hj]
  unfold mirrored
  beta_reduce
  rw [flip_key n b hb']

private theorem parkerGrid_flipY (N n : ℕ) (hn : 0 < n) (m : ℕ) (κ : ℕ → ℕ → ℝ) (c g : ℝ) (P : ℕ) (h : ℕ → ℕ → ℝ) (i j : ℕ) (hi : i < n) :
    parkerGrid (2 * n) N κ c g P (mirrored n m fun a b => h (n - 1 - a) b) i j = parkerGrid (2 * n) N κ c g P (mirrored n m h) (n - 1 - i) j := by
  unfold parkerGrid
  congr 1
  apply Finset.sum_congr rfl
  intro k _
  apply Finset.sum_congr rfl
  intro l _
  split
  · rfl
  congr 1
  apply Finset.sum_congr rfl
  intro p _
  congr 1
  rw [sum_flip n]
  apply Finset.sum_congr rfl
  intro a ha
  have ha' := Finset.mem_range.mp ha
  apply Finset.sum_congr rfl
  intro b _
  rw [cos_flip n k a i hn ha' hi]
  unfold mirrored
  beta_reduce
  rw [flip_key n a ha']

private theorem mean_flipX (m n : ℕ) (h : ℕ → ℕ → ℝ) : gridMean m n (fun a b => h a (n - 1 - b)) = gridMean m n h := by
  unfold gridMean
  congr 1
  apply Finset.sum_congr rfl
  intro a _
  exact Finset.sum_range_reflect (fun b => h a b) n

private theorem mean_flipY (m n : ℕ) (h : ℕ → ℕ → ℝ) : gridMean m n (fun a b => h (m - 1 - a) b) = gridMean m n h := by
  unfold gridMean
  congr 1
  exact Finset.sum_range_reflect (fun a => ∑ b ∈ Finset.range n, h a b) m

private theorem cos_reflect (n l b j : ℕ) (hb : b < n) (hj : j < n) :
    Real.cos (2 * Real.pi * l * ((j : ℝ) - ((n - 1 - b : ℕ) : ℝ)) / n) = Real.cos (2 * Real.pi * l * (((n - 1 - j : ℕ) : ℝ) - b) / n) := by
  have hb' : ((n - 1 - b : ℕ) : ℝ) = n - 1 - b := by
    rw [Nat.cast_sub (by omega), Nat.cast_sub (by omega)]; push_cast; ring
  have hj' : ((n - 1 - j : ℕ) : ℝ) = n - 1 - j := by
    rw [Nat.cast_sub (by omega), Nat.cast_sub (by omega)]; push_cast; ring
  rw [hb', hj', ← Real.cos_neg]
  congr 1
  ring

private theorem parkerGrid_reflectX (M n : ℕ) (κ : ℕ → ℕ → ℝ) (c g : ℝ) (P : ℕ) (h : ℕ → ℕ → ℝ) (i j : ℕ) (hj : j < n) :
    parkerGrid M n κ c g P (fun a b => h a (n - 1 - b)) i j = parkerGrid M n κ c g P h i (n - 1 - j) := by
  unfold parkerGrid
  congr 1
  apply Finset.sum_congr rfl
  intro k _
  apply Finset.sum_congr rfl
  intro l _
  split
  · rfl
  congr 1
  apply Finset.sum_congr rfl
  intro p _
  congr 1
  apply Finset.sum_congr rfl
  intro a _
  rw [← Finset.sum_range_reflect]
  apply Finset.sum_congr rfl
  intro b hb
  have hb' := Finset.mem_range.mp hb
  rw [cos_reflect n l b j hb' hj]
  beta_reduce
  rw [show n - 1 - (n - 1 - b) = b by omega]

private theorem parkerGrid_reflectY (N n : ℕ) (κ : ℕ → ℕ → ℝ) (c g : ℝ) (P : ℕ) (h : ℕ → ℕ → ℝ) (i j : ℕ) (hi : i < n) :
    parkerGrid n N κ c g P (fun a b => h (n - 1 - a) b) i j = parkerGrid n N κ c g P h (n - 1 - i) j := by
  unfold parkerGrid
  congr 1
  apply Finset.sum_congr rfl
  intro k _
  apply Finset.sum_congr rfl
  intro l _
  split
  · rfl
  congr 1
  apply Finset.sum_congr rfl
  intro p _
  congr 1
  rw [← Finset.sum_range_reflect]
  apply Finset.sum_congr rfl
  intro a ha
  have ha' := Finset.mem_range.mp ha
  apply Finset.sum_congr rfl
  intro b _
  rw [cos_reflect n k a i ha' hi]
  beta_reduce
  rw [show n - 1 - (n - 1 - a) = a by omega]

/-- **C71.** Mirroring the grid left to right mirrors the anomaly, with and without folding. -/
theorem C71_mirror_columns (nx ny : ℕ) (hnx : 0 < nx) (hny : 0 < ny) (h : ℕ → ℕ → ℝ) (dx dy drho dz : ℝ) (hdx : dx ≠ 0) (hdy : dy ≠ 0) (npower : ℕ)
    (ifold : Bool) (hx : ifold = false → Even nx ∨ nx = 1) (hy : ifold = false → Even ny ∨ ny = 1) :
    ∃ R R', grav2dFolding nx ny ⟨ny, nx, h⟩ dx dy drho dz ifold npower = .ok R ∧
      grav2dFolding nx ny ⟨ny, nx, fun a b => h a (nx - 1 - b)⟩ dx dy drho dz ifold npower = .ok R' ∧
      ∀ i < ny, ∀ j < nx, R'.at' i j = R.at' i (nx - 1 - j) := by
  cases ifold
  · obtain ⟨R, a, _, _, v⟩ := C71_value_unfolded nx ny hnx hny h dx dy drho dz hdx hdy npower (hx rfl) (hy rfl)
    obtain ⟨R', a', _, _, v'⟩ := C71_value_unfolded nx ny hnx hny (fun a b => h a (nx - 1 - b)) dx dy drho dz hdx hdy npower (hx rfl) (hy rfl)
    refine ⟨R, R', a, a', fun i hi j hj => ?_⟩
    rw [v' i hi j hj, v i hi (nx - 1 - j) (by omega), mean_flipX]
    exact parkerGrid_reflectX _ nx _ _ _ _ (fun a b => 100 * (gridMean ny nx h - h a b)) i j hj
  · obtain ⟨R, a, _, _, v⟩ := C71_value_folded nx ny hnx hny h dx dy drho dz hdx hdy npower
    obtain ⟨R', a', _, _, v'⟩ := C71_value_folded nx ny hnx hny (fun a b => h a (nx - 1 - b)) dx dy drho dz hdx hdy npower
    refine ⟨R, R', a, a', fun i hi j hj => ?_⟩
    rw [v' i hi j hj, v i hi (nx - 1 - j) (by omega), mean_flipX]
    exact parkerGrid_flipX _ nx hnx ny _ _ _ _ (fun a b => 100 * (gridMean ny nx h - h a b)) i j hj

/-- **C71.** Mirroring the grid top to bottom mirrors the anomaly, with and without folding. -/
theorem C71_mirror_rows (nx ny : ℕ) (hnx : 0 < nx) (hny : 0 < ny) (h : ℕ → ℕ → ℝ) (dx dy drho dz : ℝ) (hdx : dx ≠ 0) (hdy : dy ≠ 0) (npower : ℕ)
    (ifold : Bool) (hx : ifold = false → Even nx ∨ nx = 1) (hy : ifold = false → Even ny ∨ ny = 1) :
    ∃ R R', grav2dFolding nx ny ⟨ny, nx, h⟩ dx dy drho dz ifold npower = .ok R ∧
      grav2dFolding nx ny ⟨ny, nx, fun a b => h (ny - 1 - a) b⟩ dx dy drho dz ifold npower = .ok R' ∧
      ∀ i < ny, ∀ j < nx, R'.at' i j = R.at' (ny - 1 - i) j := by
  cases ifold
  · obtain ⟨R, a, _, _, v⟩ := C71_value_unfolded nx ny hnx hny h dx dy drho dz hdx hdy npower (hx rfl) (hy rfl)
    obtain ⟨R', a', _, _, v'⟩ := C71_value_unfolded nx ny hnx hny (fun a b => h (ny - 1 - a) b) dx dy drho dz hdx hdy npower (hx rfl) (hy rfl)
    refine ⟨R, R', a, a', fun i hi j hj => ?_⟩
    rw [v' i hi j hj, v (ny - 1 - i) (by omega) j hj, mean_flipY]
    exact parkerGrid_reflectY _ ny _ _ _ _ (fun a b => 100 * (gridMean ny nx h - h a b)) i j hi
  · obtain ⟨R, a, _, _, v⟩ := C71_value_folded nx ny hnx hny h dx dy drho dz hdx hdy npower
    obtain ⟨R', a', _, _, v'⟩ := C71_value_folded nx ny hnx hny (fun a b => h (ny - 1 - a) b) dx dy drho dz hdx hdy npower
    refine ⟨R, R', a, a', fun i hi j hj => ?_⟩
    rw [v' i hi j hj, v (ny - 1 - i) (by omega) j hj, mean_flipY]
    exact parkerGrid_flipY _ ny hny nx _ _ _ _ (fun a b => 100 * (gridMean ny nx h - h a b)) i j hi

/-! ## Non-vacuity -/

example : mirrored 2 3 (fun a b => (10 * a + b : ℝ)) 2 5 = 10 := by norm_num [mirrored]

/-- The series is not trivially zero: one power, two columns with different depth, no folding. -/
example : parkerGrid 1 2 (gridWavenumber 1 2 1 1) 0 1 1 (fun _ b => if b = 0 then 1 else -1) 0 0 = 1 := by
  unfold parkerGrid
  norm_num [Finset.sum_range_succ]
  rw [show -(2 * Real.pi) / 2 = -Real.pi by ring, Real.cos_neg, Real.cos_pi]
  norm_num

end Shipgrav
