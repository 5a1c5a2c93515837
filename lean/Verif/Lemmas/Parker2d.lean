import Verif.Model.Parker2d
import Verif.Spec.Parker
import Verif.Lemmas.Fft

/-! Helper lemmas for the grid. -/

namespace Shipgrav
open Spec

theorem foldIndices_length (n : ℕ) (hn : 0 < n) : (foldIndices n).length = if n % 2 = 0 ∨ n = 1 then n else n - 1 := by
  unfold foldIndices
  simp only [List.length_append, List.length_map, List.length_range, List.length_reverse, List.length_drop, List.length_take]
  split <;> omega

theorem foldIndices_get (n i : ℕ) (hn : n % 2 = 0 ∨ n = 1) (hi : i < n) : (foldIndices n)[i]? = some (cycles n i + 1) := by
  unfold foldIndices cycles
  simp only
  have hl : ((List.range (n / 2 + 1)).map (· + 1)).length = n / 2 + 1 := by simp
  by_cases h : i < n / 2 + 1
  · rw [List.getElem?_append_left (by rw [hl]; exact h), List.getElem?_map, List.getElem?_range h]
    simp only [Option.map_some, Option.some.injEq]
    omega
  · rw [List.getElem?_append_right (by rw [hl]; omega), hl, List.getElem?_reverse (by simp; omega)]
    simp only [List.length_drop, List.length_take, List.length_map, List.length_range, List.getElem?_drop]
    rw [List.getElem?_take_of_lt (by omega), List.getElem?_map, List.getElem?_range (by omega)]
    simp only [Option.map_some, Option.some.injEq]
    omega

theorem squaredWavenumbers_get (n i : ℕ) (d : ℝ) (hn : n % 2 = 0 ∨ n = 1) (hi : i < n) :
    (squaredWavenumbers n d).getD i 0 = (2 * Real.pi * cycles n i / (n * d)) ^ 2 := by
  unfold squaredWavenumbers
  simp only
  rw [List.getD_eq_getElem?_getD, List.getElem?_map, foldIndices_get n i hn hi]
  simp only [Option.map_some, Option.getD_some]
  push_cast
  ring

theorem wavenumbers2d_ok (nx ny : ℕ) (dx dy : ℝ) (hnx : 0 < nx) (hny : 0 < ny) (hdx : dx ≠ 0) (hdy : dy ≠ 0)
    (hx : nx % 2 = 0 ∨ nx = 1) (hy : ny % 2 = 0 ∨ ny = 1) :
    ∃ kwn, wavenumbers2d nx ny dx dy = .ok kwn ∧ kwn.rows = ny ∧ kwn.cols = nx ∧
      ∀ k < ny, ∀ l < nx, kwn.at' k l = gridWavenumber ny nx dy dx k l := by
  have hxr : (nx : ℝ) ≠ 0 := by exact_mod_cast hnx.ne'
  have hyr : (ny : ℝ) ≠ 0 := by exact_mod_cast hny.ne'
  have lx : (squaredWavenumbers nx dx).length = nx := by
    unfold squaredWavenumbers; simp only [List.length_map]; rw [foldIndices_length nx hnx, if_pos hx]
  have ly : (squaredWavenumbers ny dy).length = ny := by
    unfold squaredWavenumbers; simp only [List.length_map]; rw [foldIndices_length ny hny, if_pos hy]
  refine ⟨⟨ny, nx, fun j i => √((squaredWavenumbers nx dx).getD i 0 + (squaredWavenumbers ny dy).getD j 0)⟩, ?_, rfl, rfl, ?_⟩
  · unfold wavenumbers2d
    simp only
    rw [if_neg (by simp [hxr, hyr, hdx, hdy]), if_neg (by simp [lx]), if_neg (by omega)]
  · intro k hk l hl
    simp only
    rw [squaredWavenumbers_get nx l dx hx hl, squaredWavenumbers_get ny k dy hy hk]
    unfold gridWavenumber
    rw [add_comm]

theorem gridWavenumber_zero (M N : ℕ) (dy dx : ℝ) (hdx : dx ≠ 0) (hdy : dy ≠ 0) (k l : ℕ) (hk : k < M) (hl : l < N) :
    gridWavenumber M N dy dx k l = 0 ↔ k = 0 ∧ l = 0 := by
  have hM : (M : ℝ) ≠ 0 := by exact_mod_cast (by omega : M ≠ 0)
  have hN : (N : ℝ) ≠ 0 := by exact_mod_cast (by omega : N ≠ 0)
  unfold gridWavenumber
  constructor
  · intro h
    rw [Real.sqrt_eq_zero (by positivity)] at h
    have h1 : (2 * Real.pi * cycles M k / (M * dy)) ^ 2 = 0 := by
      have := sq_nonneg (2 * Real.pi * (cycles N l : ℝ) / (N * dx)); have := sq_nonneg (2 * Real.pi * (cycles M k : ℝ) / (M * dy)); linarith
    have h2 : (2 * Real.pi * cycles N l / (N * dx)) ^ 2 = 0 := by linarith
    have hz : ∀ (c : ℕ) (m d : ℝ), m ≠ 0 → d ≠ 0 → (2 * Real.pi * c / (m * d)) ^ 2 = 0 → c = 0 := by
      intro c m d hm hd h
      have h3 := pow_eq_zero_iff (two_ne_zero) |>.mp h
      rw [div_eq_zero_iff] at h3
      rcases h3 with h3 | h3
      · have hp := Real.pi_ne_zero
        simpa [hp] using h3
      · exact absurd h3 (mul_ne_zero hm hd)
    have c1 := hz _ _ _ hM hdy h1
    have c2 := hz _ _ _ hN hdx h2
    unfold cycles at c1 c2
    omega
  · rintro ⟨rfl, rfl⟩
    simp [cycles]

theorem gridWavenumber_symm (M N : ℕ) (dy dx : ℝ) (k l : ℕ) :
    (1 ≤ k → k < M → gridWavenumber M N dy dx (M - k) l = gridWavenumber M N dy dx k l) ∧
    (1 ≤ l → l < N → gridWavenumber M N dy dx k (N - l) = gridWavenumber M N dy dx k l) := by
  unfold gridWavenumber
  constructor
  · intro h1 h2
    have : cycles M (M - k) = cycles M k := by unfold cycles; omega
    rw [this]
  · intro h1 h2
    have : cycles N (N - l) = cycles N l := by unfold cycles; omega
    rw [this]

theorem parkerLoop2d_eq (Z kwn : Mat ℝ) (n i : ℕ) (hi : 1 ≤ i) (csum : Mat ℂ) :
    (parkerLoop2d Z kwn n i (i - 1).factorial csum).rows = csum.rows ∧ (parkerLoop2d Z kwn n i (i - 1).factorial csum).cols = csum.cols ∧
    ∀ a b, (parkerLoop2d Z kwn n i (i - 1).factorial csum).at' a b =
      csum.at' a b + ∑ p ∈ Finset.Ico i (i + n), (parkerTerm2d Z kwn p p.factorial).at' a b := by
  induction n generalizing i csum with
  | zero => simp [parkerLoop2d]
  | succ n ih =>
    unfold parkerLoop2d
    simp only
    have hf : (i - 1).factorial * i = i.factorial := by
      obtain ⟨m, rfl⟩ : ∃ m, i = m + 1 := ⟨i - 1, by omega⟩
      rw [Nat.add_sub_cancel, Nat.factorial_succ, mul_comm]
    rw [hf]
    have := ih (i + 1) (by omega) ⟨csum.rows, csum.cols, fun a b => csum.at' a b + (parkerTerm2d Z kwn i i.factorial).at' a b⟩
    rw [Nat.add_sub_cancel] at this
    refine ⟨this.1, this.2.1, fun a b => ?_⟩
    rw [this.2.2 a b, Finset.sum_eq_sum_Ico_succ_bot (show i < i + (n + 1) by omega)]
    simp only
    rw [show i + 1 + n = i + (n + 1) by omega, add_assoc]

/-- Sum of the powers of the spectrum at bin `(k, l)`. -/
noncomputable def specP (M N : ℕ) (κ h : ℕ → ℕ → ℝ) (P k l : ℕ) : ℂ :=
  if k = 0 ∧ l = 0 then 0 else ∑ p ∈ Finset.Icc 1 P, ((κ k l ^ (p - 1) / p.factorial : ℝ) : ℂ) *
    ∑ a ∈ Finset.range M, ∑ b ∈ Finset.range N, ((h a b ^ p : ℝ) : ℂ) *
      Complex.exp (-2 * Real.pi * Complex.I * ((k * a) / M + (l * b) / N))

theorem parkerSum2d_eq (Z kwn : Mat ℝ) (κ : ℕ → ℕ → ℝ) (P : ℕ) (hκ : ∀ k < Z.rows, ∀ l < Z.cols, kwn.at' k l = κ k l)
    (h0 : ∀ k < Z.rows, ∀ l < Z.cols, κ k l = 0 ↔ k = 0 ∧ l = 0) :
    (parkerSum2d Z kwn P).rows = Z.rows ∧ (parkerSum2d Z kwn P).cols = Z.cols ∧
    ∀ k < Z.rows, ∀ l < Z.cols, (parkerSum2d Z kwn P).at' k l = specP Z.rows Z.cols κ Z.at' (max 1 P) k l := by
  unfold parkerSum2d
  simp only
  have h := parkerLoop2d_eq Z kwn (P - 1) 2 (by omega) ⟨(fft2 ⟨Z.rows, Z.cols, fun a b => (Z.at' a b : ℂ)⟩).rows,
    (fft2 ⟨Z.rows, Z.cols, fun a b => (Z.at' a b : ℂ)⟩).cols,
    fun a b => if a = 0 ∧ b = 0 then 0 else (fft2 ⟨Z.rows, Z.cols, fun a b => (Z.at' a b : ℂ)⟩).at' a b⟩
  have e1 : (2 - 1).factorial = 1 := rfl
  rw [e1] at h
  refine ⟨h.1, h.2.1, fun k hk l hl => ?_⟩
  rw [h.2.2 k l]
  simp only
  unfold specP
  by_cases hz : k = 0 ∧ l = 0
  · rw [if_pos hz, if_pos hz, zero_add]
    apply Finset.sum_eq_zero
    intro p _
    unfold parkerTerm2d
    simp only
    rw [if_pos]
    rw [hκ k hk l hl]; exact (h0 k hk l hl).mpr hz
  · rw [if_neg hz, if_neg hz]
    rw [show Finset.Icc 1 (max 1 P) = Finset.Ico 1 (2 + (P - 1)) by
      ext p; simp only [Finset.mem_Icc, Finset.mem_Ico]; omega]
    rw [Finset.sum_eq_sum_Ico_succ_bot (show 1 < 2 + (P - 1) by omega)]
    congr 1
    · simp [fft2]
    · apply Finset.sum_congr rfl
      intro p _
      unfold parkerTerm2d
      simp only
      rw [if_neg (by rw [hκ k hk l hl, h0 k hk l hl]; exact hz), hκ k hk l hl]
      simp only [fft2]
      push_cast
      ring

/-- The data are real, and are Parker's series. -/
theorem parkerData2d_eq (Z kwn : Mat ℝ) (κ : ℕ → ℕ → ℝ) (g c : ℝ) (P : ℕ) (hκ : ∀ k < Z.rows, ∀ l < Z.cols, kwn.at' k l = κ k l)
    (h0 : ∀ k < Z.rows, ∀ l < Z.cols, κ k l = 0 ↔ k = 0 ∧ l = 0)
    (hs1 : ∀ k l, 1 ≤ k → k < Z.rows → κ (Z.rows - k) l = κ k l) (hs2 : ∀ k l, 1 ≤ l → l < Z.cols → κ k (Z.cols - l) = κ k l) (i j : ℕ) :
    (parkerData2d Z kwn g c P).at' i j = (parkerGrid Z.rows Z.cols κ c g (max 1 P) Z.at' i j : ℂ) := by
  obtain ⟨hr, hc, hsum⟩ := parkerSum2d_eq Z kwn κ P hκ h0
  unfold parkerData2d ifft2
  simp only
  rw [hr, hc]
  clear hr hc
  generalize hM : Z.rows = M at *
  generalize hN : Z.cols = N at *
  -- weights of the bins
  obtain ⟨W, hW⟩ : ∃ W : ℕ → ℕ → ℕ → ℝ, W = fun p k l => if k = 0 ∧ l = 0 then 0 else
      Real.exp (-c * κ k l) * (κ k l ^ (p - 1) / p.factorial) := ⟨_, rfl⟩
  have hW1 : ∀ p k l, 1 ≤ k → k < M → W p (M - k) l = W p k l := by
    intro p k l h1 h2
    rw [hW]; simp only
    rw [hs1 k l h1 h2, if_neg (by omega), if_neg (by omega)]
  have hW2 : ∀ p k l, 1 ≤ l → l < N → W p k (N - l) = W p k l := by
    intro p k l h1 h2
    rw [hW]; simp only
    rw [hs2 k l h1 h2, if_neg (by omega), if_neg (by omega)]
  have hL : ∀ k ∈ Finset.range M, ∀ l ∈ Finset.range N, (parkerSum2d Z kwn P).at' k l * (g : ℂ) * ((Real.exp (-c * kwn.at' k l) : ℝ) : ℂ) *
        Complex.exp (2 * Real.pi * Complex.I * ((i * k) / M + (j * l) / N)) =
      ∑ p ∈ Finset.Icc 1 (max 1 P), ∑ a ∈ Finset.range M, ∑ b ∈ Finset.range N,
        ((g * Z.at' a b ^ p : ℝ) : ℂ) * (((W p k l : ℝ) : ℂ) * Complex.exp (((2 * Real.pi * l * ((j - b : ℤ) : ℝ) / N : ℝ) : ℂ) * Complex.I) *
          Complex.exp (((2 * Real.pi * k * ((i - a : ℤ) : ℝ) / M : ℝ) : ℂ) * Complex.I)) := by
    intro k hk l hl
    rw [hsum k (Finset.mem_range.mp hk) l (Finset.mem_range.mp hl), hκ k (Finset.mem_range.mp hk) l (Finset.mem_range.mp hl)]
    unfold specP
    by_cases hz : k = 0 ∧ l = 0
    · rw [if_pos hz]
      simp [hW, hz]
    · rw [if_neg hz, Finset.sum_mul, Finset.sum_mul, Finset.sum_mul]
      apply Finset.sum_congr rfl
      intro p _
      rw [Finset.mul_sum, Finset.sum_mul, Finset.sum_mul, Finset.sum_mul]
      apply Finset.sum_congr rfl
      intro a _
      rw [Finset.mul_sum, Finset.sum_mul, Finset.sum_mul, Finset.sum_mul]
      apply Finset.sum_congr rfl
      intro b _
      have he : Complex.exp (((2 * Real.pi * l * ((j - b : ℤ) : ℝ) / N : ℝ) : ℂ) * Complex.I) *
          Complex.exp (((2 * Real.pi * k * ((i - a : ℤ) : ℝ) / M : ℝ) : ℂ) * Complex.I) =
          Complex.exp (-2 * Real.pi * Complex.I * ((k * a) / M + (l * b) / N)) *
          Complex.exp (2 * Real.pi * Complex.I * ((i * k) / M + (j * l) / N)) := by
        rw [← Complex.exp_add, ← Complex.exp_add]
        congr 1
        push_cast
        ring
      rw [mul_assoc (((W p k l : ℝ) : ℂ)), he, hW]
      simp only [if_neg hz]
      push_cast
      ring
  rw [Finset.sum_congr rfl (fun k hk => Finset.sum_congr rfl (hL k hk))]
  -- exchange the sums, then use the symmetry of the weights
  have hex : ∑ k ∈ Finset.range M, ∑ l ∈ Finset.range N, ∑ p ∈ Finset.Icc 1 (max 1 P), ∑ a ∈ Finset.range M, ∑ b ∈ Finset.range N,
        ((g * Z.at' a b ^ p : ℝ) : ℂ) * (((W p k l : ℝ) : ℂ) * Complex.exp (((2 * Real.pi * l * ((j - b : ℤ) : ℝ) / N : ℝ) : ℂ) * Complex.I) *
          Complex.exp (((2 * Real.pi * k * ((i - a : ℤ) : ℝ) / M : ℝ) : ℂ) * Complex.I)) =
      ∑ k ∈ Finset.range M, ∑ l ∈ Finset.range N, ∑ p ∈ Finset.Icc 1 (max 1 P), ∑ a ∈ Finset.range M, ∑ b ∈ Finset.range N,
        ((g * Z.at' a b ^ p : ℝ) : ℂ) * (((W p k l : ℝ) : ℂ) * ((Real.cos (2 * Real.pi * l * ((j - b : ℤ) : ℝ) / N) : ℝ) : ℂ) *
          ((Real.cos (2 * Real.pi * k * ((i - a : ℤ) : ℝ) / M) : ℝ) : ℂ)) := by
    have hswap : ∀ F : ℕ → ℕ → ℕ → ℕ → ℕ → ℂ,
        ∑ k ∈ Finset.range M, ∑ l ∈ Finset.range N, ∑ p ∈ Finset.Icc 1 (max 1 P), ∑ a ∈ Finset.range M, ∑ b ∈ Finset.range N, F k l p a b =
        ∑ p ∈ Finset.Icc 1 (max 1 P), ∑ a ∈ Finset.range M, ∑ b ∈ Finset.range N, ∑ k ∈ Finset.range M, ∑ l ∈ Finset.range N, F k l p a b := by
      intro F
      calc _ = ∑ k ∈ Finset.range M, ∑ p ∈ Finset.Icc 1 (max 1 P), ∑ l ∈ Finset.range N, ∑ a ∈ Finset.range M, ∑ b ∈ Finset.range N, F k l p a b :=
            Finset.sum_congr rfl fun k _ => Finset.sum_comm
        _ = ∑ p ∈ Finset.Icc 1 (max 1 P), ∑ k ∈ Finset.range M, ∑ l ∈ Finset.range N, ∑ a ∈ Finset.range M, ∑ b ∈ Finset.range N, F k l p a b :=
            Finset.sum_comm
        _ = _ := Finset.sum_congr rfl fun p _ => by
            calc _ = ∑ k ∈ Finset.range M, ∑ a ∈ Finset.range M, ∑ l ∈ Finset.range N, ∑ b ∈ Finset.range N, F k l p a b :=
                  Finset.sum_congr rfl fun k _ => Finset.sum_comm
              _ = ∑ a ∈ Finset.range M, ∑ k ∈ Finset.range M, ∑ l ∈ Finset.range N, ∑ b ∈ Finset.range N, F k l p a b := Finset.sum_comm
              _ = _ := Finset.sum_congr rfl fun a _ => by
                  calc _ = ∑ k ∈ Finset.range M, ∑ b ∈ Finset.range N, ∑ l ∈ Finset.range N, F k l p a b :=
                        Finset.sum_congr rfl fun k _ => Finset.sum_comm
                    _ = _ := Finset.sum_comm
    rw [hswap, hswap]
    apply Finset.sum_congr rfl
    intro p _
    apply Finset.sum_congr rfl
    intro a _
    apply Finset.sum_congr rfl
    intro b _
    have h2 : ∀ k, ∑ l ∈ Finset.range N, ((g * Z.at' a b ^ p : ℝ) : ℂ) * (((W p k l : ℝ) : ℂ) *
          Complex.exp (((2 * Real.pi * l * ((j - b : ℤ) : ℝ) / N : ℝ) : ℂ) * Complex.I) *
          Complex.exp (((2 * Real.pi * k * ((i - a : ℤ) : ℝ) / M : ℝ) : ℂ) * Complex.I)) =
        ((g * Z.at' a b ^ p : ℝ) : ℂ) * ((∑ l ∈ Finset.range N, ((W p k l : ℝ) : ℂ) * ((Real.cos (2 * Real.pi * l * ((j - b : ℤ) : ℝ) / N) : ℝ) : ℂ)) *
          Complex.exp (((2 * Real.pi * k * ((i - a : ℤ) : ℝ) / M : ℝ) : ℂ) * Complex.I)) := by
      intro k
      rw [← sym_sum N (fun l => ((W p k l : ℝ) : ℂ)) (fun l h1 h2 => by rw [hW2 p k l h1 h2]) (j - b), Finset.sum_mul, Finset.mul_sum]
    rw [Finset.sum_congr rfl fun k _ => h2 k, ← Finset.mul_sum,
      sym_sum M (fun k => ∑ l ∈ Finset.range N, ((W p k l : ℝ) : ℂ) * ((Real.cos (2 * Real.pi * l * ((j - b : ℤ) : ℝ) / N) : ℝ) : ℂ))
        (fun k h1 h2 => Finset.sum_congr rfl fun l _ => by rw [hW1 p k l h1 h2]) (i - a), Finset.mul_sum]
    apply Finset.sum_congr rfl
    intro k _
    rw [Finset.sum_mul, Finset.mul_sum]
  rw [hex]
  unfold parkerGrid
  push_cast
  rw [Finset.mul_sum, Finset.mul_sum]
  apply Finset.sum_congr rfl
  intro k _
  rw [Finset.mul_sum, Finset.mul_sum]
  apply Finset.sum_congr rfl
  intro l _
  by_cases hz : k = 0 ∧ l = 0
  · simp [hW, hz]
  · simp only [hW, if_neg hz]
    simp only [Finset.mul_sum, Complex.ofReal_mul, Complex.ofReal_sum]
    apply Finset.sum_congr rfl
    intro p _
    apply Finset.sum_congr rfl
    intro a _
    apply Finset.sum_congr rfl
    intro b _
    push_cast
    ring

end Shipgrav
