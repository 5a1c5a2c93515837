import Verif.Lemmas.Parker2d
import Mathlib.Analysis.Real.Pi.Bounds
import Mathlib.Analysis.SpecialFunctions.Log.Basic

/-! Property theorems C72 and C73: a layer of variable density. -/

namespace Shipgrav
open Spec

theorem kvalue_eq (j n : ℕ) (d : ℝ) : kvalue j n (2 * Real.pi / (n * d)) = 2 * Real.pi * (layerFreq n j : ℝ) / (n * d) := by
  unfold kvalue layerFreq
  by_cases h : j ≤ n / 2 + 1
  · rw [if_pos (by omega), if_pos h]; push_cast; ring
  · rw [if_neg (by omega), if_neg h]; push_cast; ring

theorem layerFreq_zero (n j : ℕ) (hj : j < n) : layerFreq n j = 0 ↔ j = 0 := by
  unfold layerFreq
  split <;> omega

theorem wavenumberOf_zero (M N : ℕ) (dy dx : ℝ) (hdy : dy ≠ 0) (hdx : dx ≠ 0) (k l : ℕ) (hk : k < M) (hl : l < N) :
    wavenumberOf layerFreq M N dy dx k l = 0 ↔ k = 0 ∧ l = 0 := by
  have hM : (M : ℝ) ≠ 0 := by exact_mod_cast (by omega : M ≠ 0)
  have hN : (N : ℝ) ≠ 0 := by exact_mod_cast (by omega : N ≠ 0)
  unfold wavenumberOf
  have hz : ∀ (c : ℤ) (m d : ℝ), m ≠ 0 → d ≠ 0 → ((2 * Real.pi * c / (m * d)) ^ 2 = 0 ↔ c = 0) := by
    intro c m d hm hd
    simp [hm, hd, Real.pi_ne_zero]
  rw [Real.sqrt_eq_zero (by positivity), add_eq_zero_iff_of_nonneg (sq_nonneg _) (sq_nonneg _), hz _ _ _ hN hdx, hz _ _ _ hM hdy,
    layerFreq_zero N l hl, layerFreq_zero M k hk]
  exact and_comm

/-- **C72.** The exact anomaly: with the frequencies that are used, the sum of cosines damped with depth. -/
theorem C72_value (ny nx : ℕ) (rho : ℕ → ℕ → ℝ) (dx dy z1 z2 : ℝ) (hdx : dx ≠ 0) (hdy : dy ≠ 0) :
    (grav2dLayer ⟨ny, nx, rho⟩ dx dy z1 z2).rows = ny ∧ (grav2dLayer ⟨ny, nx, rho⟩ dx dy z1 z2).cols = nx ∧
    ∀ i j, (grav2dLayer ⟨ny, nx, rho⟩ dx dy z1 z2).at' i j =
      layerGrid ny nx (wavenumberOf layerFreq ny nx dy dx) z1 z2 (2 * Real.pi * 6.673e-11 * 1e5 * 1e3) rho i j := by
  refine ⟨rfl, rfl, fun i j => ?_⟩
  unfold grav2dLayer ifft2 fft2 layerGrid
  simp only [kvalue_eq]
  have hκ : ∀ k l, √((2 * Real.pi * (layerFreq nx l : ℝ) / (nx * dx)) ^ 2 + (2 * Real.pi * (layerFreq ny k : ℝ) / (ny * dy)) ^ 2) =
      wavenumberOf layerFreq ny nx dy dx k l := fun k l => rfl
  simp only [hκ]
  have hpre : (1 / ((ny : ℂ) * nx)) = ((1 / (ny * nx) : ℝ) : ℂ) := by push_cast; rfl
  rw [hpre, Complex.re_ofReal_mul, Complex.re_sum]
  have hS : ∀ A B g a b c : ℝ, A = g * B → a * A * b * c = g * b * c * a * B := by intros; subst_vars; ring
  rw [show 2 * Real.pi * 6.673e-11 * 1e5 * 1e3 / ((ny : ℝ) * nx) = 2 * Real.pi * 6.673e-11 * 1e5 * 1e3 * (1 / ((ny : ℝ) * nx)) by ring]
  apply hS
  rw [Finset.mul_sum]
  apply Finset.sum_congr rfl
  intro k hk
  rw [Complex.re_sum, Finset.mul_sum]
  apply Finset.sum_congr rfl
  intro l hl
  by_cases hz : k = 0 ∧ l = 0
  · rw [if_pos hz, if_pos ((wavenumberOf_zero _ _ _ _ hdy hdx k l (Finset.mem_range.mp hk) (Finset.mem_range.mp hl)).mpr hz)]
    simp
  · rw [if_neg hz, if_neg (fun h => hz ((wavenumberOf_zero _ _ _ _ hdy hdx k l (Finset.mem_range.mp hk) (Finset.mem_range.mp hl)).mp h))]
    generalize wavenumberOf layerFreq ny nx dy dx k l = κ
    generalize hG : (2 * Real.pi * 6.673e-11 : ℝ) = G
    have hterm : (∑ a ∈ Finset.range ny, ∑ b ∈ Finset.range nx, (rho a b : ℂ) *
          Complex.exp (-2 * Real.pi * Complex.I * ((k * a) / ny + (l * b) / nx))) * (G : ℂ) *
        ((Real.exp (-κ * z1) - Real.exp (-κ * z2) : ℝ) : ℂ) / (κ : ℂ) * Complex.exp (2 * Real.pi * Complex.I * ((i * k) / ny + (j * l) / nx)) =
        ∑ a ∈ Finset.range ny, ∑ b ∈ Finset.range nx, ((G * ((Real.exp (-κ * z1) - Real.exp (-κ * z2)) / κ) * rho a b : ℝ) : ℂ) *
          Complex.exp (((2 * Real.pi * (k * ((i : ℝ) - a) / ny + l * ((j : ℝ) - b) / nx) : ℝ) : ℂ) * Complex.I) := by
      rw [Finset.sum_mul, Finset.sum_mul, Finset.sum_div, Finset.sum_mul]
      apply Finset.sum_congr rfl
      intro a _
      rw [Finset.sum_mul, Finset.sum_mul, Finset.sum_div, Finset.sum_mul]
      apply Finset.sum_congr rfl
      intro b _
      have he : Complex.exp (((2 * Real.pi * (k * ((i : ℝ) - a) / ny + l * ((j : ℝ) - b) / nx) : ℝ) : ℂ) * Complex.I) =
          Complex.exp (-2 * Real.pi * Complex.I * ((k * a) / ny + (l * b) / nx)) *
          Complex.exp (2 * Real.pi * Complex.I * ((i * k) / ny + (j * l) / nx)) := by
        rw [← Complex.exp_add]
        congr 1
        push_cast
        ring
      rw [he]
      push_cast
      ring
    have hcast : ((G : ℝ) : ℂ) = (G : ℂ) := rfl
    rw [hterm, Complex.re_sum, Finset.mul_sum, Finset.mul_sum]
    apply Finset.sum_congr rfl
    intro a _
    rw [Complex.re_sum, Finset.mul_sum, Finset.mul_sum]
    apply Finset.sum_congr rfl
    intro b _
    rw [re_real_mul_exp]
    ring

/-- **C72.** Linear in the density. -/
theorem C72_linear (ny nx : ℕ) (rho₁ rho₂ : ℕ → ℕ → ℝ) (s t dx dy z1 z2 : ℝ) (hdx : dx ≠ 0) (hdy : dy ≠ 0) (i j : ℕ) :
    (grav2dLayer ⟨ny, nx, fun a b => s * rho₁ a b + t * rho₂ a b⟩ dx dy z1 z2).at' i j =
      s * (grav2dLayer ⟨ny, nx, rho₁⟩ dx dy z1 z2).at' i j + t * (grav2dLayer ⟨ny, nx, rho₂⟩ dx dy z1 z2).at' i j := by
  rw [(C72_value ny nx _ dx dy z1 z2 hdx hdy).2.2, (C72_value ny nx rho₁ dx dy z1 z2 hdx hdy).2.2,
    (C72_value ny nx rho₂ dx dy z1 z2 hdx hdy).2.2]
  unfold layerGrid
  have hsum : ∀ g A B C : ℝ, A = s * B + t * C → g * A = s * (g * B) + t * (g * C) := by intros; subst_vars; ring
  apply hsum
  rw [Finset.mul_sum, Finset.mul_sum, ← Finset.sum_add_distrib]
  apply Finset.sum_congr rfl
  intro k _
  rw [Finset.mul_sum, Finset.mul_sum, ← Finset.sum_add_distrib]
  apply Finset.sum_congr rfl
  intro l _
  split
  · ring
  · apply hsum
    rw [Finset.mul_sum, Finset.mul_sum, ← Finset.sum_add_distrib]
    apply Finset.sum_congr rfl
    intro a _
    rw [Finset.mul_sum, Finset.mul_sum, ← Finset.sum_add_distrib]
    apply Finset.sum_congr rfl
    intro b _
    ring

/-- **C72.** Splitting a layer at any depth adds up. -/
theorem C72_additive (ny nx : ℕ) (rho : ℕ → ℕ → ℝ) (dx dy z1 z2 z3 : ℝ) (hdx : dx ≠ 0) (hdy : dy ≠ 0) (i j : ℕ) :
    (grav2dLayer ⟨ny, nx, rho⟩ dx dy z1 z3).at' i j =
      (grav2dLayer ⟨ny, nx, rho⟩ dx dy z1 z2).at' i j + (grav2dLayer ⟨ny, nx, rho⟩ dx dy z2 z3).at' i j := by
  rw [(C72_value ny nx _ dx dy z1 z3 hdx hdy).2.2, (C72_value ny nx rho dx dy z1 z2 hdx hdy).2.2,
    (C72_value ny nx rho dx dy z2 z3 hdx hdy).2.2]
  unfold layerGrid
  rw [← mul_add, ← Finset.sum_add_distrib]
  congr 1
  apply Finset.sum_congr rfl
  intro k _
  rw [← Finset.sum_add_distrib]
  apply Finset.sum_congr rfl
  intro l _
  split
  · ring
  · ring

/-- **C72.** A layer without thickness has no effect. -/
theorem C72_zero_thickness (ny nx : ℕ) (rho : ℕ → ℕ → ℝ) (dx dy z : ℝ) (hdx : dx ≠ 0) (hdy : dy ≠ 0) (i j : ℕ) :
    (grav2dLayer ⟨ny, nx, rho⟩ dx dy z z).at' i j = 0 := by
  have := C72_additive ny nx rho dx dy z z z hdx hdy i j
  linarith

/-- **C72.** Uniform density gives zero. -/
theorem C72_uniform (ny nx : ℕ) (r dx dy z1 z2 : ℝ) (hdx : dx ≠ 0) (hdy : dy ≠ 0) (i j : ℕ) :
    (grav2dLayer ⟨ny, nx, fun _ _ => r⟩ dx dy z1 z2).at' i j = 0 := by
  rw [(C72_value ny nx _ dx dy z1 z2 hdx hdy).2.2]
  unfold layerGrid
  rw [mul_eq_zero]; right
  apply Finset.sum_eq_zero
  intro k hk
  apply Finset.sum_eq_zero
  intro l hl
  split
  · rfl
  · rename_i hz
    rw [mul_eq_zero]; right
    have hk' := Finset.mem_range.mp hk
    have hl' := Finset.mem_range.mp hl
    by_cases hl0 : l = 0
    · rw [Finset.sum_comm]
      apply Finset.sum_eq_zero
      intro b _
      rw [← Finset.mul_sum]
      rw [mul_eq_zero]; right
      have hny : (ny : ℝ) ≠ 0 := by exact_mod_cast (by omega : ny ≠ 0)
      rw [← cos_bin_sum_zero ny k (by omega) hk' (i : ℝ)]
      apply Finset.sum_congr rfl
      intro a _
      congr 1
      rw [hl0]
      simp only [Nat.cast_zero, zero_mul, zero_div, add_zero]
      ring
    · apply Finset.sum_eq_zero
      intro a _
      rw [← Finset.mul_sum]
      rw [mul_eq_zero]; right
      have hnx : (nx : ℝ) ≠ 0 := by exact_mod_cast (by omega : nx ≠ 0)
      have hlr : (l : ℝ) ≠ 0 := by exact_mod_cast hl0
      rw [← cos_bin_sum_zero nx l (by omega) hl' ((j : ℝ) + nx / l * (k * ((i : ℝ) - a) / ny))]
      apply Finset.sum_congr rfl
      intro b _
      congr 1
      field_simp
      ring

/-- **C73, what holds.** Every bin except number `⌊n/2⌋ + 1` has the DFT frequency, up to the sign of the Nyquist frequency. -/
theorem C73_other_bins_partial (n j : ℕ) (hj : j < n) (h : j ≠ n / 2 + 1) (d : ℝ) :
    kvalue j n (2 * Real.pi / (n * d)) = (signedFreq n j : ℝ) * (2 * Real.pi / (n * d)) ∨
      2 * j = n ∧ kvalue j n (2 * Real.pi / (n * d)) = -((signedFreq n j : ℝ) * (2 * Real.pi / (n * d))) := by
  rw [kvalue_eq]
  unfold layerFreq signedFreq
  by_cases h1 : 2 * j < n
  · left; rw [if_pos (by omega), if_pos h1]; push_cast; ring
  · by_cases h2 : 2 * j = n
    · right
      refine ⟨h2, ?_⟩
      rw [if_pos (by omega), if_neg h1]
      have : (n : ℝ) = 2 * j := by exact_mod_cast h2.symm
      push_cast
      rw [this]; ring
    · left; rw [if_neg (by omega), if_neg h1]; push_cast; ring

/-- **C73 fails for every size from 3 on.** Bin `⌊n/2⌋ + 1` gets a positive frequency, larger in size than the right one. -/
theorem C73_refuted (n : ℕ) (hn : 3 ≤ n) (d : ℝ) (hd : 0 < d) :
    n / 2 + 1 < n ∧ |(signedFreq n (n / 2 + 1) : ℝ) * (2 * Real.pi / (n * d))| < kvalue (n / 2 + 1) n (2 * Real.pi / (n * d)) := by
  refine ⟨by omega, ?_⟩
  have hn' : (0 : ℝ) < n := by exact_mod_cast (by omega : 0 < n)
  have hp : 0 < 2 * Real.pi / (n * d) := by positivity
  unfold kvalue signedFreq
  rw [if_neg (by omega), if_pos (by omega), abs_mul, abs_of_pos hp]
  apply mul_lt_mul_of_pos_right _ hp
  rw [abs_lt]
  constructor
  · have : -((n / 2 + 1 : ℕ) : ℤ) < ((n / 2 + 1 : ℕ) : ℤ) - n := by omega
    exact_mod_cast this
  · rw [Int.cast_sub, Int.cast_natCast, Int.cast_natCast]
    linarith

/-- **C73, what it does.** One row of three points with one cycle of density, wavelength `2π` km, between the surface and `log 2` km: the
amplitude should be `2πG (1 - 1/2) = 1/2` slab units but is `7/16`. -/
theorem C73_effect_refuted :
    (grav2dLayer ⟨1, 3, fun _ b => Real.cos (2 * Real.pi * b / 3)⟩ (2 * Real.pi / 3) 1 0 (Real.log 2)).at' 0 0 =
        7 / 16 * (2 * Real.pi * 6.673e-11 * 1e5 * 1e3) ∧
      layerGrid 1 3 (wavenumberOf signedFreq 1 3 1 (2 * Real.pi / 3)) 0 (Real.log 2) (2 * Real.pi * 6.673e-11 * 1e5 * 1e3)
        (fun _ b => Real.cos (2 * Real.pi * b / 3)) 0 0 = 1 / 2 * (2 * Real.pi * 6.673e-11 * 1e5 * 1e3) := by
  have hpi := Real.pi_ne_zero
  rw [(C72_value 1 3 _ (2 * Real.pi / 3) 1 0 (Real.log 2) (by positivity) (by norm_num)).2.2]
  have k0 : ∀ f : ℕ → ℕ → ℤ, f 1 0 = 0 → ∀ l, wavenumberOf f 1 3 1 (2 * Real.pi / 3) 0 l = |(f 3 l : ℝ)| := by
    intro f hf l
    unfold wavenumberOf
    rw [hf, ← Real.sqrt_sq_eq_abs]
    congr 1
    push_cast
    field_simp
    ring
  have c1 : Real.cos (2 * Real.pi / 3) = -(1 / 2) := by
    rw [show 2 * Real.pi / 3 = Real.pi - Real.pi / 3 by ring, Real.cos_pi_sub, Real.cos_pi_div_three]
  have c2 : Real.cos (2 * Real.pi * 2 / 3) = -(1 / 2) := by
    rw [show 2 * Real.pi * 2 / 3 = Real.pi / 3 + Real.pi by ring, Real.cos_add_pi, Real.cos_pi_div_three]
  have c4 : Real.cos (2 * Real.pi * 4 / 3) = -(1 / 2) := by
    rw [show 2 * Real.pi * 4 / 3 = 2 * Real.pi / 3 + 2 * Real.pi by ring, Real.cos_add_two_pi, c1]
  have e1 : Real.exp (-Real.log 2) = 1 / 2 := by rw [Real.exp_neg, Real.exp_log (by norm_num)]; norm_num
  have e2 : Real.exp (-(2 * Real.log 2)) = 1 / 4 := by
    rw [show -(2 * Real.log 2) = -Real.log 2 + -Real.log 2 by ring, Real.exp_add, e1]; norm_num
  have a1 : Real.cos (2 * Real.pi * (-1 / 3)) = -(1 / 2) := by
    rw [show 2 * Real.pi * (-1 / 3) = -(2 * Real.pi / 3) by ring, Real.cos_neg, c1]
  have a2 : Real.cos (2 * Real.pi * (-2 / 3)) = -(1 / 2) := by
    rw [show 2 * Real.pi * (-2 / 3) = -(2 * Real.pi * 2 / 3) by ring, Real.cos_neg, c2]
  have a4 : Real.cos (2 * Real.pi * (-4 / 3)) = -(1 / 2) := by
    rw [show 2 * Real.pi * (-4 / 3) = -(2 * Real.pi * 4 / 3) by ring, Real.cos_neg, c4]
  have d1 : Real.cos (Real.pi * (2 / 3)) = -(1 / 2) := by rw [show Real.pi * (2 / 3) = 2 * Real.pi / 3 by ring, c1]
  have d2 : Real.cos (Real.pi * (4 / 3)) = -(1 / 2) := by rw [show Real.pi * (4 / 3) = 2 * Real.pi * 2 / 3 by ring, c2]
  have d3 : Real.cos (Real.pi * (8 / 3)) = -(1 / 2) := by rw [show Real.pi * (8 / 3) = 2 * Real.pi * 4 / 3 by ring, c4]
  generalize (2 * Real.pi * 6.673e-11 * 1e5 * 1e3 : ℝ) = g
  have hl1 : |((layerFreq 3 1 : ℤ) : ℝ)| = 1 := by norm_num [layerFreq]
  have hl2 : |((layerFreq 3 2 : ℤ) : ℝ)| = 2 := by norm_num [layerFreq]
  have hs1 : |((signedFreq 3 1 : ℤ) : ℝ)| = 1 := by norm_num [signedFreq]
  have hs2 : |((signedFreq 3 2 : ℤ) : ℝ)| = 1 := by norm_num [signedFreq]
  have hgen : ∀ f : ℕ → ℕ → ℤ, f 1 0 = 0 → layerGrid 1 3 (wavenumberOf f 1 3 1 (2 * Real.pi / 3)) 0 (Real.log 2) g
      (fun _ b => Real.cos (2 * Real.pi * b / 3)) 0 0 = g / 2 * ((1 - Real.exp (-|(f 3 1 : ℝ)| * Real.log 2)) / |(f 3 1 : ℝ)| +
        (1 - Real.exp (-|(f 3 2 : ℝ)| * Real.log 2)) / |(f 3 2 : ℝ)|) := by
    intro f hf
    unfold layerGrid
    simp only [Finset.sum_range_succ, Finset.sum_range_zero, k0 f hf]
    norm_num [c1, c2, a1, a2, a4]
    ring_nf
    simp only [d1, d2, d3]
    ring
  refine ⟨?_, ?_⟩
  · rw [hgen layerFreq (by decide), hl1, hl2]
    rw [show -(1 : ℝ) * Real.log 2 = -Real.log 2 by ring, show -(2 : ℝ) * Real.log 2 = -(2 * Real.log 2) by ring, e1, e2]
    ring
  · rw [hgen signedFreq (by decide), hs1, hs2]
    rw [show -(1 : ℝ) * Real.log 2 = -Real.log 2 by ring, e1]
    ring

/-! ## Non-vacuity -/

example : layerFreq 6 4 = 4 ∧ signedFreq 6 4 = -2 ∧ layerFreq 6 5 = -1 ∧ signedFreq 6 5 = -1 ∧ layerFreq 6 2 = signedFreq 6 2 := by decide

end Shipgrav
