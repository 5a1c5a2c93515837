import Verif.Model.Parker1d
import Verif.Spec.Parker
import Verif.Lemmas.Fft
import Verif.Lemmas.CrossCoupling
import Verif.Lemmas.Parker1d

/-! Property theorems C68 and C69: gravity of a profile. -/

namespace Shipgrav
open Spec Parker1

/-- Real and imaginary part of the inverse transform. -/
private theorem data_entry (N : ℕ) (κ h : ℕ → ℝ) (c g : ℝ) (j : ℕ) :
    (1 / (N : ℂ)) * ∑ k ∈ Finset.range N, spec5 N κ h k * (g : ℂ) * ((Real.exp (-c * κ k) : ℝ) : ℂ) *
        Complex.exp (2 * Real.pi * Complex.I * (j * k) / N) =
      ∑ k ∈ Finset.Ico 1 N, ∑ p ∈ Finset.Icc 1 5, ∑ m ∈ Finset.range N,
        ((g / N * (Real.exp (-c * κ k) * (κ k ^ (p - 1) / p.factorial * h m ^ p)) : ℝ) : ℂ) *
          Complex.exp (((2 * Real.pi * k * ((j : ℝ) - m) / N : ℝ) : ℂ) * Complex.I) := by
  rw [Finset.mul_sum]
  rcases Nat.eq_zero_or_pos N with rfl | hN
  · simp
  rw [Finset.range_eq_Ico, Finset.sum_eq_sum_Ico_succ_bot hN]
  simp only [spec5, if_true, zero_mul, mul_zero, zero_add]
  apply Finset.sum_congr rfl
  intro k hk
  have hk0 : k ≠ 0 := by have := (Finset.mem_Ico.mp hk).1; omega
  simp only [if_neg hk0]
  rw [Finset.sum_mul, Finset.sum_mul, Finset.sum_mul, Finset.mul_sum]
  apply Finset.sum_congr rfl
  intro p _
  rw [Finset.mul_sum, Finset.sum_mul, Finset.sum_mul, Finset.sum_mul, Finset.mul_sum, ← Finset.range_eq_Ico]
  apply Finset.sum_congr rfl
  intro m _
  have he : Complex.exp (((2 * Real.pi * k * ((j : ℝ) - m) / N : ℝ) : ℂ) * Complex.I) =
      Complex.exp (-2 * Real.pi * Complex.I * (k * m) / N) * Complex.exp (2 * Real.pi * Complex.I * (j * k) / N) := by
    rw [← Complex.exp_add]
    congr 1
    push_cast
    ring
  rw [he]
  push_cast
  ring

theorem entry_re (N : ℕ) (κ h : ℕ → ℝ) (c g : ℝ) (j : ℕ) :
    ((1 / (N : ℂ)) * ∑ k ∈ Finset.range N, spec5 N κ h k * (g : ℂ) * ((Real.exp (-c * κ k) : ℝ) : ℂ) *
        Complex.exp (2 * Real.pi * Complex.I * (j * k) / N)).re = parkerLine N κ c g h j := by
  rw [data_entry]
  simp only [Complex.re_sum, re_real_mul_exp]
  unfold parkerLine
  simp only [Finset.mul_sum]
  apply Finset.sum_congr rfl
  intro k _
  apply Finset.sum_congr rfl
  intro p _
  apply Finset.sum_congr rfl
  intro m _
  ring

/-- **C68.** The anomaly at every point, for every length: Parker's series for the profile carried on at both ends, seen from its mean
level, with `usedCycles` for the wavenumbers.  There is one value for each point. -/
theorem C68_value (xtopo : List ℝ) (n : ℕ) (hx : xtopo.length = n) (hn : 0 < n) (h : ℕ → ℝ) (zlev rho : ℝ) :
    let dx := (xtopo.getLastD 0 - xtopo.headD 0) / (n - 1)
    grav1dPadded xtopo (samples h n) zlev rho = .ok (samples (fun i =>
      100 * parkerLine (5 * n) (fun k => |2 * Real.pi / ((5 * n : ℕ) * dx)| * usedCycles (5 * n) k)
        (zlev - (∑ i ∈ Finset.range n, h i) / n) (2 * Real.pi * (6.673 * 1e-8) * rho) (carriedOn n h) (2 * n + i)) n) := by
  intro dx
  unfold grav1dPadded
  have h1 : xtopo ≠ [] := by intro h; simp [h] at hx; omega
  have h2 : samples h n ≠ [] := by
    intro h0
    have := congrArg List.length h0
    rw [samples_length] at this
    simp at this; omega
  rw [if_neg h1, if_neg h2]
  simp only
  rw [data_eq xtopo n hn h zlev rho, hx]
  have hs := slice_samples (fun j => (1 / (5 * n : ℕ) : ℂ) *
      ∑ k ∈ Finset.range (5 * n), spec5 (5 * n) (fun k => |2 * Real.pi / ((5 * n : ℕ) * dx)| * usedCycles (5 * n) k) (carriedOn n h) k *
        ((2 * Real.pi * (6.673 * 1e-8) * rho : ℝ) : ℂ) *
        ((Real.exp (-(zlev - (∑ i ∈ Finset.range n, h i) / n) * (|2 * Real.pi / ((5 * n : ℕ) * dx)| * usedCycles (5 * n) k)) : ℝ) : ℂ) *
          Complex.exp (2 * Real.pi * Complex.I * (j * k) / (5 * n : ℕ))) (5 * n) (2 * n) (3 * n) (by omega)
  unfold ccSlice at hs
  simp only at hs
  rw [hs, map_samples, show 3 * n - 2 * n = n by omega]
  congr 1
  apply samples_congr
  intro i _
  rw [entry_re, mul_comm]

/-- **C68.** Flat topography gives zero at every point. -/
theorem C68_flat (xtopo : List ℝ) (n : ℕ) (hx : xtopo.length = n) (hn : 0 < n) (z zlev rho : ℝ) :
    grav1dPadded xtopo (List.replicate n z) zlev rho = .ok (List.replicate n 0) := by
  have hr : ∀ a : ℝ, List.replicate n a = samples (fun _ => a) n := by
    intro a; unfold samples; rw [List.map_const', List.length_range]
  rw [hr, hr, C68_value xtopo n hx hn]
  congr 1
  apply samples_congr
  intro i _
  have hc : carriedOn n (fun _ => z) = fun _ => z := by funext m; unfold carriedOn; simp
  rw [hc]
  unfold parkerLine
  rw [mul_eq_zero]; right
  rw [mul_eq_zero]; right
  apply Finset.sum_eq_zero
  intro k hk
  obtain ⟨hk1, hk2⟩ := Finset.mem_Ico.mp hk
  rw [mul_eq_zero]; right
  apply Finset.sum_eq_zero
  intro p _
  rw [← Finset.mul_sum, cos_bin_sum_zero (5 * n) k (by omega) hk2, mul_zero, mul_zero]

/-- **C68.** The anomaly is linear in the density contrast. -/
theorem C68_linear (xtopo : List ℝ) (n : ℕ) (hx : xtopo.length = n) (hn : 0 < n) (h : ℕ → ℝ) (zlev r₁ r₂ a b : ℝ) :
    ∃ v₁ v₂ : ℕ → ℝ, grav1dPadded xtopo (samples h n) zlev r₁ = .ok (samples v₁ n) ∧
      grav1dPadded xtopo (samples h n) zlev r₂ = .ok (samples v₂ n) ∧
      grav1dPadded xtopo (samples h n) zlev (a * r₁ + b * r₂) = .ok (samples (fun i => a * v₁ i + b * v₂ i) n) := by
  refine ⟨_, _, C68_value xtopo n hx hn h zlev r₁, C68_value xtopo n hx hn h zlev r₂, ?_⟩
  rw [C68_value xtopo n hx hn]
  congr 1
  apply samples_congr
  intro i _
  unfold parkerLine
  ring

/-- **C69, part.** For an even number of points the wavenumber of each DFT bin is the right one. -/
theorem C69_wavenumbers_even_partial (N : ℕ) (hN : Even N) (dx : ℝ) (hdx : 0 < dx) :
    wavenumbers1d N dx = samples (fun k => 2 * Real.pi / (N * dx) * cycles N k) N := by
  rw [wavenumbers_eq]
  apply samples_congr
  intro k hk
  rw [abs_of_nonneg (by positivity)]
  congr 2
  unfold usedCycles cycles
  obtain ⟨m, rfl⟩ := hN
  split <;> omega

/-- **C69, part.** For an even number of points the inverse transform is real: taking the real part loses nothing. -/
theorem C69_real_even_partial (xtopo : List ℝ) (n : ℕ) (hn : 0 < n) (he : Even n) (h : ℕ → ℝ) (zlev rho : ℝ) :
    ∀ d ∈ parkerData1d xtopo (samples h n) zlev rho, d.im = 0 := by
  intro d hd
  rw [data_eq xtopo n hn h zlev rho] at hd
  obtain ⟨j, _, rfl⟩ := List.mem_map.mp hd
  rw [data_entry]
  simp only [Complex.im_sum, im_real_mul_exp]
  obtain ⟨N, hN⟩ : ∃ N, N = 5 * n := ⟨_, rfl⟩
  rw [← hN]
  have hNe : N % 2 = 0 := by obtain ⟨m, rfl⟩ := he; omega
  have hsym : ∀ k ∈ Finset.Ico 1 N, usedCycles N (N - k) = usedCycles N k := by
    intro k hk
    have := Finset.mem_Ico.mp hk
    unfold usedCycles
    split <;> split <;> omega
  have hNpos : 0 < N := by omega
  have hNr : (N : ℝ) ≠ 0 := by exact_mod_cast hNpos.ne'
  have key : ∀ S : ℝ, S = -S → S = 0 := fun S h => by linarith
  apply key
  nth_rewrite 1 [← sum_reflect_bins N]
  rw [← Finset.sum_neg_distrib]
  · apply Finset.sum_congr rfl
    intro k hk
    rw [hsym k hk, ← Finset.sum_neg_distrib]
    apply Finset.sum_congr rfl
    intro p _
    rw [← Finset.sum_neg_distrib]
    apply Finset.sum_congr rfl
    intro m _
    have hkN : k ≤ N := by have := (Finset.mem_Ico.mp hk).2; omega
    have hsin : Real.sin (2 * Real.pi * ((N - k : ℕ) : ℝ) * ((j : ℝ) - m) / N) = -Real.sin (2 * Real.pi * k * ((j : ℝ) - m) / N) := by
      rw [Nat.cast_sub hkN, show 2 * Real.pi * ((N : ℝ) - k) * ((j : ℝ) - m) / N =
        ((j - m : ℤ) : ℝ) * (2 * Real.pi) - 2 * Real.pi * k * ((j : ℝ) - m) / N by push_cast; field_simp]
      exact Real.sin_int_mul_two_pi_sub _ _
    rw [hsin]
    ring

/-- **C69, refuted.** For every odd number of points (at least three) the last bin, which stands for one cycle, gets the wavenumber of two. -/
theorem C69_odd_refuted (N : ℕ) (hN : Odd N) (h3 : 3 < N) (dx : ℝ) (hdx : 0 < dx) :
    cycles N (N - 1) = 1 ∧ (wavenumbers1d N dx)[N - 1]? = some (2 * (2 * Real.pi / (N * dx))) := by
  obtain ⟨m, rfl⟩ := hN
  constructor
  · unfold cycles; omega
  · rw [wavenumbers_eq]
    unfold samples
    rw [List.getElem?_map, List.getElem?_range (by omega), Option.map_some, abs_of_nonneg (by positivity)]
    have : usedCycles (2 * m + 1) (2 * m + 1 - 1) = 2 := by
      unfold usedCycles
      split <;> omega
    rw [this]
    push_cast
    congr 1
    ring

/-! ## Non-vacuity -/

/-- For 15 points the last bin is given two cycles instead of one. -/
example : usedCycles 10 7 = 3 ∧ usedCycles 15 14 = 2 ∧ cycles 15 14 = 1 ∧ usedCycles 15 8 = 8 := by decide

example : carriedOn 2 (fun i => (i : ℝ) + 1) 3 = 1 ∧ carriedOn 2 (fun i => (i : ℝ) + 1) 5 = 2 ∧ carriedOn 2 (fun i => (i : ℝ) + 1) 9 = 2 := by
  norm_num [carriedOn]

end Shipgrav
