import Verif.Model.Parker1d
import Verif.Spec.Parker
import Verif.Lemmas.Fft
import Verif.Lemmas.CrossCoupling

/-! The steps of `grav1d_padded` as functions of the index. -/

namespace Shipgrav.Parker1
open Spec

theorem mirror_get (N i : ℕ) (hi : i < N) : (mirrorIndices (halfIndices N))[i]? = some (usedCycles N i + 1) := by
  unfold mirrorIndices halfIndices usedCycles
  have hl : ((List.range ((N + 1) / 2 + 1)).map (· + 1)).length = (N + 1) / 2 + 1 := by simp
  by_cases h : i ≤ (N + 1) / 2
  · rw [List.getElem?_append_left (by rw [hl]; omega), List.getElem?_map, List.getElem?_range (by omega), if_pos h]; rfl
  · rw [List.getElem?_append_right (by rw [hl]; omega), hl, if_neg h, List.getElem?_reverse (by simp; omega)]
    simp only [List.length_drop, List.length_take, List.length_map, List.length_range, List.getElem?_drop]
    rw [List.getElem?_take_of_lt (by omega), List.getElem?_map, List.getElem?_range (by omega)]
    simp only [Option.map_some, Option.some.injEq]
    omega

/-- The wavenumbers, for every number of points. -/
theorem wavenumbers_eq (N : ℕ) (dx : ℝ) :
    wavenumbers1d N dx = samples (fun k => |2 * Real.pi / (N * dx)| * usedCycles N k) N := by
  unfold wavenumbers1d samples
  simp only
  apply List.ext_getElem?
  intro i
  simp only [List.getElem?_map]
  by_cases hi : i < N
  · rw [List.getElem?_take_of_lt hi, List.getElem?_map, mirror_get N i hi, List.getElem?_range hi]
    simp only [Option.map_some, Option.some.injEq]
    push_cast
    rw [show ((usedCycles N i : ℝ) + 1 - 1) * ((usedCycles N i : ℝ) + 1 - 1) * (2 * Real.pi / (N * dx)) ^ 2 =
      (2 * Real.pi / (N * dx) * usedCycles N i) ^ 2 by ring, Real.sqrt_sq_eq_abs, abs_mul, Nat.abs_cast]
  · rw [List.getElem?_eq_none (by simp; omega), List.getElem?_eq_none (by simp; omega)]
    simp

theorem pad_eq (n : ℕ) (hn : 0 < n) (h : ℕ → ℝ) : padTopo (samples h n) = samples (carriedOn n h) (5 * n) := by
  have hd : (samples h n).headD 0 = h 0 := by
    obtain ⟨m, rfl⟩ : ∃ m, n = m + 1 := ⟨n - 1, by omega⟩
    simp [samples, List.range_succ_eq_map]
  have hlst : (samples h n).getLastD 0 = h (n - 1) := by
    obtain ⟨m, rfl⟩ : ∃ m, n = m + 1 := ⟨n - 1, by omega⟩
    simp [samples, List.range_succ]
  unfold padTopo
  rw [hd, hlst, samples_length]
  apply List.ext_getElem?
  intro i
  unfold carriedOn
  by_cases h1 : i < 2 * n
  · rw [List.getElem?_append_left (by simpa using h1), List.getElem?_replicate, if_pos h1]
    simp only [samples, List.getElem?_map]
    rw [List.getElem?_range (by omega)]
    simp [h1]
  · rw [List.getElem?_append_right (by simp; omega), List.length_replicate]
    by_cases h2 : i < 3 * n
    · rw [List.getElem?_append_left (by simp; omega)]
      simp only [samples, List.getElem?_map]
      rw [List.getElem?_range (by omega), List.getElem?_range (by omega)]
      simp [h1, h2]
    · rw [List.getElem?_append_right (by simp; omega), List.getElem?_replicate]
      simp only [samples, List.getElem?_map, List.length_map, List.length_range]
      by_cases h3 : i < 5 * n
      · rw [if_pos (by omega), List.getElem?_range (by omega)]
        simp [h1, h2]
      · rw [if_neg (by omega), List.getElem?_eq_none (by simp; omega)]
        rfl

theorem zip_samples' {α β γ : Type} (f : α → β → γ) (x : ℕ → α) (y : ℕ → β) (n : ℕ) :
    List.zipWith f (samples x n) (samples y n) = samples (fun i => f (x i) (y i)) n := by
  unfold samples
  rw [List.zipWith_map, List.zipWith_self]

theorem map_samples {α β : Type} (f : α → β) (x : ℕ → α) (n : ℕ) : (samples x n).map f = samples (fun i => f (x i)) n := by
  unfold samples
  rw [List.map_map]; rfl

/-- Sum of five powers of the spectrum at bin `k`. -/
noncomputable def spec5 (N : ℕ) (κ h : ℕ → ℝ) (k : ℕ) : ℂ :=
  if k = 0 then 0 else ∑ p ∈ Finset.Icc 1 5, ((κ k ^ (p - 1) / p.factorial : ℝ) : ℂ) *
    ∑ m ∈ Finset.range N, ((h m ^ p : ℝ) : ℂ) * Complex.exp (-2 * Real.pi * Complex.I * (k * m) / N)

theorem parkerSum_eq (N : ℕ) (κ h : ℕ → ℝ) (hκ : κ 0 = 0) :
    parkerSum1d (samples h N) (samples κ N) = samples (spec5 N κ h) N := by
  unfold parkerSum1d
  simp only [List.foldl_cons, List.foldl_nil]
  have hset : ∀ f : ℕ → ℂ, (samples f N).set 0 0 = samples (fun k => if k = 0 then 0 else f k) N := by
    intro f
    apply List.ext_getElem?
    intro i
    rw [List.getElem?_set]
    simp only [samples, List.getElem?_map, List.length_map, List.length_range]
    by_cases h0 : 0 = i
    · subst h0
      by_cases hN : 0 < N
      · rw [List.getElem?_range hN]; simp [hN]
      · have : N = 0 := by omega
        subst this; simp
    · rw [if_neg h0]
      by_cases hi : i < N
      · rw [List.getElem?_range hi]; simp [Ne.symm h0]
      · rw [List.getElem?_eq_none (by simp; omega)]; rfl
  have hterm : ∀ ip : ℕ, parkerTerm1d (samples h N) (samples κ N) ip = samples (fun k =>
      (∑ m ∈ Finset.range N, ((h m ^ ip : ℝ) : ℂ) * Complex.exp (-2 * Real.pi * Complex.I * (k * m) / N)) *
        ((κ k ^ (ip - 1) : ℝ) : ℂ) / (ip.factorial : ℂ)) N := by
    intro ip
    unfold parkerTerm1d
    rw [map_samples, fft_samples, zip_samples']
  rw [map_samples, fft_samples, hset, hterm, hterm, hterm, hterm, zip_samples', zip_samples', zip_samples', zip_samples']
  apply samples_congr
  intro k _
  unfold spec5
  by_cases hk : k = 0
  · subst hk
    simp [hκ]
  · simp only [if_neg hk]
    rw [show Finset.Icc 1 5 = {1, 2, 3, 4, 5} from rfl]
    simp only [Finset.sum_insert, Finset.mem_insert, Finset.mem_singleton, Finset.sum_singleton, Nat.reduceEqDiff, or_self, not_false_eq_true,
      OfNat.ofNat_ne_one, OfNat.one_ne_ofNat]
    push_cast
    simp [Nat.factorial]
    ring

theorem data_eq (xtopo : List ℝ) (n : ℕ) (hn : 0 < n) (h : ℕ → ℝ) (zlev rho : ℝ) :
    let N := 5 * n
    let dx := (xtopo.getLastD 0 - xtopo.headD 0) / (xtopo.length - 1)
    let κ := fun k => |2 * Real.pi / ((N : ℕ) * dx)| * usedCycles N k
    let c := zlev - (∑ i ∈ Finset.range n, h i) / n
    parkerData1d xtopo (samples h n) zlev rho = samples (fun j => (1 / (N : ℕ) : ℂ) *
      ∑ k ∈ Finset.range N, spec5 N κ (carriedOn n h) k * ((2 * Real.pi * (6.673 * 1e-8) * rho : ℝ) : ℂ) *
        ((Real.exp (-c * κ k) : ℝ) : ℂ) * Complex.exp (2 * Real.pi * Complex.I * (j * k) / (N : ℕ))) N := by
  intro N dx κ c
  unfold parkerData1d
  simp only
  have hsum : (samples h n).sum = ∑ i ∈ Finset.range n, h i := by unfold samples; rw [sum_map_range]
  rw [pad_eq n hn h, samples_length, samples_length, hsum]
  have hk : wavenumbers1d (5 * n) ((xtopo.getLastD 0 - xtopo.headD 0) / (xtopo.length - 1)) = samples κ N := wavenumbers_eq _ _
  rw [hk, parkerSum_eq N κ _ (by simp [κ, usedCycles]), zip_samples', ifft_samples]

end Shipgrav.Parker1
