import Verif.Lemmas.Fft
import Verif.Spec.Parker
import Mathlib.Analysis.SpecialFunctions.Exponential

/-! Single cosines in the discrete Fourier sums of Parker's series and of the layer. -/

namespace Shipgrav
open Spec Real

/-- A cosine summed over a full set of points. -/
theorem cos_full (N : ℕ) (r : ℤ) (β : ℝ) :
    ∑ a ∈ Finset.range N, cos (2 * π * r * a / N + β) = if (N : ℤ) ∣ r then N * cos β else 0 := by
  rcases Nat.eq_zero_or_pos N with rfl | hN
  · simp
  have hNr : (N : ℝ) ≠ 0 := by exact_mod_cast hN.ne'
  have hred : ∀ a ∈ Finset.range N, cos (2 * π * r * a / N + β) = cos (2 * π * ((r % N : ℤ) : ℝ) * a / N + β) := by
    intro a _
    have h : (r : ℝ) = ((r % N : ℤ) : ℝ) + (N : ℝ) * ((r / N : ℤ) : ℝ) := by exact_mod_cast (Int.emod_add_mul_ediv r N).symm
    rw [show 2 * π * (r : ℝ) * a / N + β = (2 * π * ((r % N : ℤ) : ℝ) * a / N + β) + ((r / N * a : ℤ) : ℝ) * (2 * π) by
      rw [h]; push_cast; field_simp; ring, cos_add_int_mul_two_pi]
  rw [Finset.sum_congr rfl hred]
  have h0 := Int.emod_nonneg r (by omega : (N : ℤ) ≠ 0)
  have h1 := Int.emod_lt_of_pos r (by omega : (0 : ℤ) < N)
  by_cases hd : (N : ℤ) ∣ r
  · rw [if_pos hd, Int.emod_eq_zero_of_dvd hd]
    simp
  · rw [if_neg hd]
    have hne : r % N ≠ 0 := fun h => hd (Int.dvd_of_emod_eq_zero h)
    obtain ⟨k, hk⟩ := Int.eq_ofNat_of_zero_le h0
    rw [hk] at h1 hne ⊢
    have hk0 : (k : ℝ) ≠ 0 := by
      intro h
      exact hne (by exact_mod_cast h)
    have := cos_bin_sum_zero N k (by omega) (by omega) (-β * N / (2 * π * k))
    rw [← this]
    refine Finset.sum_congr rfl fun a _ => ?_
    rw [← cos_neg]
    congr 1
    have := pi_ne_zero
    push_cast
    field_simp
    ring

/-- One bin sees a cosine when its number is that of the cosine or of its mirror image. -/
theorem cos_bin (N p k : ℕ) (α : ℝ) (i : ℕ) :
    ∑ a ∈ Finset.range N, cos (2 * π * p * a / N + α) * cos (2 * π * k * ((i : ℝ) - a) / N) =
      N / 2 * ((if (N : ℤ) ∣ (p : ℤ) - k then cos (2 * π * k * i / N + α) else 0) +
        (if (N : ℤ) ∣ (p : ℤ) + k then cos (-(2 * π * k * i / N) + α) else 0)) := by
  have hterm : ∀ a ∈ Finset.range N, cos (2 * π * p * a / N + α) * cos (2 * π * k * ((i : ℝ) - a) / N) =
      1 / 2 * cos (2 * π * (((p : ℤ) - k : ℤ) : ℝ) * a / N + (2 * π * k * i / N + α)) +
      1 / 2 * cos (2 * π * (((p : ℤ) + k : ℤ) : ℝ) * a / N + (-(2 * π * k * i / N) + α)) := by
    intro a _
    have h1 : 2 * π * (((p : ℤ) - k : ℤ) : ℝ) * a / N + (2 * π * k * i / N + α) =
        (2 * π * p * a / N + α) + 2 * π * k * ((i : ℝ) - a) / N := by push_cast; ring
    have h2 : 2 * π * (((p : ℤ) + k : ℤ) : ℝ) * a / N + (-(2 * π * k * i / N) + α) =
        (2 * π * p * a / N + α) - 2 * π * k * ((i : ℝ) - a) / N := by push_cast; ring
    rw [h1, h2]
    generalize 2 * π * p * a / N + α = x
    generalize 2 * π * k * ((i : ℝ) - a) / N = y
    rw [cos_add, cos_sub]
    ring
  rw [Finset.sum_congr rfl hterm, Finset.sum_add_distrib, ← Finset.mul_sum, ← Finset.mul_sum, cos_full, cos_full]
  split <;> split <;> ring

/-- Weights that are the same for a bin and its mirror image multiply a cosine by the weight of its bin. -/
theorem cos_pick (N p : ℕ) (hp : p < N) (f : ℕ → ℝ) (hf : ∀ k, 1 ≤ k → k < N → f (N - k) = f k) (α : ℝ) (i : ℕ) :
    ∑ k ∈ Finset.range N, f k * ∑ a ∈ Finset.range N, cos (2 * π * p * a / N + α) * cos (2 * π * k * ((i : ℝ) - a) / N) =
      N * f p * cos (2 * π * p * i / N + α) := by
  have hNr : (N : ℝ) ≠ 0 := by exact_mod_cast (by omega : N ≠ 0)
  have hterm : ∀ k ∈ Finset.range N, f k * ∑ a ∈ Finset.range N, cos (2 * π * p * a / N + α) * cos (2 * π * k * ((i : ℝ) - a) / N) =
      (if k = p then N / 2 * (f p * cos (2 * π * p * i / N + α)) else 0) +
      (if k = (N - p) % N then N / 2 * (f p * cos (2 * π * p * i / N + α)) else 0) := by
    intro k hk
    have hk := Finset.mem_range.1 hk
    rw [cos_bin, mul_left_comm, mul_add, mul_add]
    congr 1
    · have hiff : (N : ℤ) ∣ (p : ℤ) - k ↔ k = p := by
        constructor
        · rintro ⟨t, ht⟩
          have : t = 0 := by
            by_contra hne
            rcases lt_or_gt_of_ne hne with h | h
            · have : (N : ℤ) * t ≤ N * (-1) := mul_le_mul_of_nonneg_left (by omega) (by omega)
              omega
            · have : (N : ℤ) * 1 ≤ N * t := mul_le_mul_of_nonneg_left (by omega) (by omega)
              omega
          rw [this] at ht
          omega
        · rintro rfl
          simp
      by_cases h : k = p
      · rw [if_pos (hiff.2 h), if_pos h, h]
      · rw [if_neg (fun x => h (hiff.1 x)), if_neg h]
        simp
    · have hiff : (N : ℤ) ∣ (p : ℤ) + k ↔ k = (N - p) % N := by
        rcases Nat.eq_zero_or_pos p with rfl | hp0
        · rw [Nat.sub_zero, Nat.mod_self]
          constructor
          · rintro h
            rw [Nat.cast_zero, zero_add, Int.natCast_dvd_natCast] at h
            exact Nat.eq_zero_of_dvd_of_lt h hk
          · rintro rfl
            simp
        · rw [Nat.mod_eq_of_lt (by omega)]
          constructor
          · rintro ⟨t, ht⟩
            have : t = 1 := by
              by_contra hne
              rcases lt_or_gt_of_ne hne with h | h
              · have : (N : ℤ) * t ≤ N * 0 := mul_le_mul_of_nonneg_left (by omega) (by omega)
                omega
              · have : (N : ℤ) * 2 ≤ N * t := mul_le_mul_of_nonneg_left (by omega) (by omega)
                omega
            rw [this] at ht
            omega
          · rintro rfl
            exact ⟨1, by omega⟩
      by_cases h : k = (N - p) % N
      · rw [if_pos (hiff.2 h), if_pos h]
        rcases Nat.eq_zero_or_pos p with rfl | hp0
        · rw [Nat.sub_zero, Nat.mod_self] at h
          rw [h]
          simp
        · rw [Nat.mod_eq_of_lt (by omega)] at h
          rw [h, hf p hp0 hp, Nat.cast_sub hp.le,
            show -(2 * π * ((N : ℝ) - p) * i / N) + α = (2 * π * p * i / N + α) - (i : ℕ) * (2 * π) by field_simp; ring,
            cos_sub_nat_mul_two_pi]
      · rw [if_neg (fun x => h (hiff.1 x)), if_neg h]
        simp
  rw [Finset.sum_congr rfl hterm, Finset.sum_add_distrib, Finset.sum_ite_eq' , Finset.sum_ite_eq', if_pos (Finset.mem_range.2 hp),
    if_pos (Finset.mem_range.2 (Nat.mod_lt _ (by omega)))]
  ring

/-- The same in two directions. -/
theorem cos_pick2 (M N p q : ℕ) (hp : p < M) (hq : q < N) (W : ℕ → ℕ → ℝ) (hM : ∀ k l, 1 ≤ k → k < M → W (M - k) l = W k l)
    (hN : ∀ k l, 1 ≤ l → l < N → W k (N - l) = W k l) (α β H : ℝ) (i j : ℕ) :
    ∑ k ∈ Finset.range M, ∑ l ∈ Finset.range N, W k l * ∑ a ∈ Finset.range M, ∑ b ∈ Finset.range N,
        H * (cos (2 * π * p * a / M + α) * cos (2 * π * q * b / N + β)) *
          (cos (2 * π * k * ((i : ℝ) - a) / M) * cos (2 * π * l * ((j : ℝ) - b) / N)) =
      M * N * W p q * H * (cos (2 * π * p * i / M + α) * cos (2 * π * q * j / N + β)) := by
  have hsep : ∀ k l : ℕ, (∑ a ∈ Finset.range M, ∑ b ∈ Finset.range N,
        H * (cos (2 * π * p * a / M + α) * cos (2 * π * q * b / N + β)) *
          (cos (2 * π * k * ((i : ℝ) - a) / M) * cos (2 * π * l * ((j : ℝ) - b) / N))) =
      H * (∑ a ∈ Finset.range M, cos (2 * π * p * a / M + α) * cos (2 * π * k * ((i : ℝ) - a) / M)) *
        ∑ b ∈ Finset.range N, cos (2 * π * q * b / N + β) * cos (2 * π * l * ((j : ℝ) - b) / N) := by
    intro k l
    rw [mul_assoc H, Finset.sum_mul_sum, Finset.mul_sum]
    refine Finset.sum_congr rfl fun a _ => ?_
    rw [Finset.mul_sum]
    refine Finset.sum_congr rfl fun b _ => ?_
    ring
  have hin : ∀ k ∈ Finset.range M, (∑ l ∈ Finset.range N, W k l * ∑ a ∈ Finset.range M, ∑ b ∈ Finset.range N,
        H * (cos (2 * π * p * a / M + α) * cos (2 * π * q * b / N + β)) *
          (cos (2 * π * k * ((i : ℝ) - a) / M) * cos (2 * π * l * ((j : ℝ) - b) / N))) =
      H * (N * cos (2 * π * q * j / N + β)) *
        (W k q * ∑ a ∈ Finset.range M, cos (2 * π * p * a / M + α) * cos (2 * π * k * ((i : ℝ) - a) / M)) := by
    intro k _
    have := cos_pick N q hq (W k) (hN k) β j
    rw [show H * (N * cos (2 * π * q * j / N + β)) *
        (W k q * ∑ a ∈ Finset.range M, cos (2 * π * p * a / M + α) * cos (2 * π * k * ((i : ℝ) - a) / M)) =
      H * (∑ a ∈ Finset.range M, cos (2 * π * p * a / M + α) * cos (2 * π * k * ((i : ℝ) - a) / M)) *
        (N * W k q * cos (2 * π * q * j / N + β)) by ring, ← this, Finset.mul_sum]
    refine Finset.sum_congr rfl fun l _ => ?_
    rw [hsep]
    ring
  rw [Finset.sum_congr rfl hin, ← Finset.mul_sum, cos_pick M p hp (fun k => W k q) (fun k => hM k q)]
  ring

theorem cycles_symm (N k : ℕ) (hk : k ≤ N) : cycles N (N - k) = cycles N k := by unfold cycles; omega

/-- A product of cosines under the first power of Parker's series. -/
theorem parker_mode (M N p q : ℕ) (hp : p < M) (hq : q < N) (hpq : p ≠ 0 ∨ q ≠ 0) (dy dx c g α β H : ℝ) (h : ℕ → ℕ → ℝ)
    (hh : ∀ a < M, ∀ b < N, h a b = H * (cos (2 * π * p * a / M + α) * cos (2 * π * q * b / N + β))) (i j : ℕ) :
    parkerGrid M N (gridWavenumber M N dy dx) c g 1 h i j =
      g * exp (-c * gridWavenumber M N dy dx p q) * H * (cos (2 * π * p * i / M + α) * cos (2 * π * q * j / N + β)) := by
  have hMr : (M : ℝ) ≠ 0 := by exact_mod_cast (by omega : M ≠ 0)
  have hNr : (N : ℝ) ≠ 0 := by exact_mod_cast (by omega : N ≠ 0)
  have hpick := cos_pick2 M N p q hp hq (fun k l => if k = 0 ∧ l = 0 then 0 else exp (-c * gridWavenumber M N dy dx k l)) ?_ ?_ α β H i j
  · rw [if_neg (by omega)] at hpick
    unfold parkerGrid
    have hs : (∑ k ∈ Finset.range M, ∑ l ∈ Finset.range N, if k = 0 ∧ l = 0 then 0 else
        exp (-c * gridWavenumber M N dy dx k l) * ∑ p ∈ Finset.Icc 1 1, gridWavenumber M N dy dx k l ^ (p - 1) / p.factorial *
          ∑ a ∈ Finset.range M, ∑ b ∈ Finset.range N,
            h a b ^ p * (cos (2 * π * k * ((i : ℝ) - a) / M) * cos (2 * π * l * ((j : ℝ) - b) / N))) = 
        M * N * exp (-c * gridWavenumber M N dy dx p q) * H * (cos (2 * π * p * i / M + α) * cos (2 * π * q * j / N + β)) := by
      rw [← hpick]
      refine Finset.sum_congr rfl fun k _ => Finset.sum_congr rfl fun l _ => ?_
      split
      · simp
      · congr 1
        simp only [Finset.Icc_self, Finset.sum_singleton, Nat.sub_self, pow_zero, Nat.factorial_one, Nat.cast_one, div_one, one_mul, pow_one]
        refine Finset.sum_congr rfl fun a ha => Finset.sum_congr rfl fun b hb => ?_
        rw [hh a (Finset.mem_range.1 ha) b (Finset.mem_range.1 hb)]
    rw [hs]
    field_simp
  · intro k l h1 h2
    have : gridWavenumber M N dy dx (M - k) l = gridWavenumber M N dy dx k l := by
      unfold gridWavenumber; rw [cycles_symm M k h2.le]
    rw [if_neg (by omega), if_neg (by omega), this]
  · intro k l h1 h2
    have : gridWavenumber M N dy dx k (N - l) = gridWavenumber M N dy dx k l := by
      unfold gridWavenumber; rw [cycles_symm N l h2.le]
    rw [if_neg (by omega), if_neg (by omega), this]

/-- A plane wave summed over a full grid. -/
theorem cos_full2 (M N : ℕ) (r s : ℤ) (β : ℝ) :
    ∑ a ∈ Finset.range M, ∑ b ∈ Finset.range N, cos (2 * π * r * a / M + (2 * π * s * b / N + β)) =
      if (M : ℤ) ∣ r ∧ (N : ℤ) ∣ s then M * N * cos β else 0 := by
  have hin : ∀ a ∈ Finset.range M, ∑ b ∈ Finset.range N, cos (2 * π * r * a / M + (2 * π * s * b / N + β)) =
      if (N : ℤ) ∣ s then N * cos (2 * π * r * a / M + β) else 0 := by
    intro a _
    rw [← cos_full N s]
    refine Finset.sum_congr rfl fun b _ => ?_
    congr 1
    ring
  rw [Finset.sum_congr rfl hin]
  by_cases hs : (N : ℤ) ∣ s
  · simp only [if_pos hs]
    rw [← Finset.mul_sum, cos_full]
    by_cases hr : (M : ℤ) ∣ r
    · rw [if_pos hr, if_pos ⟨hr, hs⟩]; ring
    · rw [if_neg hr, if_neg (fun h => hr h.1), mul_zero]
  · simp only [if_neg hs]
    rw [if_neg (fun h => hs h.2)]
    simp

/-- One bin and a plane wave. -/
theorem plane_bin (M N : ℕ) (p q : ℤ) (k l : ℕ) (A φ : ℝ) (i j : ℕ) :
    ∑ a ∈ Finset.range M, ∑ b ∈ Finset.range N,
        A * cos (2 * π * (p * a / M + q * b / N) + φ) * cos (2 * π * (k * ((i : ℝ) - a) / M + l * ((j : ℝ) - b) / N)) =
      A * (M * N / 2) * ((if (M : ℤ) ∣ p - k ∧ (N : ℤ) ∣ q - l then cos (2 * π * (k * i / M + l * j / N) + φ) else 0) +
        (if (M : ℤ) ∣ p + k ∧ (N : ℤ) ∣ q + l then cos (-(2 * π * (k * i / M + l * j / N)) + φ) else 0)) := by
  have hterm : ∀ a ∈ Finset.range M, ∀ b ∈ Finset.range N,
      A * cos (2 * π * (p * a / M + q * b / N) + φ) * cos (2 * π * (k * ((i : ℝ) - a) / M + l * ((j : ℝ) - b) / N)) =
      A / 2 * cos (2 * π * ((p - k : ℤ) : ℝ) * a / M + (2 * π * ((q - l : ℤ) : ℝ) * b / N + (2 * π * (k * i / M + l * j / N) + φ))) +
      A / 2 * cos (2 * π * ((p + k : ℤ) : ℝ) * a / M + (2 * π * ((q + l : ℤ) : ℝ) * b / N + (-(2 * π * (k * i / M + l * j / N)) + φ))) := by
    intro a _ b _
    have h1 : 2 * π * ((p - k : ℤ) : ℝ) * a / M + (2 * π * ((q - l : ℤ) : ℝ) * b / N + (2 * π * (k * i / M + l * j / N) + φ)) =
        (2 * π * (p * a / M + q * b / N) + φ) + 2 * π * (k * ((i : ℝ) - a) / M + l * ((j : ℝ) - b) / N) := by push_cast; ring
    have h2 : 2 * π * ((p + k : ℤ) : ℝ) * a / M + (2 * π * ((q + l : ℤ) : ℝ) * b / N + (-(2 * π * (k * i / M + l * j / N)) + φ)) =
        (2 * π * (p * a / M + q * b / N) + φ) - 2 * π * (k * ((i : ℝ) - a) / M + l * ((j : ℝ) - b) / N) := by push_cast; ring
    rw [h1, h2]
    generalize 2 * π * (p * a / M + q * b / N) + φ = x
    generalize 2 * π * (k * ((i : ℝ) - a) / M + l * ((j : ℝ) - b) / N) = y
    rw [cos_add, cos_sub]
    ring
  rw [Finset.sum_congr rfl fun a ha => Finset.sum_congr rfl (hterm a ha)]
  simp only [Finset.sum_add_distrib, ← Finset.mul_sum]
  rw [cos_full2, cos_full2]
  split <;> split <;> ring

theorem dvd_sub_iff (N : ℕ) (hN : 0 < N) (p : ℤ) (k : ℕ) (hk : k < N) : (N : ℤ) ∣ p - k ↔ k = (p % N).toNat := by
  have h0 := Int.emod_nonneg p (by omega : (N : ℤ) ≠ 0)
  have hk' : (k : ℤ) % N = k := Int.emod_eq_of_lt (by omega) (by omega)
  rw [← Int.emod_emod_of_dvd p (dvd_refl (N : ℤ)), ← Int.emod_eq_emod_iff_emod_sub_eq_zero.trans ⟨Int.dvd_of_emod_eq_zero, Int.emod_eq_zero_of_dvd⟩, hk']
  rw [Int.emod_emod_of_dvd p (dvd_refl (N : ℤ))]
  omega

/-- Weights that agree on the two bins of a plane wave multiply it by that weight. -/
theorem plane_pick (M N : ℕ) (hM : 0 < M) (hN : 0 < N) (p q : ℤ) (W : ℕ → ℕ → ℝ) (w A φ : ℝ)
    (h1 : W (p % M).toNat (q % N).toNat = w) (h2 : W (-p % M).toNat (-q % N).toNat = w) (i j : ℕ) :
    ∑ k ∈ Finset.range M, ∑ l ∈ Finset.range N, W k l * ∑ a ∈ Finset.range M, ∑ b ∈ Finset.range N,
        A * cos (2 * π * (p * a / M + q * b / N) + φ) * cos (2 * π * (k * ((i : ℝ) - a) / M + l * ((j : ℝ) - b) / N)) =
      M * N * w * A * cos (2 * π * (p * i / M + q * j / N) + φ) := by
  have hMr : (M : ℝ) ≠ 0 := by exact_mod_cast hM.ne'
  have hNr : (N : ℝ) ≠ 0 := by exact_mod_cast hN.ne'
  have hph : ∀ (p q : ℤ) (φ : ℝ), cos (2 * π * (((p % M).toNat : ℝ) * i / M + ((q % N).toNat : ℝ) * j / N) + φ) =
      cos (2 * π * (p * i / M + q * j / N) + φ) := by
    intro p q φ
    have e1 : (((p % M).toNat : ℝ)) = (p : ℝ) - M * ((p / M : ℤ) : ℝ) := by
      have : (((p % M).toNat : ℤ)) = p - M * (p / M) := by
        rw [Int.toNat_of_nonneg (Int.emod_nonneg p (by omega))]
        have := Int.emod_add_mul_ediv p M
        omega
      exact_mod_cast this
    have e2 : (((q % N).toNat : ℝ)) = (q : ℝ) - N * ((q / N : ℤ) : ℝ) := by
      have : (((q % N).toNat : ℤ)) = q - N * (q / N) := by
        rw [Int.toNat_of_nonneg (Int.emod_nonneg q (by omega))]
        have := Int.emod_add_mul_ediv q N
        omega
      exact_mod_cast this
    rw [e1, e2, show 2 * π * (((p : ℝ) - M * ((p / M : ℤ) : ℝ)) * i / M + ((q : ℝ) - N * ((q / N : ℤ) : ℝ)) * j / N) + φ =
      (2 * π * (p * i / M + q * j / N) + φ) - ((p / M * i + q / N * j : ℤ) : ℝ) * (2 * π) by push_cast; field_simp; ring,
      cos_sub_int_mul_two_pi]
  have hterm : ∀ k ∈ Finset.range M, ∀ l ∈ Finset.range N, (W k l * ∑ a ∈ Finset.range M, ∑ b ∈ Finset.range N,
        A * cos (2 * π * (p * a / M + q * b / N) + φ) * cos (2 * π * (k * ((i : ℝ) - a) / M + l * ((j : ℝ) - b) / N))) =
      (if k = (p % M).toNat then if l = (q % N).toNat then A * (M * N / 2) * (w * cos (2 * π * (p * i / M + q * j / N) + φ)) else 0 else 0) +
      (if k = (-p % M).toNat then if l = (-q % N).toNat then A * (M * N / 2) * (w * cos (2 * π * (p * i / M + q * j / N) + φ)) else 0 else 0) := by
    intro k hk l hl
    have hk := Finset.mem_range.1 hk
    have hl := Finset.mem_range.1 hl
    rw [plane_bin, mul_left_comm, mul_add, mul_add]
    congr 1
    · simp only [dvd_sub_iff M hM p k hk, dvd_sub_iff N hN q l hl]
      by_cases ha : k = (p % M).toNat
      · by_cases hb : l = (q % N).toNat
        · rw [if_pos ⟨ha, hb⟩, if_pos ha, if_pos hb, ha, hb, h1, hph]
        · rw [if_neg (fun h => hb h.2), if_pos ha, if_neg hb]; simp
      · rw [if_neg (fun h => ha h.1), if_neg ha]; simp
    · have d1 : (M : ℤ) ∣ p + k ↔ k = (-p % M).toNat := by
        rw [show p + k = -(-p - k) by ring, dvd_neg, dvd_sub_iff M hM (-p) k hk]
      have d2 : (N : ℤ) ∣ q + l ↔ l = (-q % N).toNat := by
        rw [show q + l = -(-q - l) by ring, dvd_neg, dvd_sub_iff N hN (-q) l hl]
      simp only [d1, d2]
      by_cases ha : k = (-p % M).toNat
      · by_cases hb : l = (-q % N).toNat
        · have := hph (-p) (-q) (-φ)
          rw [if_pos ⟨ha, hb⟩, if_pos ha, if_pos hb, ha, hb, h2, ← cos_neg, neg_add, neg_neg, this, ← cos_neg]
          congr 3
          push_cast
          ring
        · rw [if_neg (fun h => hb h.2), if_pos ha, if_neg hb]; simp
      · rw [if_neg (fun h => ha h.1), if_neg ha]; simp
  have hlt : ∀ (n : ℕ) (hn : 0 < n) (z : ℤ), (z % n).toNat ∈ Finset.range n := by
    intro n hn z
    have := Int.emod_lt_of_pos z (by omega : (0 : ℤ) < n)
    have := Int.emod_nonneg z (by omega : (n : ℤ) ≠ 0)
    exact Finset.mem_range.2 (by omega)
  rw [Finset.sum_congr rfl fun k hk => Finset.sum_congr rfl (hterm k hk)]
  simp only [Finset.sum_add_distrib]
  have hsum : ∀ (k0 l0 : ℕ) (X : ℝ), k0 ∈ Finset.range M → l0 ∈ Finset.range N →
      (∑ k ∈ Finset.range M, ∑ l ∈ Finset.range N, if k = k0 then if l = l0 then X else 0 else 0) = X := by
    intro k0 l0 X hk hl
    rw [Finset.sum_eq_single_of_mem k0 hk, Finset.sum_eq_single_of_mem l0 hl]
    · simp
    · intro l _ hne; simp [hne]
    · intro k _ hne; simp [hne]
  rw [hsum _ _ _ (hlt M hM p) (hlt N hN q), hsum _ _ _ (hlt M hM (-p)) (hlt N hN (-q))]
  ring

/-- Powers of Parker's series for relief smaller than the depth. -/
theorem parker_converges (M N : ℕ) (hM : 0 < M) (hN : 0 < N) (κ : ℕ → ℕ → ℝ) (hκ : ∀ k l, 0 ≤ κ k l) (c g H : ℝ) (hc : H < c)
    (h : ℕ → ℕ → ℝ) (hh : ∀ a b, |h a b| ≤ H) (P P' : ℕ) (hP : P ≤ P') (i j : ℕ) :
    |parkerGrid M N κ c g P' h i j - parkerGrid M N κ c g P h i j| ≤ |g| * (M * N) * H * ((H / c) ^ P / (1 - H / c)) := by
  have hMr : (0 : ℝ) < M := by exact_mod_cast hM
  have hNr : (0 : ℝ) < N := by exact_mod_cast hN
  have hH : 0 ≤ H := (abs_nonneg _).trans (hh 0 0)
  have hc0 : 0 < c := lt_of_le_of_lt hH hc
  have hr0 : 0 ≤ H / c := div_nonneg hH hc0.le
  have hr1 : H / c < 1 := (div_lt_one hc0).2 hc
  obtain ⟨S, hS⟩ : ∃ S : ℕ → ℕ → ℕ → ℝ, ∀ k l p, S k l p = ∑ a ∈ Finset.range M, ∑ b ∈ Finset.range N,
        h a b ^ p * (cos (2 * π * k * ((i : ℝ) - a) / M) * cos (2 * π * l * ((j : ℝ) - b) / N)) := ⟨_, fun _ _ _ => rfl⟩
  have hSb : ∀ k l p, |S k l p| ≤ M * N * H ^ p := by
    intro k l p
    rw [hS]
    refine (Finset.abs_sum_le_sum_abs _ _).trans ?_
    have : ∀ a ∈ Finset.range M, |∑ b ∈ Finset.range N,
        h a b ^ p * (cos (2 * π * k * ((i : ℝ) - a) / M) * cos (2 * π * l * ((j : ℝ) - b) / N))| ≤ N * H ^ p := by
      intro a _
      refine (Finset.abs_sum_le_sum_abs _ _).trans ?_
      have : ∀ b ∈ Finset.range N, |h a b ^ p * (cos (2 * π * k * ((i : ℝ) - a) / M) * cos (2 * π * l * ((j : ℝ) - b) / N))| ≤ H ^ p := by
        intro b _
        rw [abs_mul, abs_mul, abs_pow]
        have e1 := pow_le_pow_left₀ (abs_nonneg (h a b)) (hh a b) p
        have e2 := mul_le_one₀ (abs_cos_le_one (2 * π * k * ((i : ℝ) - a) / M)) (abs_nonneg _) (abs_cos_le_one (2 * π * l * ((j : ℝ) - b) / N))
        calc _ ≤ H ^ p * 1 := mul_le_mul e1 e2 (by positivity) (by positivity)
          _ = H ^ p := mul_one _
      exact (Finset.sum_le_sum this).trans (by simp)
    exact (Finset.sum_le_sum this).trans (by simp [mul_assoc])
  have hterm : ∀ k l p, 1 ≤ p → |exp (-c * κ k l) * (κ k l ^ (p - 1) / p.factorial * S k l p)| ≤ M * N * H * (H / c) ^ (p - 1) := by
    intro k l p hp
    obtain ⟨n, rfl⟩ : ∃ n, p = n + 1 := ⟨p - 1, by omega⟩
    rw [Nat.add_sub_cancel]
    have hf : (0 : ℝ) < n.factorial := by exact_mod_cast n.factorial_pos
    have hf1 : (n.factorial : ℝ) ≤ (n + 1).factorial := by exact_mod_cast Nat.factorial_le (Nat.le_succ n)
    have hx : 0 ≤ c * κ k l := mul_nonneg hc0.le (hκ k l)
    have he := pow_div_factorial_le_exp (c * κ k l) hx n
    have he' : exp (-c * κ k l) * (κ k l ^ n / (n + 1).factorial) ≤ 1 / c ^ n := by
      calc exp (-c * κ k l) * (κ k l ^ n / (n + 1).factorial) ≤ exp (-c * κ k l) * (κ k l ^ n / n.factorial) := by
            refine mul_le_mul_of_nonneg_left ?_ (exp_pos _).le
            exact div_le_div_of_nonneg_left (pow_nonneg (hκ k l) n) hf hf1
        _ = exp (-c * κ k l) * ((c * κ k l) ^ n / n.factorial) * (1 / c ^ n) := by
            rw [mul_pow]; field_simp
        _ ≤ exp (-c * κ k l) * exp (c * κ k l) * (1 / c ^ n) := by
            refine mul_le_mul_of_nonneg_right (mul_le_mul_of_nonneg_left he (exp_pos _).le) (by positivity)
        _ = 1 / c ^ n := by rw [← exp_add]; simp
    rw [← mul_assoc, abs_mul, abs_of_nonneg (mul_nonneg (exp_pos _).le (div_nonneg (pow_nonneg (hκ k l) n) (by positivity)))]
    calc _ ≤ 1 / c ^ n * (M * N * H ^ (n + 1)) := mul_le_mul he' (hSb k l (n + 1)) (abs_nonneg _) (by positivity)
      _ = M * N * H * (H / c) ^ n := by rw [div_pow, pow_succ]; field_simp
  have hsplit : ∀ k l, exp (-c * κ k l) * (∑ p ∈ Finset.Icc 1 P', κ k l ^ (p - 1) / p.factorial * S k l p) -
      exp (-c * κ k l) * (∑ p ∈ Finset.Icc 1 P, κ k l ^ (p - 1) / p.factorial * S k l p) =
      ∑ p ∈ Finset.Ico (P + 1) (P' + 1), exp (-c * κ k l) * (κ k l ^ (p - 1) / p.factorial * S k l p) := by
    intro k l
    have e : ∀ Q, Finset.Icc 1 Q = Finset.Ico 1 (Q + 1) := fun Q => by ext x; simp
    rw [e, e, ← Finset.sum_Ico_consecutive _ (by omega : 1 ≤ P + 1) (by omega : P + 1 ≤ P' + 1), ← Finset.mul_sum]
    ring
  have htail : ∀ k l, |∑ p ∈ Finset.Ico (P + 1) (P' + 1), exp (-c * κ k l) * (κ k l ^ (p - 1) / p.factorial * S k l p)| ≤
      M * N * H * ((H / c) ^ P / (1 - H / c)) := by
    intro k l
    refine (Finset.abs_sum_le_sum_abs _ _).trans ?_
    have : ∀ p ∈ Finset.Ico (P + 1) (P' + 1), |exp (-c * κ k l) * (κ k l ^ (p - 1) / p.factorial * S k l p)| ≤
        M * N * H * (H / c) ^ (p - 1) := fun p hp => hterm k l p (by have := Finset.mem_Ico.1 hp; omega)
    refine (Finset.sum_le_sum this).trans ?_
    rw [← Finset.mul_sum]
    refine mul_le_mul_of_nonneg_left ?_ (by positivity)
    rw [Finset.sum_Ico_eq_sum_range]
    have e : ∀ x ∈ Finset.range (P' + 1 - (P + 1)), (H / c) ^ (P + 1 + x - 1) = (H / c) ^ P * (H / c) ^ x := by
      intro x _
      rw [← pow_add]
      congr 1
      omega
    rw [Finset.sum_congr rfl e, ← Finset.mul_sum, show (H / c) ^ P / (1 - H / c) = (H / c) ^ P * (1 - H / c)⁻¹ from div_eq_mul_inv _ _]
    refine mul_le_mul_of_nonneg_left ?_ (by positivity)
    rw [geom_sum_eq hr1.ne, show ((H / c) ^ (P' + 1 - (P + 1)) - 1) / (H / c - 1) = (1 - (H / c) ^ (P' + 1 - (P + 1))) / (1 - H / c) by
      rw [← neg_sub, ← neg_sub 1 (H / c), neg_div_neg_eq],
      show ∀ x : ℝ, x / (1 - H / c) = x * (1 - H / c)⁻¹ from fun x => div_eq_mul_inv _ _]
    have hpos : 0 < 1 - H / c := by linarith
    calc _ ≤ 1 * (1 - H / c)⁻¹ := by
          refine mul_le_mul_of_nonneg_right ?_ (inv_pos.2 hpos).le
          have := pow_nonneg hr0 (P' + 1 - (P + 1))
          linarith
      _ = _ := one_mul _
  have hbin : |(∑ k ∈ Finset.range M, ∑ l ∈ Finset.range N, if k = 0 ∧ l = 0 then 0 else
        exp (-c * κ k l) * ∑ p ∈ Finset.Icc 1 P', κ k l ^ (p - 1) / p.factorial * S k l p) -
      ∑ k ∈ Finset.range M, ∑ l ∈ Finset.range N, if k = 0 ∧ l = 0 then 0 else
        exp (-c * κ k l) * ∑ p ∈ Finset.Icc 1 P, κ k l ^ (p - 1) / p.factorial * S k l p| ≤
      M * (N * (M * N * H * ((H / c) ^ P / (1 - H / c)))) := by
    have hpos : 0 < 1 - H / c := by linarith
    rw [← Finset.sum_sub_distrib]
    refine (Finset.abs_sum_le_sum_abs _ _).trans ?_
    refine (Finset.sum_le_sum (g := fun _ => N * (M * N * H * ((H / c) ^ P / (1 - H / c)))) fun k _ => ?_).trans (by simp)
    rw [← Finset.sum_sub_distrib]
    refine (Finset.abs_sum_le_sum_abs _ _).trans ?_
    refine (Finset.sum_le_sum (g := fun _ => M * N * H * ((H / c) ^ P / (1 - H / c))) fun l _ => ?_).trans (by simp)
    split
    · rw [sub_zero, abs_zero]; positivity
    · rw [hsplit]; exact htail k l
  unfold parkerGrid
  simp only [← hS]
  rw [← mul_sub, abs_mul, abs_div, abs_of_pos (mul_pos hMr hNr)]
  calc _ ≤ |g| / (M * N) * (M * (N * (M * N * H * ((H / c) ^ P / (1 - H / c))))) := mul_le_mul_of_nonneg_left hbin (by positivity)
    _ = _ := by field_simp

end Shipgrav
