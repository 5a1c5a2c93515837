import Verif.Model.Crust
import Verif.Spec.Crust
import Verif.Lemmas.Fft

/-! Helper lemmas for crustal thickness. -/

namespace Shipgrav
open Spec

theorem crustIndex_sq (n i : ℕ) (hi : i < n) : crustIndex n i ^ 2 = ((previousCycles n i : ℕ) : ℝ) ^ 2 := by
  unfold crustIndex previousCycles cycles
  by_cases h0 : i = 0
  · subst h0; rw [if_neg (by omega)]; simp
  · rw [if_neg h0]
    by_cases h : 2 * i > n + 2
    · rw [if_pos h, show min (i - 1) (n - (i - 1)) = n + 1 - i by omega, Nat.cast_sub (by omega)]
      push_cast; ring
    · rw [if_neg h, show min (i - 1) (n - (i - 1)) = i - 1 by omega, Nat.cast_sub (by omega)]
      push_cast; ring

open Classical in
theorem crustWavenumber_eq (nx ny i j : ℕ) (hi : i < nx) (hj : j < ny) (dx dy : ℝ) :
    crustWavenumber nx ny (2 * Real.pi / (nx * dx)) (if dy ≠ 0 then 2 * Real.pi / (ny * dy) else 0) i j =
      crustKappa previousCycles nx ny dx dy i j := by
  unfold crustWavenumber crustKappa
  rw [crustIndex_sq nx i hi, crustIndex_sq ny j hj]
  congr 2
  · ring
  · by_cases h : dy = 0
    · simp [h]
    · simp only [h, ne_eq, not_false_eq_true, if_true, if_false]; ring

theorem crustWeight_eq (lo hi k : ℝ) (h : lo < hi) : crustWeight lo hi k = cosineTaper lo hi k := by
  unfold crustWeight cosineTaper
  by_cases h1 : k ≤ lo
  · rw [if_neg (by linarith), if_neg (by intro h'; linarith [h'.1]), if_pos h1]
  · by_cases h2 : k ≤ hi
    · rw [if_neg (by linarith), if_pos ⟨by linarith, h2⟩, if_neg h1, if_pos h2]
    · rw [if_pos (by linarith), if_neg h1, if_neg h2]

/-- Sum over all bins of a frequency. -/
theorem root_sum (M m : ℕ) (hM : 0 < M) :
    ∑ k ∈ Finset.range M, Complex.exp (-2 * Real.pi * Complex.I * (k * m) / M) = if m % M = 0 then (M : ℂ) else 0 := by
  have hMc : (M : ℂ) ≠ 0 := by exact_mod_cast hM.ne'
  have hred : ∀ k : ℕ, Complex.exp (-2 * Real.pi * Complex.I * (k * m) / M) = Complex.exp (-2 * Real.pi * Complex.I * ((m % M : ℕ) * k) / M) := by
    intro k
    have hm : (m : ℂ) = ((m % M : ℕ) : ℂ) + M * ((m / M : ℕ) : ℂ) := by exact_mod_cast (Nat.mod_add_div m M).symm
    rw [Complex.exp_eq_exp_iff_exists_int]
    generalize m / M = q at hm
    refine ⟨-((k * q : ℕ) : ℤ), ?_⟩
    rw [hm]
    push_cast
    field_simp
    ring
  rw [Finset.sum_congr rfl fun k _ => hred k]
  split
  · rename_i h; simp [h]
  · rename_i h
    exact root_sum_zero M (m % M) (by omega) (Nat.mod_lt _ hM)

/-- With a constant factor the signal comes back in reversed order. -/
theorem twiceForward_const (M N : ℕ) (hM : 0 < M) (hN : 0 < N) (C : ℝ) (F : ℕ → ℕ → ℝ) (hF : ∀ k < M, ∀ l < N, F k l = C) (r : ℕ → ℕ → ℝ) (i j : ℕ)
    (hi : i < M) (hj : j < N) :
    twiceForward M N F r i j = ((C * r ((M - i) % M) ((N - j) % N) : ℝ) : ℂ) := by
  have hMc : (M : ℂ) ≠ 0 := by exact_mod_cast hM.ne'
  have hNc : (N : ℂ) ≠ 0 := by exact_mod_cast hN.ne'
  unfold twiceForward
  have h1 : ∑ k ∈ Finset.range M, ∑ l ∈ Finset.range N, (F k l : ℂ) * ∑ a ∈ Finset.range M, ∑ b ∈ Finset.range N,
      (r a b : ℂ) * Complex.exp (-2 * Real.pi * Complex.I * ((k * (a + i) : ℂ) / M + (l * (b + j) : ℂ) / N)) =
      ∑ a ∈ Finset.range M, ∑ b ∈ Finset.range N, ((C * r a b : ℝ) : ℂ) *
        ((∑ k ∈ Finset.range M, Complex.exp (-2 * Real.pi * Complex.I * (k * (a + i : ℕ)) / M)) *
          ∑ l ∈ Finset.range N, Complex.exp (-2 * Real.pi * Complex.I * (l * (b + j : ℕ)) / N)) := by
    have hterm : ∀ k ∈ Finset.range M, ∀ l ∈ Finset.range N, (F k l : ℂ) * ∑ a ∈ Finset.range M, ∑ b ∈ Finset.range N,
        (r a b : ℂ) * Complex.exp (-2 * Real.pi * Complex.I * ((k * (a + i) : ℂ) / M + (l * (b + j) : ℂ) / N)) =
        ∑ a ∈ Finset.range M, ∑ b ∈ Finset.range N, ((C * r a b : ℝ) : ℂ) *
          (Complex.exp (-2 * Real.pi * Complex.I * (k * (a + i : ℕ)) / M) * Complex.exp (-2 * Real.pi * Complex.I * (l * (b + j : ℕ)) / N)) := by
      intro k hk l hl
      rw [hF k (Finset.mem_range.mp hk) l (Finset.mem_range.mp hl), Finset.mul_sum]
      apply Finset.sum_congr rfl
      intro a _
      rw [Finset.mul_sum]
      apply Finset.sum_congr rfl
      intro b _
      rw [← Complex.exp_add]
      push_cast
      rw [show -2 * (Real.pi : ℂ) * Complex.I * (k * (a + i) / M + l * (b + j) / N) =
        -2 * Real.pi * Complex.I * (k * (a + i)) / M + -2 * Real.pi * Complex.I * (l * (b + j)) / N by ring]
      ring
    rw [Finset.sum_congr rfl fun k hk => Finset.sum_congr rfl (hterm k hk)]
    calc _ = ∑ k ∈ Finset.range M, ∑ a ∈ Finset.range M, ∑ l ∈ Finset.range N, ∑ b ∈ Finset.range N, _ :=
          Finset.sum_congr rfl fun k _ => Finset.sum_comm
      _ = ∑ a ∈ Finset.range M, ∑ k ∈ Finset.range M, ∑ l ∈ Finset.range N, ∑ b ∈ Finset.range N, _ := Finset.sum_comm
      _ = ∑ a ∈ Finset.range M, ∑ b ∈ Finset.range N, ∑ k ∈ Finset.range M, ∑ l ∈ Finset.range N, _ :=
          Finset.sum_congr rfl fun a _ => by
            calc _ = ∑ k ∈ Finset.range M, ∑ b ∈ Finset.range N, ∑ l ∈ Finset.range N, _ := Finset.sum_congr rfl fun k _ => Finset.sum_comm
              _ = _ := Finset.sum_comm
      _ = _ := by
          apply Finset.sum_congr rfl
          intro a _
          apply Finset.sum_congr rfl
          intro b _
          rw [Finset.sum_mul_sum, Finset.mul_sum]
          apply Finset.sum_congr rfl
          intro k _
          rw [Finset.mul_sum]
  rw [h1]
  have ha : ∀ a < M, ((a + i) % M = 0 ↔ a = (M - i) % M) := by
    intro a ha
    rcases Nat.eq_zero_or_pos i with rfl | hi0
    · simp [Nat.mod_eq_of_lt ha]
    · rw [Nat.mod_eq_of_lt (show M - i < M by omega)]
      constructor
      · intro h
        have : M ∣ a + i := Nat.dvd_of_mod_eq_zero h
        obtain ⟨q, hq⟩ := this
        have hq1 : q = 1 := by
          have h1 : 0 < q := by by_contra h; have : q = 0 := by omega
                                subst this; omega
          by_contra h
          have : 2 ≤ q := by omega
          nlinarith
        subst hq1; omega
      · intro h; subst h; rw [Nat.sub_add_cancel hi.le, Nat.mod_self]
  have hb : ∀ b < N, ((b + j) % N = 0 ↔ b = (N - j) % N) := by
    intro a ha
    rcases Nat.eq_zero_or_pos j with rfl | hi0
    · simp [Nat.mod_eq_of_lt ha]
    · rw [Nat.mod_eq_of_lt (show N - j < N by omega)]
      constructor
      · intro h
        have : N ∣ a + j := Nat.dvd_of_mod_eq_zero h
        obtain ⟨q, hq⟩ := this
        have hq1 : q = 1 := by
          have h1 : 0 < q := by by_contra h; have : q = 0 := by omega
                                subst this; omega
          by_contra h
          have : 2 ≤ q := by omega
          nlinarith
        subst hq1; omega
      · intro h; subst h; rw [Nat.sub_add_cancel hj.le, Nat.mod_self]
  rw [Finset.sum_eq_single ((M - i) % M)]
  · rw [Finset.sum_eq_single ((N - j) % N)]
    · rw [root_sum M _ hM, root_sum N _ hN, if_pos ((ha _ (Nat.mod_lt _ hM)).mpr rfl), if_pos ((hb _ (Nat.mod_lt _ hN)).mpr rfl)]
      field_simp
    · intro b hb' hne
      rw [root_sum N _ hN, if_neg (fun h => hne ((hb b (Finset.mem_range.mp hb')).mp h))]
      simp
    · intro h; exact absurd (Finset.mem_range.mpr (Nat.mod_lt _ hN)) h
  · intro a ha' hne
    apply Finset.sum_eq_zero
    intro b _
    rw [root_sum M _ hM, if_neg (fun h => hne ((ha a (Finset.mem_range.mp ha')).mp h))]
    simp
  · intro h; exact absurd (Finset.mem_range.mpr (Nat.mod_lt _ hM)) h

/-- The sum of the imaginary parts, by pairs of bins. -/
theorem sine_pairs (n : ℕ) (hn : 0 < n) (F : ℕ → ℝ) :
    2 * ∑ k ∈ Finset.Ico 1 n, F k * Real.sin (2 * Real.pi * k / n) =
      ∑ k ∈ Finset.Ico 1 n, (F k - F (n - k)) * Real.sin (2 * Real.pi * k / n) := by
  have hn0 : (n : ℝ) ≠ 0 := by exact_mod_cast hn.ne'
  rw [two_mul]
  nth_rewrite 2 [← sum_reflect_bins n]
  rw [← Finset.sum_add_distrib]
  apply Finset.sum_congr rfl
  intro k hk
  rw [Finset.mem_Ico] at hk
  have : Real.sin (2 * Real.pi * ((n - k : ℕ) : ℝ) / n) = -Real.sin (2 * Real.pi * k / n) := by
    rw [Nat.cast_sub hk.2.le, show 2 * Real.pi * ((n : ℝ) - k) / n = 2 * Real.pi - 2 * Real.pi * k / n by field_simp]
    exact Real.sin_two_pi_sub _
  rw [this]
  ring

/-- Imaginary part at the second point for a spike at the first. -/
theorem spike_im (n : ℕ) (hn : 0 < n) (F : ℕ → ℕ → ℝ) (c : ℝ) (r : ℕ → ℕ → ℝ) (hr : ∀ a < n, r a 0 = c * ((if a = 0 then 1 else 0) - 1 / n)) :
    (twiceForward n 1 F r 1 0).im = -(c / n) * ∑ k ∈ Finset.Ico 1 n, F k 0 * Real.sin (2 * Real.pi * k / n) := by
  have hnc : (n : ℂ) ≠ 0 := by exact_mod_cast hn.ne'
  have hin : ∀ k < n, ∑ a ∈ Finset.range n, (r a 0 : ℂ) * Complex.exp (-2 * Real.pi * Complex.I * ((k * (a + 1) : ℂ) / n)) =
      if k = 0 then 0 else (c : ℂ) * Complex.exp (((-(2 * Real.pi * k / n) : ℝ) : ℂ) * Complex.I) := by
    intro k hk
    have hsplit : ∀ a ∈ Finset.range n, (r a 0 : ℂ) * Complex.exp (-2 * Real.pi * Complex.I * ((k * (a + 1) : ℂ) / n)) =
        (c : ℂ) * Complex.exp (((-(2 * Real.pi * k / n) : ℝ) : ℂ) * Complex.I) *
          ((if a = 0 then 1 else 0) - 1 / n * Complex.exp (-2 * Real.pi * Complex.I * (k * a) / n)) := by
      intro a ha
      rw [hr a (Finset.mem_range.mp ha)]
      have he : Complex.exp (-2 * Real.pi * Complex.I * ((k * (a + 1) : ℂ) / n)) =
          Complex.exp (((-(2 * Real.pi * k / n) : ℝ) : ℂ) * Complex.I) * Complex.exp (-2 * Real.pi * Complex.I * (k * a) / n) := by
        rw [← Complex.exp_add]; congr 1; push_cast; ring
      rw [he]
      by_cases h0 : a = 0
      · subst h0; simp; ring
      · simp [h0]; ring
    rw [Finset.sum_congr rfl hsplit, ← Finset.mul_sum, Finset.sum_sub_distrib, ← Finset.mul_sum]
    rw [Finset.sum_ite_eq' (Finset.range n) 0, if_pos (Finset.mem_range.mpr hn)]
    split
    · rename_i h0; subst h0; simp [hnc]
    · rename_i h0
      rw [root_sum_zero n k (by omega) hk]; ring
  unfold twiceForward
  have hsum : ∑ k ∈ Finset.range n, ∑ l ∈ Finset.range 1, (F k l : ℂ) * ∑ a ∈ Finset.range n, ∑ b ∈ Finset.range 1,
      (r a b : ℂ) * Complex.exp (-2 * Real.pi * Complex.I * ((k * (a + (1 : ℕ)) : ℂ) / n + (l * (b + (0 : ℕ)) : ℂ) / (1 : ℕ))) =
      ∑ k ∈ Finset.Ico 1 n, ((F k 0 * c : ℝ) : ℂ) * Complex.exp (((-(2 * Real.pi * k / n) : ℝ) : ℂ) * Complex.I) := by
    have h1 : ∀ k ∈ Finset.range n, ∑ l ∈ Finset.range 1, (F k l : ℂ) * ∑ a ∈ Finset.range n, ∑ b ∈ Finset.range 1,
      (r a b : ℂ) * Complex.exp (-2 * Real.pi * Complex.I * ((k * (a + (1 : ℕ)) : ℂ) / n + (l * (b + (0 : ℕ)) : ℂ) / (1 : ℕ))) =
        if k = 0 then 0 else ((F k 0 * c : ℝ) : ℂ) * Complex.exp (((-(2 * Real.pi * k / n) : ℝ) : ℂ) * Complex.I) := by
      intro k hk
      simp only [Finset.sum_range_one, Nat.cast_one, Nat.cast_zero, zero_mul, zero_div, add_zero]
      rw [hin k (Finset.mem_range.mp hk)]
      split
      · simp
      · push_cast; ring
    rw [Finset.sum_congr rfl h1, Finset.range_eq_Ico, Finset.sum_eq_sum_Ico_succ_bot hn, if_pos rfl, zero_add]
    apply Finset.sum_congr rfl
    intro k hk
    rw [Finset.mem_Ico] at hk
    rw [if_neg (by omega)]
  rw [hsum, show (1 / ((n : ℂ) * ((1 : ℕ) : ℂ))) = ((1 / n : ℝ) : ℂ) by push_cast; ring, Complex.im_ofReal_mul, Complex.im_sum,
    Finset.sum_congr rfl fun k _ => im_real_mul_exp _ _, Finset.mul_sum, Finset.mul_sum]
  apply Finset.sum_congr rfl
  intro k _
  rw [Real.sin_neg]
  ring

end Shipgrav
