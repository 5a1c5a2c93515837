import Verif.Py.Fft
import Verif.Spec.Nav
import Verif.Lemmas.ListSum
import Mathlib.Tactic.FieldSimp
import Mathlib.Tactic.Push
import Mathlib.Algebra.Field.GeomSum
import Mathlib.Tactic.Linarith

/-! Helper lemmas on discrete Fourier transforms. -/

namespace Shipgrav
open Spec Complex

theorem samplesC_getD (f : ℕ → ℂ) (n k : ℕ) (hk : k < n) : (samples f n).getD k 0 = f k := by
  unfold samples
  rw [List.getD_eq_getElem?_getD, List.getElem?_map, List.getElem?_range hk]; rfl

theorem fft_samples (f : ℕ → ℂ) (n : ℕ) :
    fft (samples f n) = samples (fun k => ∑ m ∈ Finset.range n, f m * exp (-2 * Real.pi * I * (k * m) / n)) n := by
  unfold fft
  have hl : (samples f n).length = n := by simp [samples]
  rw [hl]
  unfold samples
  apply List.map_congr_left
  intro k _
  apply Finset.sum_congr rfl
  intro m hm
  have := samplesC_getD f n m (Finset.mem_range.mp hm)
  unfold samples at this
  rw [this]

theorem ifft_samples (f : ℕ → ℂ) (n : ℕ) :
    ifft (samples f n) = samples (fun k => 1 / n * ∑ m ∈ Finset.range n, f m * exp (2 * Real.pi * I * (k * m) / n)) n := by
  unfold ifft
  have hl : (samples f n).length = n := by simp [samples]
  rw [hl]
  unfold samples
  apply List.map_congr_left
  intro k _
  congr 1
  apply Finset.sum_congr rfl
  intro m hm
  have := samplesC_getD f n m (Finset.mem_range.mp hm)
  unfold samples at this
  rw [this]

/-- `e^{iθ}` for a real angle. -/
theorem exp_real_I (θ : ℝ) : exp (θ * I) = ⟨Real.cos θ, Real.sin θ⟩ := by
  apply Complex.ext
  · simp [exp_ofReal_mul_I_re]
  · simp [exp_ofReal_mul_I_im]

theorem re_real_mul_exp (r θ : ℝ) : ((r : ℂ) * exp (θ * I)).re = r * Real.cos θ := by
  rw [re_ofReal_mul, exp_ofReal_mul_I_re]

theorem im_real_mul_exp (r θ : ℝ) : ((r : ℂ) * exp (θ * I)).im = r * Real.sin θ := by
  rw [im_ofReal_mul, exp_ofReal_mul_I_im]

/-- Reflection of a sum over the nonzero bins. -/
theorem sum_reflect_bins {M : Type*} [AddCommMonoid M] (N : ℕ) (f : ℕ → M) :
    ∑ k ∈ Finset.Ico 1 N, f (N - k) = ∑ k ∈ Finset.Ico 1 N, f k := by
  refine Finset.sum_bij' (fun k _ => N - k) (fun k _ => N - k) ?_ ?_ ?_ ?_ ?_
  · intro k hk; simp only [Finset.mem_Ico] at hk ⊢; omega
  · intro k hk; simp only [Finset.mem_Ico] at hk ⊢; omega
  · intro k hk; simp only [Finset.mem_Ico] at hk; omega
  · intro k hk; simp only [Finset.mem_Ico] at hk; omega
  · intro k _; rfl

/-- A nonzero frequency sums to zero over a full set of points. -/
theorem root_sum_zero (N k : ℕ) (h0 : 0 < k) (hk : k < N) :
    ∑ m ∈ Finset.range N, exp (-2 * Real.pi * I * (k * m) / N) = 0 := by
  have hN : (N : ℂ) ≠ 0 := by exact_mod_cast (by omega : N ≠ 0)
  obtain ⟨ω, hω⟩ : ∃ ω : ℂ, ω = exp (-(2 * Real.pi * I * k / N)) := ⟨_, rfl⟩
  have hterm : ∀ m ∈ Finset.range N, exp (-2 * Real.pi * I * (k * m) / N) = ω ^ m := by
    intro m _
    rw [hω, ← exp_nat_mul]
    congr 1
    ring
  rw [Finset.sum_congr rfl hterm]
  have hω1 : ω ≠ 1 := by
    rw [hω]
    intro h1
    rw [exp_eq_one_iff] at h1
    obtain ⟨t, ht⟩ := h1
    have hpi : (2 * Real.pi * I : ℂ) ≠ 0 := by simp [Real.pi_ne_zero]
    have : (k : ℂ) = -t * N := by
      have h2 : (2 * Real.pi * I : ℂ) * (k : ℂ) = (2 * Real.pi * I : ℂ) * (-t * N) := by
        have h3 : (2 * Real.pi * I : ℂ) * (k : ℂ) = (2 * Real.pi * I * k / N) * N := by field_simp
        rw [h3, ← neg_neg (2 * Real.pi * I * k / N : ℂ), ht]
        ring
      exact mul_left_cancel₀ hpi h2
    have hint : (k : ℤ) = -t * N := by exact_mod_cast this
    have hkn : (k : ℤ) < N := by exact_mod_cast hk
    have hk0 : (0 : ℤ) < k := by exact_mod_cast h0
    have ht1 : 0 < -t := by
      by_contra hle
      have : -t * (N : ℤ) ≤ 0 := mul_nonpos_of_nonpos_of_nonneg (by omega) (by positivity)
      omega
    nlinarith
  have hωN : ω ^ N = 1 := by
    rw [hω, ← exp_nat_mul, show (N : ℂ) * -(2 * Real.pi * I * k / N) = ((-k : ℤ) : ℂ) * (2 * Real.pi * I) by
      push_cast; field_simp]
    exact exp_int_mul_two_pi_mul_I _
  rw [geom_sum_eq hω1, hωN, sub_self, zero_div]

theorem cos_bin_sum_zero (N k : ℕ) (h0 : 0 < k) (hk : k < N) (x : ℝ) :
    ∑ m ∈ Finset.range N, Real.cos (2 * Real.pi * k * (x - m) / N) = 0 := by
  have h : ∑ m ∈ Finset.range N, exp (((2 * Real.pi * k * (x - m) / N : ℝ) : ℂ) * I) = 0 := by
    have hterm : ∀ m ∈ Finset.range N, exp (((2 * Real.pi * k * (x - m) / N : ℝ) : ℂ) * I) =
        exp (2 * Real.pi * I * k * x / N) * exp (-2 * Real.pi * I * (k * m) / N) := by
      intro m _
      rw [← exp_add]
      congr 1
      push_cast
      ring
    rw [Finset.sum_congr rfl hterm, ← Finset.mul_sum, root_sum_zero N k h0 hk, mul_zero]
  have := congrArg re h
  simpa only [re_sum, exp_ofReal_mul_I_re, zero_re] using this

/-- Symmetric weights: only the cosines remain. -/
theorem sym_sum (N : ℕ) (w : ℕ → ℂ) (hw : ∀ l, 1 ≤ l → l < N → w (N - l) = w l) (y : ℤ) :
    ∑ l ∈ Finset.range N, w l * exp (((2 * Real.pi * l * y / N : ℝ) : ℂ) * I) =
      ∑ l ∈ Finset.range N, w l * (Real.cos (2 * Real.pi * l * y / N) : ℂ) := by
  rcases Nat.eq_zero_or_pos N with rfl | hN
  · simp
  have hNr : (N : ℝ) ≠ 0 := by exact_mod_cast hN.ne'
  have hsin : ∑ l ∈ Finset.range N, w l * (Real.sin (2 * Real.pi * l * y / N) : ℂ) = 0 := by
    rw [Finset.range_eq_Ico, Finset.sum_eq_sum_Ico_succ_bot hN]
    have key : ∀ S : ℂ, S = -S → S = 0 := fun S h => by
      have : (2 : ℂ) * S = 0 := by linear_combination h
      simpa using this
    have : ∑ l ∈ Finset.Ico (0 + 1) N, w l * (Real.sin (2 * Real.pi * l * y / N) : ℂ) = 0 := by
      apply key
      nth_rewrite 1 [← sum_reflect_bins N]
      rw [← Finset.sum_neg_distrib]
      apply Finset.sum_congr rfl
      intro l hl
      obtain ⟨h1, h2⟩ := Finset.mem_Ico.mp hl
      have hs : Real.sin (2 * Real.pi * ((N - l : ℕ) : ℝ) * y / N) = -Real.sin (2 * Real.pi * l * y / N) := by
        rw [Nat.cast_sub h2.le, show 2 * Real.pi * ((N : ℝ) - l) * y / N = (y : ℝ) * (2 * Real.pi) - 2 * Real.pi * l * y / N by field_simp]
        exact Real.sin_int_mul_two_pi_sub _ _
      rw [hw l (by omega) h2, hs]
      push_cast
      ring
    rw [this]
    simp
  have hsplit : ∀ l ∈ Finset.range N, w l * exp (((2 * Real.pi * l * y / N : ℝ) : ℂ) * I) =
      w l * (Real.cos (2 * Real.pi * l * y / N) : ℂ) + I * (w l * (Real.sin (2 * Real.pi * l * y / N) : ℂ)) := by
    intro l _
    rw [exp_mul_I, ← ofReal_cos, ← ofReal_sin]
    ring
  rw [Finset.sum_congr rfl hsplit, Finset.sum_add_distrib, ← Finset.mul_sum, hsin, mul_zero, add_zero]

end Shipgrav
