import Verif.Lemmas.GaussianFloat
import Verif.Props.Gaussian

/-! Property C128: the Gaussian filter in double precision. -/

namespace Shipgrav
open Spec

/-- **C128.** Given an exponential that is right to about two units in the last place, the filter in double precision differs from the exact filter, in every
sample, by at most `e^((2 fl + 264)/2^52) - 1` times the largest reading in absolute value. -/
theorem C128_filter_error (ex : ℚ → ℚ) (he : GoodExp ex) (x : List ℚ) (fl : ℕ) (h1 : 1 ≤ fl) (hx : fl < x.length) (M : ℝ)
    (hM : ∀ q ∈ x, |(q : ℝ)| ≤ M) :
    ∃ y z, gaussianFilterF ex x fl = .ok y ∧ gaussianFilter (x.map (fun q : ℚ => (q : ℝ))) fl = .ok z ∧
      List.Forall₂ (fun (u : ℚ) (v : ℝ) => |(u : ℝ) - v| ≤ (Real.exp ((2 * fl + 264) / 2 ^ 52) - 1) * M) y z := by
  obtain ⟨c, w, hc, hw, hl, hcw⟩ := near_coeffs he fl h1
  obtain ⟨w', hw', -, hpos, -, hsum⟩ := C02_kernel fl h1
  rw [hw] at hw'
  injection hw' with hw'
  subst hw'
  have hM0 : 0 ≤ M := by
    cases x with
    | nil => simp at hx
    | cons a x => exact (abs_nonneg _).trans (hM a (by simp))
  have hne : w ≠ [] := by
    intro h
    rw [h] at hsum
    simp at hsum
  have hloop := ringLoop_error (c := ((fl : ℝ) + 262) * (1 / 2 ^ 52)) (by positivity) c w M hcw hne hpos x (List.replicate c.length 0)
    (by simp) (by intro q hq; rw [List.eq_of_mem_replicate hq]; simpa using hM0) hM
  unfold gaussianFilterF gaussianFilter
  rw [if_pos (by omega), if_pos (by simpa using hx), hc, hw]
  refine ⟨_, _, rfl, rfl, ?_⟩
  rw [List.map_replicate, Rat.cast_zero, hcw.length_eq] at hloop
  rw [hcw.length_eq]
  refine hloop.imp ?_
  intro u v h
  rw [hsum, mul_one] at h
  refine h.trans (mul_le_mul_of_nonneg_right (sub_le_sub_right (Real.exp_le_exp.2 ?_) _) hM0)
  rw [← hcw.length_eq, hl]
  have : (((2 * (fl / 2) + 1 : ℕ)) : ℝ) ≤ fl + 1 := by
    have : 2 * (fl / 2) + 1 ≤ fl + 1 := by omega
    exact_mod_cast this
  rw [le_div_iff₀ (by positivity), add_mul, mul_assoc, mul_assoc, one_div, inv_mul_cancel₀ (by positivity), mul_one, mul_one]
  linarith

/-- **C128.** In particular, for filters of up to a million samples the error is below one part in `10^9` of the largest reading. -/
theorem C128_small_error (ex : ℚ → ℚ) (he : GoodExp ex) (x : List ℚ) (fl : ℕ) (h1 : 1 ≤ fl) (h2 : fl ≤ 1000000) (hx : fl < x.length) (M : ℝ)
    (hM : ∀ q ∈ x, |(q : ℝ)| ≤ M) :
    ∃ y z, gaussianFilterF ex x fl = .ok y ∧ gaussianFilter (x.map (fun q : ℚ => (q : ℝ))) fl = .ok z ∧
      List.Forall₂ (fun (u : ℚ) (v : ℝ) => |(u : ℝ) - v| ≤ M / 10 ^ 9) y z := by
  obtain ⟨y, z, hy, hz, h⟩ := C128_filter_error ex he x fl h1 hx M hM
  refine ⟨y, z, hy, hz, h.imp ?_⟩
  intro u v huv
  have hM0 : 0 ≤ M := by
    cases x with
    | nil => simp at hx
    | cons a x => exact (abs_nonneg _).trans (hM a (by simp))
  refine huv.trans ?_
  rw [div_eq_inv_mul M]
  refine mul_le_mul_of_nonneg_right ?_ hM0
  have hf : (fl : ℝ) ≤ 1000000 := by exact_mod_cast h2
  have hf0 : (0 : ℝ) ≤ fl := by positivity
  obtain ⟨s, hs⟩ : ∃ s : ℝ, s = (2 * fl + 264) / 2 ^ 52 := ⟨_, rfl⟩
  have hs0 : 0 ≤ s := by rw [hs]; positivity
  have hs1 : s ≤ 45 / 10 ^ 11 := by
    rw [hs, div_le_iff₀ (by positivity)]
    norm_num
    linarith
  rw [← hs]
  have := (abs_le.1 (Real.abs_exp_sub_one_sub_id_le (x := s) (by rw [abs_of_nonneg hs0]; exact hs1.trans (by norm_num)))).2
  have hs2 : s ^ 2 ≤ s := by nlinarith
  norm_num at hs1 ⊢
  linarith

/-- **C128.** The filter in double precision raises exactly when the exact one does, with the same error. -/
theorem C128_same_errors (ex : ℚ → ℚ) (x : List ℚ) (fl : ℤ) (e : PyErr) :
    gaussianFilterF ex x fl = .error e ↔ gaussianFilter (x.map (fun q : ℚ => (q : ℝ))) fl = .error e := by
  unfold gaussianFilterF gaussianFilter
  rw [List.length_map]
  split
  swap
  · simp
  unfold gaussianCoeffsF gaussianCoeffs
  simp only
  by_cases h0 : fl = 0
  · simp [h0]
  by_cases h1 : fl / 2 + 1 < 0
  · simp [h0, h1]
  simp only [if_neg h0, if_neg h1]
  generalize (fl / 2 + 1).toNat = n
  cases n with
  | zero => simp
  | succ n => simp [List.range_succ_eq_map]

/-! ### Hypotheses met -/

/-- There are such exponentials. -/
theorem goodExp_exists : ∃ ex, GoodExp ex := by
  have h : ∀ q : ℚ, ∃ r : ℚ, |(r : ℝ) - Real.exp q| ≤ Real.exp q / 2 ^ 51 := by
    intro q
    have hp := Real.exp_pos (q : ℝ)
    obtain ⟨r, h1, h2⟩ := exists_rat_btwn (show Real.exp (q : ℝ) < Real.exp q + Real.exp q / 2 ^ 51 by
      have : 0 < Real.exp (q : ℝ) / 2 ^ 51 := by positivity
      linarith)
    exact ⟨r, by rw [abs_le]; constructor <;> linarith⟩
  choose ex hex using h
  exact ⟨ex, hex⟩

example : ∃ ex, GoodExp ex ∧ ∃ y, gaussianFilterF ex (List.replicate 300 981234) 240 = .ok y := by
  obtain ⟨ex, he⟩ := goodExp_exists
  obtain ⟨y, z, h, -⟩ := C128_filter_error ex he (List.replicate 300 981234) 240 (by norm_num) (by rw [List.length_replicate]; norm_num) 981234
    (by intro q hq; rw [List.eq_of_mem_replicate hq]; norm_num)
  exact ⟨ex, he, y, h⟩

end Shipgrav
