import Verif.Lemmas.Wave
import Verif.Spec.Nav
import Mathlib.Analysis.Real.Pi.Bounds

/-! C141: what `gaussian_filter` does to waves (utils.py 9–71). -/

namespace Shipgrav
open Spec Real

private theorem wave_out (fl : ℕ) (ω A φ : ℝ) (n i : ℕ) (hi : 2 * (fl / 2) ≤ i) (hin : i < n) :
    fir (taps fl) (weight fl) (samples (fun t => A * cos (ω * t + φ)) n) i = gain fl ω * (A * cos (ω * ((i : ℝ) - (fl / 2 : ℕ)) + φ)) := by
  have h : ∀ j ∈ Finset.range (taps fl), weight fl j * sampleAt (samples (fun t => A * cos (ω * t + φ)) n) ((i : ℤ) - (taps fl - 1 : ℕ) + j) =
      weight fl j * cos (ω * ((j : ℝ) - (fl / 2 : ℕ))) * (A * cos (ω * ((i : ℝ) - (fl / 2 : ℕ)) + φ)) -
      weight fl j * sin (ω * ((j : ℝ) - (fl / 2 : ℕ))) * (A * sin (ω * ((i : ℝ) - (fl / 2 : ℕ)) + φ)) := by
    intro j hj
    have hj : j < 2 * (fl / 2) + 1 := Finset.mem_range.1 hj
    have hs : sampleAt (samples (fun t => A * cos (ω * t + φ)) n) ((i : ℤ) - (taps fl - 1 : ℕ) + j) =
        A * cos (ω * ((i - 2 * (fl / 2) + j : ℕ) : ℝ) + φ) := by
      unfold sampleAt taps samples
      rw [if_pos (by omega), show ((i : ℤ) - (2 * (fl / 2) + 1 - 1 : ℕ) + j).toNat = i - 2 * (fl / 2) + j by omega,
        List.getD_eq_getElem _ _ (by simp; omega)]
      simp
    have hc : ((i - 2 * (fl / 2) + j : ℕ) : ℝ) = ((i : ℝ) - (fl / 2 : ℕ)) + ((j : ℝ) - (fl / 2 : ℕ)) := by
      rw [Nat.cast_add, Nat.cast_sub hi, Nat.cast_mul]
      push_cast
      ring
    rw [hs, hc, show ω * (((i : ℝ) - (fl / 2 : ℕ)) + ((j : ℝ) - (fl / 2 : ℕ))) + φ =
      ω * ((j : ℝ) - (fl / 2 : ℕ)) + (ω * ((i : ℝ) - (fl / 2 : ℕ)) + φ) by ring, cos_add]
    ring
  unfold fir
  rw [Finset.sum_congr rfl h, Finset.sum_sub_distrib, ← Finset.sum_mul, ← Finset.sum_mul, sine_sum_zero, zero_mul, sub_zero]
  rfl

private theorem filtered (fl : ℕ) (h1 : 1 ≤ fl) (ω A φ : ℝ) (n : ℕ) (hn : fl < n) :
    ∃ y, gaussianFilter (samples (fun t => A * cos (ω * t + φ)) n) fl = .ok y ∧
      ∀ i, 2 * (fl / 2) ≤ i → i < n → y[i]? = some (gain fl ω * (A * cos (ω * ((i : ℝ) - (fl / 2 : ℕ)) + φ))) := by
  have hl : (samples (fun t : ℕ => A * cos (ω * t + φ)) n).length = n := by simp [samples]
  refine ⟨_, gaussianFilter_eq _ fl h1 (by omega), fun i hi hin => ?_⟩
  rw [hl, List.getElem?_map, List.getElem?_range hin, Option.map_some, wave_out fl ω A φ n i hi hin]

/-- **C141.** The answer to a wave of `ω` radians per sample is, behind the warm-up, the same wave, `⌊fl/2⌋` samples late and multiplied by a
gain that depends on `ω` and the filter only.  The gain is at most 1 in size, close to 1 for long waves, and small for short ones. -/
theorem C141_wave (fl : ℕ) (h1 : 1 ≤ fl) (ω : ℝ) : ∃ G : ℝ,
    (∀ (A φ : ℝ) (n : ℕ), fl < n → ∃ y, gaussianFilter (samples (fun t => A * cos (ω * t + φ)) n) fl = .ok y ∧
      ∀ i, 2 * (fl / 2) ≤ i → i < n → y[i]? = some (G * (A * cos (ω * ((i : ℝ) - (fl / 2 : ℕ)) + φ)))) ∧
    |G| ≤ 1 ∧ (24 ≤ fl → 1 - ω ^ 2 * (fl * (fl + 16)) / 72 ≤ G) ∧
    (24 ≤ fl → sin (ω / 2) ≠ 0 → |G| ≤ 5 / (fl * |sin (ω / 2)|) ∧ |G| ≤ 80 / (fl * sin (ω / 2)) ^ 2 + 1 / (7 * fl * |sin (ω / 2)|)) :=
  ⟨gain fl ω, fun A φ n hn => filtered fl h1 ω A φ n hn, abs_gain_le fl ω, fun hf => gain_low fl hf ω,
    fun hf hs => ⟨gain_first fl hf ω hs, gain_second fl hf ω hs⟩⟩

/-- **C141.** A wave whose period is at least ten times the length of the filter comes out with less than one percent of change. -/
theorem C141_long_wave (fl : ℕ) (hf : 24 ≤ fl) (P A φ : ℝ) (hP : 10 * fl ≤ P) (n : ℕ) (hn : fl < n) :
    ∃ y, gaussianFilter (samples (fun t => A * cos (2 * π / P * t + φ)) n) fl = .ok y ∧
      ∀ i, 2 * (fl / 2) ≤ i → i < n → ∃ v, y[i]? = some v ∧ |v - A * cos (2 * π / P * ((i : ℝ) - (fl / 2 : ℕ)) + φ)| ≤ |A| / 100 := by
  have hF : (24 : ℝ) ≤ fl := by exact_mod_cast hf
  obtain ⟨y, hy, hi⟩ := filtered fl (by omega) (2 * π / P) A φ n hn
  refine ⟨y, hy, fun i h1 h2 => ⟨_, hi i h1 h2, ?_⟩⟩
  have hlow := gain_low fl hf (2 * π / P)
  have hup := (abs_le.1 (abs_gain_le fl (2 * π / P))).2
  have hω : (2 * π / P) ^ 2 * (fl * (fl + 16)) / 72 ≤ 1 / 100 := by
    have hP0 : 0 < P := by linarith
    have hpi : π ^ 2 < 98697 / 10000 := by nlinarith [pi_lt_d6, pi_pos]
    have h3 : (10 * (fl : ℝ)) ^ 2 ≤ P ^ 2 := by gcongr
    rw [div_pow, div_mul_eq_mul_div, div_div, div_le_div_iff₀ (by positivity) (by norm_num)]
    have h4 : (fl : ℝ) * (fl + 16) ≤ 5 / 3 * (fl : ℝ) ^ 2 := by nlinarith
    have h5 : π ^ 2 * ((fl : ℝ) * (fl + 16)) ≤ 98697 / 10000 * (5 / 3 * (fl : ℝ) ^ 2) := mul_le_mul hpi.le h4 (by positivity) (by norm_num)
    nlinarith
  rw [show gain fl (2 * π / P) * (A * cos (2 * π / P * ((i : ℝ) - (fl / 2 : ℕ)) + φ)) - A * cos (2 * π / P * ((i : ℝ) - (fl / 2 : ℕ)) + φ) =
    A * ((gain fl (2 * π / P) - 1) * cos (2 * π / P * ((i : ℝ) - (fl / 2 : ℕ)) + φ)) by ring, abs_mul, abs_mul, show |A| / 100 = |A| * (1 / 100) by ring]
  refine mul_le_mul_of_nonneg_left ?_ (abs_nonneg _)
  calc _ ≤ 1 / 100 * 1 := mul_le_mul (abs_le.2 ⟨by linarith, by linarith⟩) (abs_cos_le_one _) (abs_nonneg _) (by norm_num)
    _ = 1 / 100 := by norm_num

/-- **C141.** Waves with periods of 2 to 10 samples (swell at one reading per second) are reduced to less than 1/50 by a filter of at least 240
samples. -/
theorem C141_swell (fl : ℕ) (hf : 240 ≤ fl) (P A φ : ℝ) (hP : 2 ≤ P) (hP' : P ≤ 10) (n : ℕ) (hn : fl < n) :
    ∃ y, gaussianFilter (samples (fun t => A * cos (2 * π / P * t + φ)) n) fl = .ok y ∧
      ∀ i, 2 * (fl / 2) ≤ i → i < n → ∃ v, y[i]? = some v ∧ |v| ≤ |A| / 50 := by
  have hF : (240 : ℝ) ≤ fl := by exact_mod_cast hf
  obtain ⟨y, hy, hi⟩ := filtered fl (by omega) (2 * π / P) A φ n hn
  refine ⟨y, hy, fun i h1 h2 => ⟨_, hi i h1 h2, ?_⟩⟩
  have e : 2 * π / P / 2 = π / P := by ring
  have hlo : π / 10 ≤ π / P := by gcongr
  have hhi : π / P ≤ π / 2 := by gcongr
  have hsin : (3 : ℝ) / 10 ≤ sin (π / P) := by
    have h3 : sin (π / 10) ≤ sin (π / P) := sin_le_sin_of_le_of_le_pi_div_two (by linarith [pi_pos]) hhi hlo
    have hp1 := pi_gt_d2
    have hp2 := pi_lt_d2
    have h4 := sin_gt_sub_cube (x := π / 10) (by positivity)
    have h5 : (π / 10) ^ 3 ≤ (315 / 1000) ^ 3 := pow_le_pow_left₀ (by positivity) (by linarith) 3
    linarith
  have hg := gain_second fl (by omega) (2 * π / P) (by rw [e]; linarith)
  rw [e, abs_of_pos (show 0 < sin (π / P) by linarith)] at hg
  have hG : |gain fl (2 * π / P)| ≤ 1 / 50 := by
    refine hg.trans ?_
    have h72 : 72 ≤ fl * sin (π / P) := by nlinarith
    have h6 : 80 / (fl * sin (π / P)) ^ 2 ≤ 80 / 72 ^ 2 := by gcongr
    have h7 : 1 / (7 * fl * sin (π / P)) ≤ 1 / (7 * 72) := by
      rw [mul_assoc]
      gcongr
    norm_num at h6 h7 ⊢
    linarith
  rw [abs_mul, abs_mul, mul_left_comm, mul_comm |gain _ _|, show |A| / 50 = |A| * (1 / 50) by ring]
  refine mul_le_mul_of_nonneg_left ?_ (abs_nonneg _)
  calc _ ≤ 1 * (1 / 50) := mul_le_mul (abs_cos_le_one _) hG (abs_nonneg _) zero_le_one
    _ = 1 / 50 := one_mul _

/-! Non-vacuity: swell of 8 s in gravity readings of one hour at 1 Hz, and the filter of 240 samples. -/

example : ∃ y, gaussianFilter (samples (fun t => 20000 * cos (2 * π / 8 * t + 0)) 3600) (240 : ℕ) = .ok y ∧
    ∀ i : ℕ, 240 ≤ i → i < 3600 → ∃ v, y[i]? = some v ∧ |v| ≤ |(20000 : ℝ)| / 50 :=
  C141_swell 240 (by norm_num) 8 20000 0 (by norm_num) (by norm_num) 3600 (by norm_num)

example : ∃ y, gaussianFilter (samples (fun t => 30 * cos (2 * π / 2400 * t + 1)) 3600) (240 : ℕ) = .ok y ∧
    ∀ i : ℕ, 240 ≤ i → i < 3600 → ∃ v, y[i]? = some v ∧ |v - 30 * cos (2 * π / 2400 * ((i : ℝ) - (240 / 2 : ℕ)) + 1)| ≤ |(30 : ℝ)| / 100 :=
  C141_long_wave 240 (by norm_num) 2400 30 1 (by norm_num) 3600 (by norm_num)

end Shipgrav
