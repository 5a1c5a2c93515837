import Verif.Model.Lowpass
import Verif.Lemmas.Signal
import Verif.Lemmas.LowpassWeights
import Verif.Spec.Nav
import Mathlib.Analysis.SpecialFunctions.Trigonometric.Basic

/-! Property theorems C109, C110, C143 and C166 (filter): smoothing of free-air anomalies in the example scripts, trimming of what the ends spoil, and what passes. -/

namespace Shipgrav
open Spec Real Lowpass

/-! ### Helpers -/

private theorem samples_congr {α : Type} {f g : ℕ → α} {n : ℕ} (h : ∀ i < n, f i = g i) : samples f n = samples g n :=
  List.map_congr_left (fun i hi => h i (List.mem_range.1 hi))

private theorem bothWays_line (a c : ℝ) (i : ℤ) : bothWays weights (fun t => a + c * t) i = a + c * i := by
  unfold bothWays
  rw [weights_length]
  have h1 := weights_sum
  have : ∀ j ∈ Finset.range 480, ∑ k ∈ Finset.range 480, weights.getD j 0 * weights.getD k 0 * (a + c * ((i + k - j : ℤ) : ℝ)) =
      weights.getD j 0 * (a + c * i - c * j) + weights.getD j 0 * (c * ∑ k ∈ Finset.range 480, weights.getD k 0 * k) := by
    intro j _
    rw [Finset.mul_sum, Finset.mul_sum]
    have : weights.getD j 0 * (a + c * i - c * j) = ∑ k ∈ Finset.range 480, weights.getD k 0 * (weights.getD j 0 * (a + c * i - c * j)) := by
      rw [← Finset.sum_mul, h1, one_mul]
    rw [this, ← Finset.sum_add_distrib]
    apply Finset.sum_congr rfl
    intro k _
    push_cast; ring
  rw [Finset.sum_congr rfl this, Finset.sum_add_distrib, ← Finset.sum_mul, h1, one_mul]
  have h2 : ∑ j ∈ Finset.range 480, weights.getD j 0 * (a + c * i - c * j) = (a + c * i) * 1 - c * ∑ j ∈ Finset.range 480, weights.getD j 0 * j := by
    rw [← h1, Finset.mul_sum, Finset.mul_sum, ← Finset.sum_sub_distrib]
    apply Finset.sum_congr rfl
    intro j _; ring
  rw [h2]; ring

private theorem continued_line (a c : ℝ) (n : ℕ) (hn : 0 < n) (t : ℤ) (h1 : -(n : ℤ) < t) (h2 : t < 2 * n - 1) :
    continued (samples (fun i => a + c * i) n) t = a + c * t := by
  have g : ∀ i : ℕ, i < n → (samples (fun (i : ℕ) => a + c * (i : ℝ)) n).getD i 0 = a + c * i := fun i hi => samples_getD _ _ _ _ hi
  unfold continued
  simp only [samples_length]
  split
  · rw [g _ hn, g _ (by omega)]
    have : (((-t).toNat : ℕ) : ℝ) = -(t : ℝ) := by
      have : (((-t).toNat : ℤ) : ℝ) = ((-t : ℤ) : ℝ) := by rw [Int.toNat_of_nonneg (by omega)]
      push_cast at this; exact this
    rw [this]; push_cast; ring
  · split
    · rw [g _ (by omega)]
      have : ((t.toNat : ℕ) : ℝ) = (t : ℝ) := by
        have : ((t.toNat : ℤ) : ℝ) = ((t : ℤ) : ℝ) := by rw [Int.toNat_of_nonneg (by omega)]
        push_cast at this; exact this
      rw [this]
    · rw [g _ (by omega), g _ (by omega)]
      have e1 : ((((n : ℤ) - 1).toNat : ℕ) : ℝ) = (n : ℝ) - 1 := by
        have : ((((n : ℤ) - 1).toNat : ℤ) : ℝ) = (((n : ℤ) - 1 : ℤ) : ℝ) := by rw [Int.toNat_of_nonneg (by omega)]
        push_cast at this; exact this
      have e2 : (((2 * ((n : ℤ) - 1) - t).toNat : ℕ) : ℝ) = 2 * ((n : ℝ) - 1) - t := by
        have : (((2 * ((n : ℤ) - 1) - t).toNat : ℤ) : ℝ) = ((2 * ((n : ℤ) - 1) - t : ℤ) : ℝ) := by rw [Int.toNat_of_nonneg (by omega)]
        push_cast at this; exact this
      rw [e1, e2]; ring

/-! ### C109 -/

/-- **C109.** `filtfilt` with weights `b` of a record longer than three times the weights: every sample, up to both ends, is the weights applied
forwards and backwards to the record continued by point reflection. -/
theorem C109_filtfilt (b x : List ℝ) (hb : b ≠ []) (hx : 3 * b.length < x.length) :
    filtfilt b x = .ok (samples (fun i => bothWays b (continued x) i) x.length) := filtfilt_eq b x hb hx

private theorem sum_drop (b : List ℝ) : ∀ k, (b.drop k).sum = ∑ j ∈ Finset.range b.length, if j < k then 0 else b.getD j 0 := by
  induction b with
  | nil => simp
  | cons c rest ih =>
    intro k
    rw [List.length_cons, Finset.sum_range_succ']
    cases k with
    | zero =>
      have := ih 0
      simp only [List.drop_zero, Nat.not_lt_zero, if_false] at this
      simp [this, add_comm]
    | succ k => simp [ih k]

/-- **C109.** The state with which either pass starts is that of a record that was constant before its first sample: for `j > i` the index `i - j` is 0. -/
theorem C109_initial_state (b x : List ℝ) (hb : b ≠ []) :
    lfilterState b x ((lfilterZi b).map (· * x.getD 0 0)) = samples (fun i => ∑ j ∈ Finset.range b.length, b.getD j 0 * x.getD (i - j) 0) x.length := by
  apply ext_of_getD
  · rw [lfilterState_length _ _ _ hb, samples_length]
  · intro i hi
    rw [lfilterState_length _ _ _ hb] at hi
    rw [lfilterState_getD _ _ _ _ hi hb, samples_getD _ _ _ _ hi]
    have hz : ((lfilterZi b).map (· * x.getD 0 0)).getD i 0 = (b.drop (i + 1)).sum * x.getD 0 0 := by
      unfold lfilterZi
      simp only [List.map_map]
      by_cases h : i < b.length - 1
      · rw [getD_map_range _ _ _ _ h, Function.comp_apply, ← List.sum_take_add_sum_drop (b.drop 1) i, List.drop_drop, Nat.add_comm 1 i]
        ring
      · rw [List.getD_eq_default _ _ (by simp; omega), List.drop_eq_nil_of_le (by omega)]
        simp
    rw [hz, sum_drop, Finset.sum_mul, ← Finset.sum_add_distrib]
    apply Finset.sum_congr rfl
    intro j _
    by_cases h : j ≤ i
    · rw [if_pos h, if_pos (by omega)]; ring
    · rw [if_neg h, if_neg (by omega), Nat.sub_eq_zero_of_le (by omega)]; ring

/-- **C109.** The smoothing of the scripts: 480 weights that are symmetric and add up to one, forwards and backwards. -/
theorem C109_lowpass : ∃ B : List ℝ, B.length = 480 ∧ (∑ j ∈ Finset.range 480, B.getD j 0) = 1 ∧ (∀ j < 480, B.getD (479 - j) 0 = B.getD j 0) ∧
    ∀ faa : List ℝ, lowpassScript 1 faa =
      if faa.length ≤ 1440 then .error .valueError else .ok (samples (fun i => bothWays B (continued faa) i) faa.length) := by
  refine ⟨weights, weights_length, weights_sum, ?_, ?_⟩
  · intro j hj
    rw [weights_getD _ (by omega), weights_getD _ hj, raw_symm j hj]
  · intro faa
    split
    · rename_i h
      unfold lowpassScript
      simp only [firwin_eq]
      exact filtfilt_short _ _ weights_ne (by rw [weights_length]; omega)
    · rename_i h
      exact lowpass_eq faa (by omega)

/-- **C109.** A constant and a steady drift pass unchanged, up to both ends. -/
theorem C109_trend_unchanged (a c : ℝ) (n : ℕ) (hn : 1440 < n) :
    lowpassScript 1 (samples (fun i => a + c * i) n) = .ok (samples (fun i => a + c * i) n) := by
  rw [lowpass_eq _ (by rw [samples_length]; exact hn), samples_length]
  refine congrArg Except.ok (samples_congr ?_)
  intro i hi
  rw [bothWays_congr weights _ (fun t => a + c * t) i 0, add_zero, bothWays_line]
  · push_cast; ring
  · intro t h1 h2
    rw [weights_length] at h1 h2
    rw [continued_line a c n (by omega) t (by omega) (by omega), add_zero]

/-- **C109.** Smoothing is linear: a sum of anomalies is smoothed to the sum of the smoothed anomalies. -/
theorem C109_superposition (f g : ℕ → ℝ) (s : ℝ) (n : ℕ) (hn : 1440 < n) : ∃ F G : ℕ → ℝ,
    lowpassScript 1 (samples f n) = .ok (samples F n) ∧ lowpassScript 1 (samples g n) = .ok (samples G n) ∧
      lowpassScript 1 (samples (fun i => f i + s * g i) n) = .ok (samples (fun i => F i + s * G i) n) := by
  refine ⟨fun i => bothWays weights (continued (samples f n)) i, fun i => bothWays weights (continued (samples g n)) i, ?_, ?_, ?_⟩
  · rw [lowpass_eq _ (by rw [samples_length]; exact hn), samples_length]
  · rw [lowpass_eq _ (by rw [samples_length]; exact hn), samples_length]
  · rw [lowpass_eq _ (by rw [samples_length]; exact hn), samples_length]
    refine congrArg Except.ok (samples_congr ?_)
    intro i hi
    have hc : ∀ t : ℤ, -(n : ℤ) < t → t < 2 * n - 1 → continued (samples (fun i => f i + s * g i) n) t = continued (samples f n) t + s * continued (samples g n) t := by
      intro t h1 h2
      have gg : ∀ (f : ℕ → ℝ) (i : ℕ), i < n → (samples f n).getD i 0 = f i := fun f i hi => samples_getD _ _ _ _ hi
      unfold continued
      simp only [samples_length]
      split
      · rw [gg _ _ (by omega), gg _ _ (by omega), gg _ _ (by omega), gg _ _ (by omega), gg _ _ (by omega), gg _ _ (by omega)]; ring
      · split
        · rw [gg _ _ (by omega), gg _ _ (by omega), gg _ _ (by omega)]
        · rw [gg _ _ (by omega), gg _ _ (by omega), gg _ _ (by omega), gg _ _ (by omega), gg _ _ (by omega), gg _ _ (by omega)]; ring
    unfold bothWays
    rw [weights_length, Finset.mul_sum, ← Finset.sum_add_distrib]
    apply Finset.sum_congr rfl
    intro j hj
    rw [Finset.mul_sum, ← Finset.sum_add_distrib]
    apply Finset.sum_congr rfl
    intro k hk
    rw [Finset.mem_range] at hj hk
    rw [hc _ (by omega) (by omega)]; ring

private theorem bothWays_wave (ω A φ : ℝ) (i : ℤ) : bothWays weights (fun t => A * cos (ω * t + φ)) i =
    ((∑ j ∈ Finset.range 480, weights.getD j 0 * cos (ω * j)) ^ 2 + (∑ j ∈ Finset.range 480, weights.getD j 0 * sin (ω * j)) ^ 2) * (A * cos (ω * i + φ)) := by
  set C := ∑ j ∈ Finset.range 480, weights.getD j 0 * cos (ω * j) with hC
  set S := ∑ j ∈ Finset.range 480, weights.getD j 0 * sin (ω * j) with hS
  unfold bothWays
  rw [weights_length]
  set θ := ω * i + φ with hθ
  have e : ∀ j ∈ Finset.range 480, ∑ k ∈ Finset.range 480, weights.getD j 0 * weights.getD k 0 * (A * cos (ω * ((i + k - j : ℤ) : ℝ) + φ)) =
      weights.getD j 0 * cos (ω * j) * (A * (cos θ * C - sin θ * S)) + weights.getD j 0 * sin (ω * j) * (A * (sin θ * C + cos θ * S)) := by
    intro j _
    rw [hC, hS]
    simp only [Finset.mul_sum, ← Finset.sum_sub_distrib, ← Finset.sum_add_distrib]
    apply Finset.sum_congr rfl
    intro k _
    have : ω * ((i + k - j : ℤ) : ℝ) + φ = (θ + ω * k) - ω * j := by rw [hθ]; push_cast; ring
    rw [this, cos_sub, cos_add θ, sin_add θ]; ring
  rw [Finset.sum_congr rfl e, Finset.sum_add_distrib, ← Finset.sum_mul, ← Finset.sum_mul, ← hC, ← hS]
  ring

private theorem wave_factor (ω A φ : ℝ) (n : ℕ) (hn : 1440 < n) : ∃ F : ℕ → ℝ,
    lowpassScript 1 (samples (fun i => A * cos (ω * i + φ)) n) = .ok (samples F n) ∧
      ∀ i, 479 ≤ i → i + 479 < n → F i = ((∑ j ∈ Finset.range 480, weights.getD j 0 * cos (ω * j)) ^ 2 +
        (∑ j ∈ Finset.range 480, weights.getD j 0 * sin (ω * j)) ^ 2) * (A * cos (ω * i + φ)) := by
  refine ⟨fun i => bothWays weights (continued (samples (fun i => A * cos (ω * i + φ)) n)) i, ?_, ?_⟩
  · rw [lowpass_eq _ (by rw [samples_length]; exact hn), samples_length]
  · intro i h1 h2
    show bothWays weights (continued (samples (fun i => A * cos (ω * i + φ)) n)) ((i : ℕ) : ℤ) = _
    rw [bothWays_congr weights _ (fun t => A * cos (ω * t + φ)) i 0, add_zero, bothWays_wave]
    · push_cast; rfl
    · intro t ht1 ht2
      rw [weights_length] at ht1 ht2
      obtain ⟨t, rfl⟩ := Int.eq_ofNat_of_zero_le (by omega : 0 ≤ t)
      show continued _ ((t : ℕ) : ℤ) = _
      rw [continued_inside _ _ (by rw [samples_length]; omega), samples_getD _ _ _ _ (by omega), add_zero]
      push_cast; rfl

/-- **C109.** A wave keeps its phase: more than 478 samples from the ends it is multiplied by one factor that is not negative. -/
theorem C109_no_phase_shift (ω : ℝ) : ∃ gain : ℝ, 0 ≤ gain ∧ ∀ (A φ : ℝ) (n : ℕ), 1440 < n → ∃ F : ℕ → ℝ,
    lowpassScript 1 (samples (fun i => A * cos (ω * i + φ)) n) = .ok (samples F n) ∧
      ∀ i, 479 ≤ i → i + 479 < n → F i = gain * (A * cos (ω * i + φ)) := by
  exact ⟨_, by positivity, fun A φ n hn => wave_factor ω A φ n hn⟩

/-! ### C110 -/

private theorem inner_same (p x q : List ℝ) (i : ℕ) (h1 : 479 ≤ i) (h2 : i + 479 < x.length) :
    bothWays weights (continued x) i = bothWays weights (continued (p ++ x ++ q)) ((p.length + i : ℕ) : ℤ) := by
  rw [bothWays_congr weights _ (continued (p ++ x ++ q)) i p.length]
  · congr 1; push_cast; ring
  · intro t ht1 ht2
    rw [weights_length] at ht1 ht2
    obtain ⟨t, rfl⟩ := Int.eq_ofNat_of_zero_le (by omega : 0 ≤ t)
    show continued x ((t : ℕ) : ℤ) = _
    have ht : t < x.length := by omega
    have e : ((t : ℕ) : ℤ) + (p.length : ℤ) = ((t + p.length : ℕ) : ℤ) := by push_cast; ring
    rw [continued_inside _ _ ht]
    show _ = continued _ (((t : ℕ) : ℤ) + (p.length : ℤ))
    rw [e, continued_inside _ _ (by simp only [List.length_append]; omega), List.getD_append _ _ _ _ (by simp only [List.length_append]; omega),
      List.getD_append_right _ _ _ _ (by omega)]
    congr 1; omega

private theorem trim_getD (x : List ℝ) (m k i : ℕ) (h : k + i < x.length - m) : ((x.take (x.length - m)).drop k).getD i 0 = x.getD (k + i) 0 := by
  rw [List.getD_eq_getElem?_getD, List.getElem?_drop, List.getElem?_take, if_pos h, ← List.getD_eq_getElem?_getD]

private theorem trimTrack_getD (x : List ℝ) (i : ℕ) (h : i + 960 < x.length) : (trimTrack x).getD i 0 = x.getD (480 + i) 0 :=
  trim_getD x 480 480 i (by omega)

private theorem trimPlot_getD (x : List ℝ) (i : ℕ) (h : i + 720 < x.length) : (trimPlot x).getD i 0 = x.getD (480 + i) 0 :=
  trim_getD x 240 480 i (by omega)

private theorem trimTrack_length (x : List ℝ) : (trimTrack x).length = x.length - 960 := by
  have : ∀ a b : ℕ, ((x.take (x.length - a)).drop b).length = x.length - (a + b) := by
    intro a b; rw [List.length_drop, List.length_take]; omega
  exact this 480 480

private theorem trimPlot_length (x : List ℝ) : (trimPlot x).length = x.length - 720 := by
  have : ∀ a b : ℕ, ((x.take (x.length - a)).drop b).length = x.length - (a + b) := by
    intro a b; rw [List.length_drop, List.length_take]; omega
  exact this 240 480

private theorem cut_getD (F : ℕ → ℝ) (p n i m : ℕ) (h : i < n) (h' : p + i < m) : (((samples F m).drop p).take n).getD i 0 = F (p + i) := by
  rw [List.getD_eq_getElem?_getD, List.getElem?_take, if_pos h, List.getElem?_drop, ← List.getD_eq_getElem?_getD, samples_getD _ _ _ _ h']

private theorem cut_length (F : ℕ → ℝ) (p n m : ℕ) (h : p + n ≤ m) : (((samples F m).drop p).take n).length = n := by
  rw [List.length_take, List.length_drop, samples_length]; omega

/-- **C110** for the trimming of `RMBA_calc.py`: no effect of the ends is left.  If the record were part of any longer record, the smoothed values put into
the tracked line would be the same. -/
theorem C110_track_trim (p x q : List ℝ) (hx : 1440 < x.length) : ∃ X Y, lowpassScript 1 x = .ok X ∧ lowpassScript 1 (p ++ x ++ q) = .ok Y ∧
    trimTrack X = trimTrack ((Y.drop p.length).take x.length) := by
  have hm : p.length + x.length ≤ (p ++ x ++ q).length := by simp only [List.length_append]; omega
  refine ⟨_, _, lowpass_eq x hx, lowpass_eq _ (by omega), ?_⟩
  have hl := cut_length (fun i => bothWays weights (continued (p ++ x ++ q)) i) p.length x.length _ hm
  apply ext_of_getD
  · rw [trimTrack_length, trimTrack_length, hl, samples_length]
  · intro i hi
    rw [trimTrack_length, samples_length] at hi
    rw [trimTrack_getD _ _ (by rw [samples_length]; omega), trimTrack_getD _ _ (by rw [hl]; omega), samples_getD _ _ _ _ (by omega),
      cut_getD _ _ _ _ _ (by omega) (by omega)]
    exact inner_same p x q _ (by omega) (by omega)

/-- **C110** for the trimming of the plots: no effect of the ends is left in the samples more than 478 before the end of the record; missing are the last 239
plotted samples, see below. -/
theorem C110_plot_trim_partial (p x q : List ℝ) (hx : 1440 < x.length) : ∃ X Y, lowpassScript 1 x = .ok X ∧ lowpassScript 1 (p ++ x ++ q) = .ok Y ∧
    ∀ i, i + 239 < (trimPlot X).length → (trimPlot X).getD i 0 = (trimPlot ((Y.drop p.length).take x.length)).getD i 0 := by
  have hm : p.length + x.length ≤ (p ++ x ++ q).length := by simp only [List.length_append]; omega
  refine ⟨_, _, lowpass_eq x hx, lowpass_eq _ (by omega), ?_⟩
  have hl := cut_length (fun i => bothWays weights (continued (p ++ x ++ q)) i) p.length x.length _ hm
  intro i hi
  rw [trimPlot_length, samples_length] at hi
  rw [trimPlot_getD _ _ (by rw [samples_length]; omega), trimPlot_getD _ _ (by rw [hl]; omega), samples_getD _ _ _ _ (by omega),
    cut_getD _ _ _ _ _ (by omega) (by omega)]
  exact inner_same p x q _ (by omega) (by omega)

private theorem weight_ends : weights.getD 0 0 = 0 ∧ weights.getD 479 0 = 0 := by
  have h0 : firwinRaw 480 (1 / 120) 0 = 0 := by
    rw [firwinRaw_eq, blackman_cos]
    simp
  have h1 := raw_symm 0 (by norm_num)
  rw [weights_getD _ (by norm_num), weights_getD _ (by norm_num), h0]
  rw [Nat.sub_zero] at h1
  rw [h1, h0]; simp

private theorem weight_one : weights.getD 1 0 ≠ 0 := by
  rw [weights_getD _ (by norm_num)]
  apply div_ne_zero _ rawSum_pos.ne'
  have hpi := pi_pos
  have hab : |((1 : ℕ) : ℝ) - 239.5| = 238.5 := by rw [abs_of_neg (by norm_num)]; norm_num
  rw [firwinRaw_eq, hab]
  apply mul_ne_zero (by norm_num)
  apply mul_ne_zero
  · rw [sinc_of_ne_zero (by positivity)]
    apply div_ne_zero _ (by positivity)
    have : π * (238.5 / 120) = 2 * π - π * (1.5 / 120) := by ring
    rw [this, sin_two_pi_sub]
    apply neg_ne_zero.2
    apply (sin_pos_of_pos_of_lt_pi (by positivity) (by nlinarith)).ne'
  · rw [blackman_cos, cos_phase, hab]
    have h : -1 < cos (238.5 * (2 * π / 479)) := by
      rw [← cos_pi]
      apply cos_lt_cos_of_nonneg_of_le_pi (by positivity) le_rfl
      nlinarith
    have h1 : 0 < cos (238.5 * (2 * π / 479)) + 1 := by linarith
    have h2 : 0 < cos (238.5 * (2 * π / 479)) + 2.125 := by norm_num; linarith
    positivity

/-- **C110** fails at the end of the plots: a record of zeros of any sufficient length, of which the next sample would be one.  A value that is plotted changes when
that sample is there. -/
theorem C110_plot_trim_refuted (n : ℕ) (hn : 1440 < n) : ∃ X Y, lowpassScript 1 (List.replicate n 0) = .ok X ∧ lowpassScript 1 (List.replicate n 0 ++ [1]) = .ok Y ∧
    trimPlot X ≠ trimPlot (Y.take n) := by
  have hl : (List.replicate n (0 : ℝ) ++ [1]).length = n + 1 := by simp
  have g : ∀ i : ℕ, (List.replicate n (0 : ℝ) ++ [1]).getD i 0 = if i = n then 1 else 0 := by
    intro i
    rcases lt_trichotomy i n with h | h | h
    · rw [List.getD_append _ _ _ _ (by simpa using h), if_neg (by omega), List.getD_eq_getElem _ _ (by simpa using h), List.getElem_replicate]
    · rw [List.getD_append_right _ _ _ _ (by simp; omega), if_pos h]; simp [h]
    · rw [List.getD_eq_default _ _ (by simp; omega), if_neg (by omega)]
  refine ⟨_, _, lowpass_eq _ (by simpa using hn), lowpass_eq _ (by rw [hl]; omega), ?_⟩
  intro heq
  have hX : bothWays weights (continued (List.replicate n 0)) ((n - 477 : ℕ) : ℤ) = 0 := by
    unfold bothWays
    apply Finset.sum_eq_zero
    intro j _
    apply Finset.sum_eq_zero
    intro k _
    have z : ∀ i : ℕ, (List.replicate n (0 : ℝ)).getD i 0 = 0 := by
      intro i
      by_cases h : i < n
      · rw [List.getD_eq_getElem _ _ (by simpa using h), List.getElem_replicate]
      · rw [List.getD_eq_default _ _ (by simpa using h)]
    have : ∀ t, continued (List.replicate n 0) t = 0 := by
      intro t; unfold continued; simp only [z]; split_ifs <;> simp
    rw [this, mul_zero]
  have hY : bothWays weights (continued (List.replicate n 0 ++ [1])) ((n - 477 : ℕ) : ℤ) = weights.getD 1 0 * weights.getD 478 0 := by
    unfold bothWays
    rw [weights_length]
    have zero : ∀ j k : ℕ, j < 480 → k < 480 → ¬ (j = 1 ∧ k = 478) →
        weights.getD j 0 * weights.getD k 0 * continued (List.replicate n 0 ++ [1]) (((n - 477 : ℕ) : ℤ) + k - j) = 0 := by
      intro j k hj hk hjk
      by_cases hd : (k : ℤ) - j < 477
      · have : continued (List.replicate n 0 ++ [1]) (((n - 477 : ℕ) : ℤ) + k - j) = 0 := by
          obtain ⟨t, ht⟩ := Int.eq_ofNat_of_zero_le (by omega : 0 ≤ ((n - 477 : ℕ) : ℤ) + k - j)
          rw [ht]
          show continued _ ((t : ℕ) : ℤ) = 0
          rw [continued_inside _ _ (by rw [hl]; omega), g, if_neg (by omega)]
        rw [this, mul_zero]
      · rcases (by omega : j = 0 ∨ k = 479) with rfl | rfl
        · rw [weight_ends.1, zero_mul, zero_mul]
        · rw [weight_ends.2, mul_zero, zero_mul]
    rw [Finset.sum_eq_single 1, Finset.sum_eq_single 478]
    · have ht : ((n - 477 : ℕ) : ℤ) + (478 : ℕ) - (1 : ℕ) = ((n : ℕ) : ℤ) := by omega
      rw [ht, continued_inside _ _ (by rw [hl]; omega), g, if_pos rfl, mul_one]
    · intro k hk hne
      exact zero 1 k (by norm_num) (Finset.mem_range.1 hk) (by omega)
    · intro h; exact absurd (Finset.mem_range.2 (by norm_num)) h
    · intro j hj hne
      apply Finset.sum_eq_zero
      intro k hk
      exact zero j k (Finset.mem_range.1 hj) (Finset.mem_range.1 hk) (by omega)
    · intro h; exact absurd (Finset.mem_range.2 (by norm_num)) h
  have h478 : weights.getD 478 0 = weights.getD 1 0 := by
    rw [weights_getD _ (by norm_num), weights_getD _ (by norm_num), ← raw_symm 1 (by norm_num)]
  have e : ∀ F : ℕ → ℝ, (samples F (List.replicate n (0 : ℝ) ++ [1]).length).take n = ((samples F (List.replicate n (0 : ℝ) ++ [1]).length).drop 0).take n :=
    fun F => by rw [List.drop_zero]
  rw [e] at heq
  have hcut := cut_length (fun i => bothWays weights (continued (List.replicate n 0 ++ [1])) i) 0 n (List.replicate n (0 : ℝ) ++ [1]).length (by rw [hl]; omega)
  have := congrArg (fun l => l.getD (n - 477 - 480) 0) heq
  beta_reduce at this
  rw [trimPlot_getD _ _ (by rw [samples_length, List.length_replicate]; omega), trimPlot_getD _ _ (by rw [hcut]; omega),
    samples_getD _ _ _ _ (by rw [List.length_replicate]; omega), cut_getD _ _ _ _ _ (by omega) (by rw [hl]; omega), Nat.zero_add,
    show 480 + (n - 477 - 480) = n - 477 by omega, hX, hY, h478] at this
  exact weight_one (mul_self_eq_zero.1 this.symm)

/-! ### C143 -/

private theorem response_square (ω : ℝ) :
    (∑ j ∈ Finset.range 480, weights.getD j 0 * cos (ω * j)) ^ 2 + (∑ j ∈ Finset.range 480, weights.getD j 0 * sin (ω * j)) ^ 2 = lpH ω ^ 2 := by
  set C := ∑ j ∈ Finset.range 480, weights.getD j 0 * cos (ω * j) with hC
  set S := ∑ j ∈ Finset.range 480, weights.getD j 0 * sin (ω * j) with hS
  have a1 : ∀ k < 240, ω * ((240 + k : ℕ) : ℝ) - ω * 239.5 = ω * (k + 1 / 2) := by
    intro k _; push_cast; norm_num; ring
  have a2 : ∀ k < 240, ω * ((239 - k : ℕ) : ℝ) - ω * 239.5 = -(ω * (k + 1 / 2)) := by
    intro k hk; rw [Nat.cast_sub (by omega)]; push_cast; norm_num; ring
  have e1 : C * cos (ω * 239.5) + S * sin (ω * 239.5) = lpH ω := by
    rw [hC, hS, Finset.sum_mul, Finset.sum_mul, ← Finset.sum_add_distrib]
    have : ∀ j ∈ Finset.range 480, weights.getD j 0 * cos (ω * j) * cos (ω * 239.5) + weights.getD j 0 * sin (ω * j) * sin (ω * 239.5) =
        (fun j : ℕ => weights.getD j 0 * cos (ω * j - ω * 239.5)) j := by
      intro j _
      simp only
      rw [cos_sub]; ring
    rw [Finset.sum_congr rfl this, sum_halves]
    unfold lpH
    rw [Finset.sum_div]
    refine Finset.sum_congr rfl fun k hk => ?_
    have hk := Finset.mem_range.1 hk
    rw [a1 k hk, a2 k hk, cos_neg, (weight_half k hk).1, (weight_half k hk).2, mul_comm 2 (∑ k ∈ Finset.range 240, lpA k), ← div_div]
    ring
  have e2 : S * cos (ω * 239.5) - C * sin (ω * 239.5) = 0 := by
    rw [hC, hS, Finset.sum_mul, Finset.sum_mul, ← Finset.sum_sub_distrib]
    have : ∀ j ∈ Finset.range 480, weights.getD j 0 * sin (ω * j) * cos (ω * 239.5) - weights.getD j 0 * cos (ω * j) * sin (ω * 239.5) =
        (fun j : ℕ => weights.getD j 0 * sin (ω * j - ω * 239.5)) j := by
      intro j _
      simp only
      rw [sin_sub]; ring
    rw [Finset.sum_congr rfl this, sum_halves]
    refine Finset.sum_eq_zero fun k hk => ?_
    have hk := Finset.mem_range.1 hk
    rw [a1 k hk, a2 k hk, sin_neg, (weight_half k hk).1, (weight_half k hk).2]
    ring
  have hcs := sin_sq_add_cos_sq (ω * 239.5)
  have : C ^ 2 + S ^ 2 = (C * cos (ω * 239.5) + S * sin (ω * 239.5)) ^ 2 + (S * cos (ω * 239.5) - C * sin (ω * 239.5)) ^ 2 := by
    linear_combination (-(C ^ 2 + S ^ 2)) * hcs
  rw [this, e1, e2]
  ring

private theorem wave_gain (ω A φ : ℝ) (n : ℕ) (hn : 1440 < n) : ∃ F : ℕ → ℝ,
    lowpassScript 1 (samples (fun i => A * cos (ω * i + φ)) n) = .ok (samples F n) ∧
      ∀ i, 479 ≤ i → i + 479 < n → F i = lpH ω ^ 2 * (A * cos (ω * i + φ)) := by
  rw [← response_square]
  exact wave_factor ω A φ n hn

/-- **C143.** A long wave passes: with a period `P` of 960 s or more (one sample each second) it comes back, more than 478 samples from the ends, multiplied
by a factor that differs from one by no more than `(700 / P)²`: 1 % at two hours. -/
theorem C143_long_wave (P : ℝ) (hP : 960 ≤ P) : ∃ gain : ℝ, |1 - gain| ≤ (700 / P) ^ 2 ∧ ∀ (A φ : ℝ) (n : ℕ), 1440 < n → ∃ F : ℕ → ℝ,
    lowpassScript 1 (samples (fun i => A * cos (2 * π / P * i + φ)) n) = .ok (samples F n) ∧
      ∀ i, 479 ≤ i → i + 479 < n → F i = gain * (A * cos (2 * π / P * i + φ)) := by
  refine ⟨lpH (2 * π / P) ^ 2, ?_, fun A φ n hn => wave_gain _ A φ n hn⟩
  have hP0 : 0 < P := by linarith
  have h := lpH_long (2 * π / P)
  have hpi := pi_lt_d4
  have hpi0 := pi_pos
  have h1 : |1 - lpH (2 * π / P)| ≤ 216400 * (1 / P) ^ 2 := by
    refine h.trans ?_
    have : (2 * π / P) ^ 2 = 4 * π ^ 2 * (1 / P) ^ 2 := by ring
    rw [this]
    have : π ^ 2 ≤ 9.87 := by nlinarith
    have : 0 ≤ (1 / P) ^ 2 := by positivity
    nlinarith
  have hi : (1 / P) ^ 2 ≤ (1 / 960) ^ 2 := pow_le_pow_left₀ (by positivity) (one_div_le_one_div_of_le (by norm_num) hP) 2
  have h2 : |1 - lpH (2 * π / P)| ≤ 0.2349 := by
    refine h1.trans ?_
    norm_num at hi ⊢
    linarith
  have h3 : |1 + lpH (2 * π / P)| ≤ 2.2349 := by
    rw [abs_le] at h2 ⊢
    constructor <;> linarith [h2.1, h2.2]
  calc |1 - lpH (2 * π / P) ^ 2| = |1 - lpH (2 * π / P)| * |1 + lpH (2 * π / P)| := by rw [← abs_mul]; congr 1; ring
    _ ≤ 216400 * (1 / P) ^ 2 * 2.2349 := mul_le_mul h1 h3 (abs_nonneg _) (by positivity)
    _ ≤ 490000 * (1 / P) ^ 2 := by nlinarith [sq_nonneg (1 / P)]
    _ = _ := by ring

/-- **C143.** A short wave is removed: with a period `P` of two samples or more it comes back multiplied by a factor of at most `(P / 96)²`. -/
theorem C143_short_wave (P : ℝ) (hP : 2 ≤ P) : ∃ gain : ℝ, 0 ≤ gain ∧ gain ≤ (P / 96) ^ 2 ∧ ∀ (A φ : ℝ) (n : ℕ), 1440 < n → ∃ F : ℕ → ℝ,
    lowpassScript 1 (samples (fun i => A * cos (2 * π / P * i + φ)) n) = .ok (samples F n) ∧
      ∀ i, 479 ≤ i → i + 479 < n → F i = gain * (A * cos (2 * π / P * i + φ)) := by
  refine ⟨lpH (2 * π / P) ^ 2, by positivity, ?_, fun A φ n hn => wave_gain _ A φ n hn⟩
  have hP0 : 0 < P := by linarith
  have hpi0 := pi_pos
  have h := lpH_short (2 * π / P)
  rw [show 2 * π / P / 2 = π / P by ring] at h
  have hs : 2 / P ≤ |sin (π / P)| := by
    refine le_trans ?_ (le_abs_self _)
    have := mul_le_sin (x := π / P) (by positivity) (div_le_div_of_nonneg_left hpi0.le (by norm_num) hP)
    rwa [show 2 / π * (π / P) = 2 / P by field_simp] at this
  have h1 : |lpH (2 * π / P)| ≤ P / 96 := by
    have : |lpH (2 * π / P)| * (2 / P) ≤ 1 / 48 := (mul_le_mul_of_nonneg_left hs (abs_nonneg _)).trans h
    calc |lpH (2 * π / P)| = |lpH (2 * π / P)| * (2 / P) * (P / 2) := by field_simp
      _ ≤ 1 / 48 * (P / 2) := mul_le_mul_of_nonneg_right this (by positivity)
      _ = _ := by ring
  rw [← sq_abs]
  exact pow_le_pow_left₀ (abs_nonneg _) h1 2

private theorem gain_steep (P : ℝ) (hP : 2 ≤ P) : lpH (2 * π / P) ^ 2 ≤ (P / 94) ^ 6 := by
  have hP0 : 0 < P := by linarith
  have hpi0 := pi_pos
  have h := lpH_steep (2 * π / P)
  rw [show 2 * π / P / 2 = π / P by ring] at h
  have hs : 2 / P ≤ |sin (π / P)| := by
    refine le_trans ?_ (le_abs_self _)
    have := mul_le_sin (x := π / P) (by positivity) (div_le_div_of_nonneg_left hpi0.le (by norm_num) hP)
    rwa [show 2 / π * (π / P) = 2 / P by field_simp] at this
  have h1 : |lpH (2 * π / P)| ≤ (P / 94) ^ 3 := by
    have : |lpH (2 * π / P)| * (2 / P) ^ 3 ≤ 9.4e-6 :=
      (mul_le_mul_of_nonneg_left (pow_le_pow_left₀ (by positivity) hs 3) (abs_nonneg _)).trans h
    calc |lpH (2 * π / P)| = |lpH (2 * π / P)| * (2 / P) ^ 3 * (P / 2) ^ 3 := by field_simp
      _ ≤ 9.4e-6 * (P / 2) ^ 3 := mul_le_mul_of_nonneg_right this (by positivity)
      _ = 1.175e-6 * P ^ 3 := by ring
      _ ≤ (1 / 94) ^ 3 * P ^ 3 := mul_le_mul_of_nonneg_right (by norm_num) (by positivity)
      _ = _ := by ring
  rw [← sq_abs, show (P / 94) ^ 6 = ((P / 94) ^ 3) ^ 2 by ring]
  exact pow_le_pow_left₀ (abs_nonneg _) h1 2

/-- **C143.** The shorter the wave, the more is removed: with a period `P` of two samples or more it comes back multiplied by a factor of at most `(P / 94)⁶`. -/
theorem C143_steep (P : ℝ) (hP : 2 ≤ P) : ∃ gain : ℝ, 0 ≤ gain ∧ gain ≤ (P / 94) ^ 6 ∧ ∀ (A φ : ℝ) (n : ℕ), 1440 < n → ∃ F : ℕ → ℝ,
    lowpassScript 1 (samples (fun i => A * cos (2 * π / P * i + φ)) n) = .ok (samples F n) ∧
      ∀ i, 479 ≤ i → i + 479 < n → F i = gain * (A * cos (2 * π / P * i + φ)) :=
  ⟨lpH (2 * π / P) ^ 2, by positivity, gain_steep P hP, fun A φ n hn => wave_gain _ A φ n hn⟩

/-- **C143.** Swell: every wave of 2 s to 20 s is reduced to less than a hundred-thousandth. -/
theorem C143_swell (P : ℝ) (h2 : 2 ≤ P) (h20 : P ≤ 20) : ∃ gain : ℝ, 0 ≤ gain ∧ gain < 1 / 100000 ∧ ∀ (A φ : ℝ) (n : ℕ), 1440 < n → ∃ F : ℕ → ℝ,
    lowpassScript 1 (samples (fun i => A * cos (2 * π / P * i + φ)) n) = .ok (samples F n) ∧
      ∀ i, 479 ≤ i → i + 479 < n → F i = gain * (A * cos (2 * π / P * i + φ)) := by
  refine ⟨lpH (2 * π / P) ^ 2, by positivity, ?_, fun A φ n hn => wave_gain _ A φ n hn⟩
  have hP0 : 0 < P := by linarith
  have hpi0 := pi_pos
  have p1 := pi_gt_d4
  have p2 := pi_lt_d4
  have h := lpH_steep (2 * π / P)
  rw [show 2 * π / P / 2 = π / P by ring] at h
  have hs : 0.155 ≤ |sin (π / P)| := by
    refine le_trans ?_ (le_abs_self _)
    refine le_trans ?_ (sin_le_sin_of_le_of_le_pi_div_two (by linarith [div_pos hpi0 (by norm_num : (0:ℝ) < 20)])
      (div_le_div_of_nonneg_left hpi0.le (by norm_num) h2) (div_le_div_of_nonneg_left hpi0.le hP0 h20))
    have h3 := sin_gt_sub_cube (x := π / 20) (by positivity)
    have h4 : (π / 20) ^ 3 ≤ 0.16 ^ 3 := pow_le_pow_left₀ (by positivity) (by linarith) 3
    norm_num at h4 h3 ⊢
    linarith
  have h1 : |lpH (2 * π / P)| ≤ 0.003 := by
    have : |lpH (2 * π / P)| * 0.155 ^ 3 ≤ 9.4e-6 := (mul_le_mul_of_nonneg_left (pow_le_pow_left₀ (by norm_num) hs 3) (abs_nonneg _)).trans h
    norm_num at this ⊢
    linarith
  rw [← sq_abs]
  refine (pow_le_pow_left₀ (abs_nonneg _) h1 2).trans_lt (by norm_num)

/-! ### C166: what comes out of the filter -/

private theorem bothWays_near (e e' : ℤ → ℝ) (i : ℤ) (ε K : ℝ) (hε : 0 ≤ ε) (hK : 0 ≤ K)
    (h : ∀ t : ℤ, i - 480 < t → t < i + 480 → |e t - e' t| ≤ ε + K * ((t - i : ℤ) : ℝ) ^ 2 / 2) :
    |bothWays weights e i - bothWays weights e' i| ≤ 1.7 * ε + 14300 * K := by
  obtain ⟨L, hL⟩ : ∃ L, L = ∑ j ∈ Finset.range 480, |weights.getD j 0| := ⟨_, rfl⟩
  obtain ⟨M, hM⟩ : ∃ M, M = ∑ j ∈ Finset.range 480, |weights.getD j 0| * ((j : ℝ) - 239.5) ^ 2 := ⟨_, rfl⟩
  have L1 := weights_abs
  have M1 := weights_moment
  have Z := weights_centre
  rw [← hL] at L1
  rw [← hM] at M1
  have L0 : 0 ≤ L := by rw [hL]; exact Finset.sum_nonneg fun _ _ => abs_nonneg _
  have M0 : 0 ≤ M := by rw [hM]; exact Finset.sum_nonneg fun _ _ => mul_nonneg (abs_nonneg _) (sq_nonneg _)
  have main : |bothWays weights e i - bothWays weights e' i| ≤ ε * L ^ 2 + K * (L * M) := by
    unfold bothWays
    rw [weights_length, ← Finset.sum_sub_distrib]
    have inner : ∀ j ∈ Finset.range 480, |∑ k ∈ Finset.range 480, weights.getD j 0 * weights.getD k 0 * e (i + k - j) -
        ∑ k ∈ Finset.range 480, weights.getD j 0 * weights.getD k 0 * e' (i + k - j)| ≤
        |weights.getD j 0| * (ε * L + K / 2 * M) + |weights.getD j 0| * ((j : ℝ) - 239.5) ^ 2 * (K / 2 * L) := by
      intro j hj
      have hj := Finset.mem_range.1 hj
      rw [← Finset.sum_sub_distrib]
      refine (Finset.abs_sum_le_sum_abs _ _).trans ?_
      have : ∀ k ∈ Finset.range 480, |weights.getD j 0 * weights.getD k 0 * e (i + k - j) - weights.getD j 0 * weights.getD k 0 * e' (i + k - j)| ≤
          |weights.getD k 0| * (|weights.getD j 0| * (ε + K / 2 * ((j : ℝ) - 239.5) ^ 2)) + |weights.getD k 0| * ((k : ℝ) - 239.5) ^ 2 * (|weights.getD j 0| * (K / 2)) -
            |weights.getD k 0| * ((k : ℝ) - 239.5) * (|weights.getD j 0| * (K * ((j : ℝ) - 239.5))) := by
        intro k hk
        have hk := Finset.mem_range.1 hk
        have hb := h (i + k - j) (by omega) (by omega)
        rw [← mul_sub, abs_mul, abs_mul]
        refine (mul_le_mul_of_nonneg_left hb (mul_nonneg (abs_nonneg _) (abs_nonneg _))).trans (le_of_eq ?_)
        push_cast
        ring
      refine (Finset.sum_le_sum this).trans (le_of_eq ?_)
      rw [Finset.sum_sub_distrib, Finset.sum_add_distrib, ← Finset.sum_mul, ← Finset.sum_mul, ← Finset.sum_mul, Z, ← hL, ← hM]
      ring
    refine (Finset.abs_sum_le_sum_abs _ _).trans ((Finset.sum_le_sum inner).trans (le_of_eq ?_))
    rw [Finset.sum_add_distrib, ← Finset.sum_mul, ← Finset.sum_mul, ← hL, ← hM]
    ring
  have a : L ^ 2 ≤ 1.7 := (pow_le_pow_left₀ L0 L1 2).trans (by norm_num)
  have b : L * M ≤ 14300 := (mul_le_mul L1 M1 M0 (by norm_num)).trans (by norm_num)
  have c := mul_le_mul_of_nonneg_left a hε
  have d := mul_le_mul_of_nonneg_left b hK
  linarith

private theorem taylor_steps (g : ℕ → ℝ) (M : ℕ) (d K : ℝ) (h0 : |g 1 - g 0 - d| ≤ K / 2) (h : ∀ m, m + 2 ≤ M → |g (m + 2) - 2 * g (m + 1) + g m| ≤ K) :
    ∀ m ≤ M, |g m - g 0 - m * d| ≤ K * (m : ℝ) ^ 2 / 2 := by
  have slope : ∀ m, m + 1 ≤ M → |g (m + 1) - g m - d| ≤ K * (m + 1 / 2) := by
    intro m
    induction m with
    | zero => intro _; refine h0.trans (le_of_eq ?_); push_cast; ring
    | succ m ih =>
      intro hm
      have h1 := ih (by omega)
      have h2 := h m (by omega)
      rw [show g (m + 1 + 1) - g (m + 1) - d = (g (m + 1) - g m - d) + (g (m + 2) - 2 * g (m + 1) + g m) by ring]
      refine (abs_add_le _ _).trans ((add_le_add h1 h2).trans (le_of_eq ?_))
      push_cast
      ring
  intro m
  induction m with
  | zero => intro _; simp
  | succ m ih =>
    intro hm
    have h1 := ih (by omega)
    have h2 := slope m hm
    rw [show g (m + 1) - g 0 - ((m + 1 : ℕ) : ℝ) * d = (g m - g 0 - m * d) + (g (m + 1) - g m - d) by push_cast; ring]
    refine (abs_add_le _ _).trans ((add_le_add h1 h2).trans (le_of_eq ?_))
    push_cast
    ring

private theorem taylor_both (f : ℕ → ℝ) (n i : ℕ) (K : ℝ) (hi : 1 ≤ i) (hi' : i + 1 < n) (h : ∀ k, k + 2 < n → |f (k + 2) - 2 * f (k + 1) + f k| ≤ K) (t : ℕ) (ht : t < n) :
    |f t - (f i + (f (i + 1) - f (i - 1)) / 2 * ((t : ℝ) - i))| ≤ K * ((t : ℝ) - i) ^ 2 / 2 := by
  have hc := h (i - 1) (by omega)
  rw [show i - 1 + 2 = i + 1 by omega, show i - 1 + 1 = i by omega] at hc
  rcases le_total i t with hit | hti
  · obtain ⟨m, rfl⟩ := Nat.exists_eq_add_of_le hit
    have := taylor_steps (fun m => f (i + m)) m ((f (i + 1) - f (i - 1)) / 2) K (by
      rw [abs_le] at *
      simp only [Nat.add_zero]
      constructor <;> linarith [hc.1, hc.2]) (fun k hk => h (i + k) (by omega)) m le_rfl
    simp only [Nat.add_zero] at this
    push_cast
    rw [show (i : ℝ) + m - i = m by ring, show f (i + m) - (f i + (f (i + 1) - f (i - 1)) / 2 * m) = f (i + m) - f i - m * ((f (i + 1) - f (i - 1)) / 2) by ring]
    exact this
  · obtain ⟨m, rfl⟩ := Nat.exists_eq_add_of_le hti
    have := taylor_steps (fun j => f (t + m - j)) m (-((f (t + m + 1) - f (t + m - 1)) / 2)) K (by
      rw [abs_le] at *
      simp only [Nat.sub_zero]
      constructor <;> linarith [hc.1, hc.2]) (fun k hk => by
        have := h (t + m - (k + 2)) (by omega)
        rw [show t + m - (k + 2) + 2 = t + m - k by omega, show t + m - (k + 2) + 1 = t + m - (k + 1) by omega] at this
        rw [abs_le] at this ⊢
        constructor <;> linarith [this.1, this.2]) m le_rfl
    simp only [Nat.sub_zero, Nat.add_sub_cancel] at this
    push_cast
    rw [show (t : ℝ) - (t + m) = -m by ring, neg_sq, show f t - (f (t + m) + (f (t + m + 1) - f (t + m - 1)) / 2 * -m) =
      f t - f (t + m) - m * -((f (t + m + 1) - f (t + m - 1)) / 2) by ring]
    exact this

private theorem bothWays_add (b : List ℝ) (e e' : ℤ → ℝ) (i : ℤ) : bothWays b (fun t => e t + e' t) i = bothWays b e i + bothWays b e' i := by
  unfold bothWays
  rw [← Finset.sum_add_distrib]
  refine Finset.sum_congr rfl fun j _ => ?_
  rw [← Finset.sum_add_distrib]
  exact Finset.sum_congr rfl fun k _ => by ring

private theorem bothWays_ripples (ws : List Ripple) (hw : ∀ w ∈ ws, 2 ≤ w.period) (i : ℤ) :
    |bothWays weights (fun t => (ws.map fun w => w.value t).sum) i| ≤ (ws.map fun w => |w.amp| * (w.period / 94) ^ 6).sum := by
  induction ws with
  | nil => simp [bothWays]
  | cons w ws ih =>
    simp only [List.map_cons, List.sum_cons]
    rw [bothWays_add weights (fun t => w.value t) (fun t => (ws.map fun w => w.value t).sum)]
    refine (abs_add_le _ _).trans (add_le_add ?_ (ih fun v hv => hw v (List.mem_cons_of_mem _ hv)))
    have := bothWays_wave (2 * π / w.period) w.amp w.phase i
    rw [response_square] at this
    rw [show bothWays weights (fun t => w.value t) i = _ from this, abs_mul, abs_mul, abs_of_nonneg (sq_nonneg _)]
    have h1 := gain_steep w.period (hw w List.mem_cons_self)
    have h2 := abs_cos_le_one (2 * π / w.period * i + w.phase)
    have h3 : 0 ≤ (w.period / 94) ^ 6 := le_trans (sq_nonneg _) h1
    calc lpH (2 * π / w.period) ^ 2 * (|w.amp| * |cos (2 * π / w.period * i + w.phase)|) ≤ (w.period / 94) ^ 6 * (|w.amp| * 1) :=
        mul_le_mul h1 (mul_le_mul_of_nonneg_left h2 (abs_nonneg _)) (mul_nonneg (abs_nonneg _) (abs_nonneg _)) h3
      _ = _ := by ring

/-- **C166.** What the smoothing makes of a record that is the sum of a smooth signal (second differences of at most `K`), an error of at most `ε`, and waves: the signal, within
`14300 K`, `1.7 ε` and what is left of each wave; 480 samples from the ends and further inside. -/
theorem C166_filter (n : ℕ) (hn : 1440 < n) (f err : ℕ → ℝ) (ws : List Ripple) (ε K : ℝ) (hf : ∀ k, k + 2 < n → |f (k + 2) - 2 * f (k + 1) + f k| ≤ K)
    (he : ∀ k, 1 ≤ k → k + 1 < n → |err k| ≤ ε) (hw : ∀ w ∈ ws, 2 ≤ w.period) : ∃ F : ℕ → ℝ,
    lowpassScript 1 (samples (fun k => f k + err k + (ws.map fun w => w.value k).sum) n) = .ok (samples F n) ∧
      ∀ i, 480 ≤ i → i + 480 < n → |F i - f i| ≤ 1.7 * ε + 14300 * K + (ws.map fun w => |w.amp| * (w.period / 94) ^ 6).sum := by
  refine ⟨fun i => bothWays weights (continued (samples (fun k => f k + err k + (ws.map fun w => w.value k).sum) n)) i, ?_, ?_⟩
  · rw [lowpass_eq _ (by rw [samples_length]; exact hn), samples_length]
  · intro i h1 h2
    show |bothWays weights (continued (samples (fun k => f k + err k + (ws.map fun w => w.value k).sum) n)) ((i : ℕ) : ℤ) - f i| ≤ _
    rw [bothWays_congr weights _ (fun t => (f t.toNat + err t.toNat) + (ws.map fun w => w.value t).sum) i 0, add_zero,
      bothWays_add weights (fun t => f t.toNat + err t.toNat) (fun t => (ws.map fun w => w.value t).sum)]
    · have hr := bothWays_ripples ws hw i
      have hε : 0 ≤ ε := (abs_nonneg _).trans (he 1 le_rfl (by omega))
      have hK : 0 ≤ K := (abs_nonneg _).trans (hf 0 (by omega))
      have hn := bothWays_near (fun t => f t.toNat + err t.toNat) (fun t => (f i - (f (i + 1) - f (i - 1)) / 2 * i) + (f (i + 1) - f (i - 1)) / 2 * t) i ε K hε hK (by
        intro t a b
        obtain ⟨t, rfl⟩ := Int.eq_ofNat_of_zero_le (by omega : 0 ≤ t)
        have e1 := he t (by omega) (by omega)
        have e2 := taylor_both f n i K (by omega) (by omega) hf t (by omega)
        simp only [Int.toNat_natCast]
        push_cast
        rw [show f t + err t - (f i - (f (i + 1) - f (i - 1)) / 2 * i + (f (i + 1) - f (i - 1)) / 2 * (t : ℝ)) =
          err t + (f t - (f i + (f (i + 1) - f (i - 1)) / 2 * ((t : ℝ) - i))) by ring]
        exact (abs_add_le _ _).trans (add_le_add e1 e2))
      rw [bothWays_line] at hn
      rw [show f i - (f (i + 1) - f (i - 1)) / 2 * i + (f (i + 1) - f (i - 1)) / 2 * ((i : ℤ) : ℝ) = f i by push_cast; ring] at hn
      rw [add_sub_right_comm]
      exact (abs_add_le _ _).trans (add_le_add hn hr)
    · intro t ht1 ht2
      rw [weights_length] at ht1 ht2
      obtain ⟨t, rfl⟩ := Int.eq_ofNat_of_zero_le (by omega : 0 ≤ t)
      show continued _ ((t : ℕ) : ℤ) = _
      rw [continued_inside _ _ (by rw [samples_length]; omega), samples_getD _ _ _ _ (by omega), add_zero]
      simp

/-! ### Non-vacuity -/

/-- A record of two hours that drifts by 0.01 mGal per second. -/
example : lowpassScript 1 (samples (fun i => 980000 + 0.01 * (i : ℝ)) 7200) = .ok (samples (fun i => 980000 + 0.01 * (i : ℝ)) 7200) :=
  C109_trend_unchanged 980000 0.01 7200 (by norm_num)

/-- Two hours of a record of four. -/
example (f : ℕ → ℝ) : ∃ X Y, lowpassScript 1 (samples f 7200) = .ok X ∧ lowpassScript 1 ([] ++ samples f 7200 ++ samples f 7200) = .ok Y ∧
    trimTrack X = trimTrack ((Y.drop ([] : List ℝ).length).take (samples f 7200).length) :=
  C110_track_trim [] _ _ (by rw [samples_length]; norm_num)

/-- Swell of 8 s and 50000 mGal in a record of two hours: less than 1 mGal is left. -/
example : ∃ F : ℕ → ℝ, lowpassScript 1 (samples (fun i => 50000 * cos (2 * π / 8 * i + 0)) 7200) = .ok (samples F 7200) ∧
    ∀ i, 479 ≤ i → i + 479 < 7200 → |F i| < 1 := by
  obtain ⟨g, h0, h1, h⟩ := C143_swell 8 (by norm_num) (by norm_num)
  obtain ⟨F, hF, hi⟩ := h 50000 0 7200 (by norm_num)
  refine ⟨F, hF, fun i a b => ?_⟩
  rw [hi i a b, abs_mul, abs_mul, abs_of_nonneg h0, abs_of_pos (by norm_num : (0:ℝ) < 50000)]
  generalize 2 * π / 8 * (i : ℝ) + 0 = x
  have h2 := abs_cos_le_one x
  clear hF hi h a b
  nlinarith [abs_nonneg (cos x)]

end Shipgrav
