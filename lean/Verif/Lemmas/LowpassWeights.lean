import Verif.Model.Lowpass
import Verif.Lemmas.Signal
import Verif.Lemmas.ResponseDeep
import Verif.Spec.Nav
import Mathlib.Analysis.SpecialFunctions.Trigonometric.Basic

/-! The weights of the low-pass filter of the scripts: their sum, sizes and second moment. -/

namespace Shipgrav.Lowpass
open Spec Real

theorem samples_length {α : Type} (f : ℕ → α) (n : ℕ) : (samples f n).length = n := by unfold samples; simp

theorem samples_getD {α : Type} (f : ℕ → α) (n i : ℕ) (d : α) (h : i < n) : (samples f n).getD i d = f i := getD_map_range f n i d h

theorem bothWays_congr (b : List ℝ) (e e' : ℤ → ℝ) (i s : ℤ) (h : ∀ t : ℤ, i - b.length < t → t < i + b.length → e t = e' (t + s)) :
    bothWays b e i = bothWays b e' (i + s) := by
  unfold bothWays
  apply Finset.sum_congr rfl
  intro j hj
  apply Finset.sum_congr rfl
  intro k hk
  rw [Finset.mem_range] at hj hk
  rw [h _ (by omega) (by omega)]
  congr 2; ring

theorem continued_inside (x : List ℝ) (t : ℕ) (h : t < x.length) : continued x t = x.getD t 0 := by
  unfold continued
  simp only
  rw [if_neg (by omega), if_pos (by omega)]; rfl

noncomputable def rawSum : ℝ := ((List.range 480).map (firwinRaw 480 (1 / 120))).sum

noncomputable def weights : List ℝ := (List.range 480).map fun n => firwinRaw 480 (1 / 120) n / rawSum

theorem weights_length : weights.length = 480 := by unfold weights; rw [List.length_map, List.length_range]

theorem weights_ne : weights ≠ [] := by
  intro h; have := weights_length; rw [h] at this; cases this

theorem weights_getD (i : ℕ) (h : i < 480) : weights.getD i 0 = firwinRaw 480 (1 / 120) i / rawSum := getD_map_range _ _ _ _ h

theorem rawSum_pos : 0 < rawSum := raw_sum_pos

theorem weights_sum : ∑ j ∈ Finset.range 480, weights.getD j 0 = 1 := by
  have : ∀ j ∈ Finset.range 480, weights.getD j 0 = firwinRaw 480 (1 / 120) j / rawSum := fun j hj => weights_getD j (Finset.mem_range.1 hj)
  rw [Finset.sum_congr rfl this, ← Finset.sum_div, ← sum_map_range]
  exact div_self rawSum_pos.ne'

theorem firwin_eq : firwin lowpassTaps (1 / 240 / (1 / 2)) = weights := by
  have e : (1 / 240 / (1 / 2) : ℝ) = 1 / 120 := by norm_num
  rw [e, firwin_raw]
  rfl

theorem raw_symm (i : ℕ) (h : i < 480) : firwinRaw 480 (1 / 120) (479 - i) = firwinRaw 480 (1 / 120) i := by
  have hab : |((479 - i : ℕ) : ℝ) - 239.5| = |(i : ℝ) - 239.5| := by
    rw [Nat.cast_sub (by omega), ← abs_neg]; congr 1; push_cast; norm_num; ring
  rw [firwinRaw_eq, firwinRaw_eq, hab, blackman_cos, blackman_cos, cos_phase, cos_phase, hab]

theorem lowpass_eq (faa : List ℝ) (h : 1440 < faa.length) : lowpassScript 1 faa = .ok (samples (fun i => bothWays weights (continued faa) i) faa.length) := by
  unfold lowpassScript
  simp only [firwin_eq]
  show filtfilt weights faa = _
  rw [filtfilt_eq _ _ weights_ne (by rw [weights_length]; omega)]
  rfl

theorem raw_half (k : ℕ) (hk : k < 240) : firwinRaw 480 (1 / 120) (240 + k) = 1 / 120 * lpA k := by
  have hab : |((240 + k : ℕ) : ℝ) - 239.5| = k + 1 / 2 := by
    rw [show ((240 + k : ℕ) : ℝ) - 239.5 = k + 1 / 2 by push_cast; norm_num; ring, abs_of_pos (by positivity)]
  rw [firwinRaw_eq, blackman_cos, cos_phase, hab]
  have hx := lpX_pos k
  unfold lpX at hx
  rw [sinc_of_ne_zero hx.ne']
  rfl

theorem raw_half' (k : ℕ) (hk : k < 240) : firwinRaw 480 (1 / 120) (239 - k) = 1 / 120 * lpA k := by
  rw [← raw_half k hk, ← raw_symm (240 + k) (by omega)]
  congr 1
  omega

theorem sum_halves (f : ℕ → ℝ) : ∑ j ∈ Finset.range 480, f j = ∑ k ∈ Finset.range 240, (f (240 + k) + f (239 - k)) := by
  rw [show 480 = 240 + 240 by norm_num, Finset.sum_range_add, Finset.sum_add_distrib, ← Finset.sum_range_reflect f 240, add_comm]

theorem rawSum_eq : rawSum = 1 / 60 * ∑ k ∈ Finset.range 240, lpA k := by
  unfold rawSum
  rw [sum_map_range, sum_halves, Finset.mul_sum]
  refine Finset.sum_congr rfl fun k hk => ?_
  have hk := Finset.mem_range.1 hk
  rw [raw_half k hk, raw_half' k hk]
  ring

theorem weight_half (k : ℕ) (hk : k < 240) : weights.getD (240 + k) 0 = lpA k / (2 * ∑ k ∈ Finset.range 240, lpA k) ∧
    weights.getD (239 - k) 0 = lpA k / (2 * ∑ k ∈ Finset.range 240, lpA k) := by
  have h := rawSum_pos
  rw [rawSum_eq] at h
  have hT : (∑ k ∈ Finset.range 240, lpA k) ≠ 0 := by intro e; rw [e] at h; norm_num at h
  rw [weights_getD _ (by omega), weights_getD _ (by omega), raw_half k hk, raw_half' k hk, rawSum_eq]
  constructor <;> field_simp <;> ring

theorem weights_abs : ∑ j ∈ Finset.range 480, |weights.getD j 0| ≤ 1.2983 := by
  have hT := lp_total
  have hT0 : 0 < ∑ k ∈ Finset.range 240, lpA k := lt_of_lt_of_le (by norm_num) hT
  rw [sum_halves (fun j => |weights.getD j 0|)]
  have e : ∀ k ∈ Finset.range 240, |weights.getD (240 + k) 0| + |weights.getD (239 - k) 0| = |lpA k| / ∑ k ∈ Finset.range 240, lpA k := by
    intro k hk
    have hk := Finset.mem_range.1 hk
    rw [(weight_half k hk).1, (weight_half k hk).2, abs_div, abs_of_pos (by linarith : 0 < 2 * ∑ k ∈ Finset.range 240, lpA k)]
    field_simp
    ring
  rw [Finset.sum_congr rfl e, ← Finset.sum_div, div_le_iff₀ hT0]
  have hd : ∑ k ∈ Finset.range 240, (|lpA k| - lpA k) ≤ 10.35 := by
    rw [sum_sixths (fun k => |lpA k| - lpA k)]
    have z : ∀ k, k < 120 → |lpA k| - lpA k = 0 := fun k hk => by
      rw [abs_of_nonneg (show 0 ≤ lpA k from mul_nonneg (lpS_ge2 k hk) (lpB_nonneg k)), sub_self]
    have g0 := sixth_le (fun k => |lpA k| - lpA k) 0 (fun j hj => (z j (by omega)).le)
    have g1 := sixth_le (fun j => |lpA (40 + j)| - lpA (40 + j)) 0 (fun j hj => (z (40 + j) (by omega)).le)
    have g2 := sixth_le (fun j => |lpA (80 + j)| - lpA (80 + j)) 0 (fun j hj => (z (80 + j) (by omega)).le)
    have t : ∀ (x v : ℝ), |x| ≤ v → |x| - x ≤ 2 * v := fun x v h => by have := (abs_le.1 h).1; linarith
    have g3 := sixth_le (fun j => |lpA (120 + j)| - lpA (120 + j)) (2 * (0.2758 * 0.34)) (fun j hj => t _ _ (lpA_abs (120 + j) 3 (by omega) (by omega) (by norm_num)))
    have g4 := sixth_le (fun j => |lpA (160 + j)| - lpA (160 + j)) (2 * (0.2388 * 0.13)) (fun j hj => t _ _ (lpA_abs (160 + j) 4 (by omega) (by omega) (by norm_num)))
    have g5 := sixth_le (fun j => |lpA (200 + j)| - lpA (200 + j)) (2 * (0.1655 * 0.0272)) (fun j hj => t _ _ (lpA_abs (200 + j) 5 (by omega) (by omega) (by norm_num)))
    norm_num at g0 g1 g2 g3 g4 g5 ⊢
    linarith
  rw [Finset.sum_sub_distrib] at hd
  norm_num at hT hd ⊢
  linarith

theorem weights_moment : ∑ j ∈ Finset.range 480, |weights.getD j 0| * ((j : ℝ) - 239.5) ^ 2 ≤ 10952 := by
  have hT := lp_total
  have hT0 : 0 < ∑ k ∈ Finset.range 240, lpA k := lt_of_lt_of_le (by norm_num) hT
  rw [sum_halves (fun j => |weights.getD j 0| * ((j : ℝ) - 239.5) ^ 2)]
  have e : ∀ k ∈ Finset.range 240, |weights.getD (240 + k) 0| * (((240 + k : ℕ) : ℝ) - 239.5) ^ 2 + |weights.getD (239 - k) 0| * (((239 - k : ℕ) : ℝ) - 239.5) ^ 2 =
      |lpA k| * ((k : ℝ) + 1 / 2) ^ 2 / ∑ k ∈ Finset.range 240, lpA k := by
    intro k hk
    have hk := Finset.mem_range.1 hk
    rw [(weight_half k hk).1, (weight_half k hk).2, abs_div, abs_of_pos (by linarith : 0 < 2 * ∑ k ∈ Finset.range 240, lpA k), Nat.cast_sub (by omega)]
    push_cast
    field_simp
    ring
  rw [Finset.sum_congr rfl e, ← Finset.sum_div, div_le_iff₀ hT0]
  have := lp_moment
  norm_num at hT ⊢
  linarith

theorem weights_centre : ∑ j ∈ Finset.range 480, |weights.getD j 0| * ((j : ℝ) - 239.5) = 0 := by
  rw [sum_halves (fun j => |weights.getD j 0| * ((j : ℝ) - 239.5))]
  refine Finset.sum_eq_zero fun k hk => ?_
  have hk := Finset.mem_range.1 hk
  rw [(weight_half k hk).1, (weight_half k hk).2, Nat.cast_sub (by omega)]
  push_cast
  ring

end Shipgrav.Lowpass
