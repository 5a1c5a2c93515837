import Verif.Model.LowpassFloat
import Verif.Spec.FilterLibm
import Verif.Lemmas.LowpassWeights
import Verif.Lemmas.TiltCoeffs
import Verif.Lemmas.TiltFloat

/-! The weights of the low-pass filter of the scripts, computed in double precision. -/

namespace Shipgrav.LowpassF
open Spec Real

theorem mul_err {a b x y e d X Y : ℝ} (ha : |a - x| ≤ e) (hb : |b - y| ≤ d) (hx : |x| ≤ X) (hy : |y| ≤ Y) :
    |a * b - x * y| ≤ e * Y + d * X + e * d := by
  have h : a * b - x * y = (a - x) * y + (b - y) * x + (a - x) * (b - y) := by ring
  have he := (abs_nonneg _).trans ha
  have hd := (abs_nonneg _).trans hb
  have h1 : |(a - x) * y| ≤ e * Y := by rw [abs_mul]; exact mul_le_mul ha hy (abs_nonneg _) he
  have h2 : |(b - y) * x| ≤ d * X := by rw [abs_mul]; exact mul_le_mul hb hx (abs_nonneg _) hd
  have h3 : |(a - x) * (b - y)| ≤ e * d := by rw [abs_mul]; exact mul_le_mul ha hb (abs_nonneg _) he
  rw [h]
  exact (abs_add_le _ _).trans (add_le_add ((abs_add_le _ _).trans (add_le_add h1 h2)) h3)

theorem add_err {a b x y e d : ℝ} (ha : |a - x| ≤ e) (hb : |b - y| ≤ d) : |a + b - (x + y)| ≤ e + d := by
  have h : a + b - (x + y) = (a - x) + (b - y) := by ring
  rw [h]; exact (abs_add_le _ _).trans (add_le_add ha hb)

theorem rnd {e W : ℝ} (s : ℚ) (w : ℝ) (hs : |(s : ℝ) - w| ≤ e) (hw : |w| ≤ W) : |(toDouble s : ℝ) - w| ≤ e + 1 / 2 ^ 52 * (W + e) :=
  rnd_err le_rfl s w hs hw

/-- Cosine of a slightly wrong angle. -/
theorem cos_err {cs : ℚ → ℚ} (hc : ∀ q : ℚ, |(q : ℝ)| ≤ 7 → |(cs q : ℝ) - cos q| ≤ 1 / 2 ^ 51) (q : ℚ) (x e : ℝ) (h : |(q : ℝ) - x| ≤ e) (hx : |x| ≤ 6.5)
    (he : e ≤ 1 / 2) : |(cs q : ℝ) - cos x| ≤ 1 / 2 ^ 51 + e := by
  have h1 := hc q (by
    have : (q : ℝ) = x + (q - x) := by ring
    rw [this]
    refine (abs_add_le _ _).trans ?_
    norm_num at hx ⊢
    linarith)
  have h2 : |cos (q : ℝ) - cos x| ≤ |(q : ℝ) - x| := abs_cos_sub_cos_le _ _
  have e3 : (cs q : ℝ) - cos x = (cs q - cos q) + (cos q - cos x) := by ring
  rw [e3]
  exact (abs_add_le _ _).trans (add_le_add h1 (h2.trans h))

/-- The window. -/
theorem blackman_err (lm : FilterLibm) (hc : ∀ q : ℚ, |(q : ℝ)| ≤ 7 → |(lm.cos q : ℝ) - cos q| ≤ 1 / 2 ^ 51) (n : ℕ) (hn : n < 480) :
    |(blackmanF lm 480 n : ℝ) - blackman 480 n| ≤ 30 / 2 ^ 52 := by
  have hpi := pi_lt_d2
  have hpi0 := pi_pos
  obtain ⟨F, hF⟩ : ∃ F : ℝ, F = -π + 2 * π * n / 479 := ⟨_, rfl⟩
  have hnr : (n : ℝ) ≤ 479 := by exact_mod_cast Nat.le_of_lt_succ hn
  have hn0 : (0 : ℝ) ≤ n := Nat.cast_nonneg n
  have hq0 : 0 ≤ 2 * π * n / 479 := by positivity
  have hq : 2 * π * n / 479 ≤ 2 * π := by rw [div_le_iff₀ (by norm_num)]; nlinarith
  have hFab : |F| ≤ 3.15 := by rw [hF, abs_le]; constructor <;> norm_num at hpi ⊢ <;> linarith
  have hpie : |(piF : ℝ) - π| ≤ 3.2 / 2 ^ 52 := by
    refine (near_pi.err (by positivity) (by norm_num)).trans ?_
    rw [abs_of_pos hpi0]
    norm_num at hpi ⊢; linarith
  have hfac : ∃ fac : ℚ, (if n + 1 = 480 then piF else toDouble (toDouble ((n : ℚ) * toDouble (toDouble (piF - -piF) / (((480 : ℕ) : ℚ) - 1))) + -piF)) = fac ∧
      |(fac : ℝ) - F| ≤ 33 / 2 ^ 52 := by
    refine ⟨_, rfl, ?_⟩
    split
    · rename_i h
      have h479 : (n : ℝ) = 479 := by exact_mod_cast Nat.succ_injective h
      have : F = π := by rw [hF, h479]; ring
      rw [this]
      refine hpie.trans (by norm_num)
    · have a1 : Near (1 / 2 ^ 52) (piF - -piF) (2 * π) := by
        have := (near_self 2).mul near_pi
        rw [zero_add] at this
        convert this using 1
        · ring
        · norm_num
      have a2 := near_toDouble ((near_toDouble a1).div (near_self (((480 : ℕ) : ℚ) - 1)))
      have a3 := near_toDouble ((near_self (n : ℚ)).mul a2)
      have a4 := a3.err (by positivity) (by norm_num)
      have e : ((n : ℚ) : ℝ) * (2 * π / (((((480 : ℕ) : ℚ) - 1 : ℚ)) : ℝ)) = 2 * π * n / 479 := by push_cast; norm_num; ring
      rw [e, abs_of_nonneg hq0] at a4
      have a5 : |(toDouble ((n : ℚ) * toDouble (toDouble (piF - -piF) / (((480 : ℕ) : ℚ) - 1))) : ℝ) - 2 * π * n / 479| ≤ 26 / 2 ^ 52 := by
        refine a4.trans ?_
        norm_num at hpi ⊢; linarith
      have a6 := add_err a5 (show |((-piF : ℚ) : ℝ) - -π| ≤ 3.2 / 2 ^ 52 by
        rw [Rat.cast_neg, ← abs_neg]; refine le_trans (le_of_eq ?_) hpie; congr 1; ring)
      rw [← Rat.cast_add, add_comm (2 * π * n / 479) (-π), ← hF] at a6
      refine (rnd _ _ a6 hFab).trans (by norm_num)
  obtain ⟨fac, hfe, hf⟩ := hfac
  unfold blackmanF
  simp only [hfe]
  have hB : blackman 480 n = 0.42 * 1 + 0.5 * cos F + 0.08 * cos (2 * F) := by
    unfold blackman
    simp only
    have e : -π + 2 * π * n / (((480 : ℕ) : ℝ) - 1) = F := by rw [hF]; push_cast; norm_num
    rw [e]; ring
  rw [hB]
  have lit : ∀ q : ℚ, |(toDouble q : ℝ) - q| ≤ 1 / 2 ^ 52 * |(q : ℝ)| := toDouble_err
  have c0 := cos_err hc 0 0 0 (by norm_num) (by norm_num) (by norm_num)
  rw [cos_zero] at c0
  have c1 := cos_err hc fac F _ hf (hFab.trans (by norm_num)) (by norm_num)
  have f2 : |(toDouble (2 * fac) : ℝ) - 2 * F| ≤ 73 / 2 ^ 52 := by
    have h : |((2 * fac : ℚ) : ℝ) - 2 * F| ≤ 66 / 2 ^ 52 := by
      push_cast; rw [← mul_sub, abs_mul, abs_of_pos (by norm_num : (0 : ℝ) < 2)]; norm_num at hf ⊢; linarith
    refine (rnd _ _ h (W := 6.3) ?_).trans (by norm_num)
    rw [abs_mul, abs_of_pos (by norm_num : (0 : ℝ) < 2)]; norm_num at hFab ⊢; linarith
  have c2 := cos_err hc (toDouble (2 * fac)) (2 * F) _ f2 (by
    rw [abs_mul, abs_of_pos (by norm_num : (0 : ℝ) < 2)]; norm_num at hFab ⊢; linarith) (by norm_num)
  have A0 : |(toDouble 0.42 : ℝ) - 0.42| ≤ 0.42 / 2 ^ 52 := by
    have := lit 0.42
    push_cast at this
    refine this.trans (by rw [abs_of_pos (by norm_num)]; norm_num)
  have A1 : |(toDouble 0.5 : ℝ) - 0.5| ≤ 0.5 / 2 ^ 52 := by
    have := lit 0.5
    push_cast at this
    refine this.trans (by rw [abs_of_pos (by norm_num)]; norm_num)
  have A2 : |(toDouble 0.08 : ℝ) - 0.08| ≤ 0.08 / 2 ^ 52 := by
    have := lit 0.08
    push_cast at this
    refine this.trans (by rw [abs_of_pos (by norm_num)]; norm_num)
  have k1 := abs_cos_le_one F
  have k2 := abs_cos_le_one (2 * F)
  have m0 := mul_err A0 c0 (X := 0.42) (Y := 1) (by norm_num) (by norm_num)
  have m1 := mul_err A1 c1 (X := 0.5) (Y := 1) (by norm_num) k1
  have m2 := mul_err A2 c2 (X := 0.08) (Y := 1) (by norm_num) k2
  rw [← Rat.cast_mul] at m0 m1 m2
  have n0 := rnd _ _ m0 (W := 0.42) (by norm_num)
  have n1 := rnd _ _ m1 (W := 0.5) (by rw [abs_mul, abs_of_pos (by norm_num : (0 : ℝ) < 0.5)]; norm_num at k1 ⊢; linarith)
  have n2 := rnd _ _ m2 (W := 0.08) (by rw [abs_mul, abs_of_pos (by norm_num : (0 : ℝ) < 0.08)]; norm_num at k2 ⊢; linarith)
  have n0' : |((0 + toDouble (toDouble 0.42 * lm.cos 0) : ℚ) : ℝ) - 0.42 * 1| ≤ 1.8 / 2 ^ 52 := by
    rw [zero_add]; refine n0.trans (by norm_num)
  have s0 : |(toDouble (0 + toDouble (toDouble 0.42 * lm.cos 0)) : ℝ) - 0.42 * 1| ≤ 2.5 / 2 ^ 52 :=
    (rnd _ _ n0' (W := 0.42) (by norm_num)).trans (by norm_num)
  have t1 := add_err s0 n1
  rw [← Rat.cast_add] at t1
  have b1 : |(0.42 * 1 + 0.5 * cos F : ℝ)| ≤ 1 := by
    have := abs_le.1 k1
    rw [abs_le]; constructor <;> norm_num <;> linarith
  have s1 := (rnd _ _ t1 b1).trans (show _ ≤ (22.1 / 2 ^ 52 : ℝ) by norm_num)
  have t2 := add_err s1 n2
  rw [← Rat.cast_add] at t2
  have b2 : |(0.42 * 1 + 0.5 * cos F + 0.08 * cos (2 * F) : ℝ)| ≤ 1 := by
    have := abs_le.1 k1
    have := abs_le.1 k2
    rw [abs_le]; constructor <;> norm_num <;> linarith
  exact (rnd _ _ t2 b2).trans (by norm_num)

/-- The cutoff, as a fraction of the Nyquist frequency. -/
def cut : ℚ := toDouble (toDouble (1 / 240) / toDouble (1 / 2))

theorem cut_err : |cut - 1 / 120| ≤ 1 / 120 / 2 ^ 53 := by decide +kernel

theorem near_cut : Near (1 / 2 ^ 52) cut (1 / 120) := by
  have h := cut_err
  rw [← Rat.cast_le (K := ℝ)] at h
  push_cast at h
  have := near_of_rel (u := cut) (x := 1 / 120) (d := 1 / 2 ^ 53) (by norm_num) (by norm_num) (by
    refine h.trans (by rw [abs_of_pos (by norm_num)]; norm_num))
  convert this using 1
  norm_num

theorem sinc_err (lm : FilterLibm) (hs : ∀ q : ℚ, |(q : ℝ)| ≤ 7 → |(lm.sin q : ℝ) - sin q| ≤ 1 / 2 ^ 51) (n : ℕ) (hn : n < 480) :
    |(sincF lm (toDouble (cut * (n - (((480 : ℕ) : ℚ) - 1) / 2))) : ℝ) - npSinc (1 / 120 * (n - 0.5 * (((480 : ℕ) : ℝ) - 1)))| ≤ 165 / 2 ^ 52 := by
  have hpi := pi_lt_d2
  have hpi' := pi_gt_d2
  have hpi0 := pi_pos
  have a1 := near_toDouble (near_cut.mul (near_self ((n : ℚ) - (((480 : ℕ) : ℚ) - 1) / 2)))
  have em : (((n : ℚ) - (((480 : ℕ) : ℚ) - 1) / 2 : ℚ) : ℝ) = n - 0.5 * (((480 : ℕ) : ℝ) - 1) := by push_cast; norm_num
  rw [em] at a1
  generalize toDouble (cut * ((n : ℚ) - (((480 : ℕ) : ℚ) - 1) / 2)) = xF at a1 ⊢
  have hm : 1 / 2 ≤ |(n : ℝ) - 0.5 * (((480 : ℕ) : ℝ) - 1)| := by
    rcases Nat.lt_or_ge n 240 with h | h
    · have : (n : ℝ) ≤ 239 := by exact_mod_cast Nat.le_of_lt_succ h
      rw [abs_of_neg (by push_cast; norm_num; linarith)]; push_cast; norm_num; linarith
    · have : (240 : ℝ) ≤ n := by exact_mod_cast h
      rw [abs_of_pos (by push_cast; norm_num; linarith)]; push_cast; norm_num; linarith
  have hm' : |(n : ℝ) - 0.5 * (((480 : ℕ) : ℝ) - 1)| ≤ 239.5 := by
    have h1 : (n : ℝ) ≤ 479 := by exact_mod_cast Nat.le_of_lt_succ hn
    have h2 : (0 : ℝ) ≤ n := Nat.cast_nonneg n
    rw [abs_le]; push_cast; constructor <;> norm_num <;> linarith
  generalize (n : ℝ) - 0.5 * (((480 : ℕ) : ℝ) - 1) = m at *
  have hm0 : m ≠ 0 := by intro h; rw [h] at hm; norm_num at hm
  have hx0 : xF ≠ 0 := by
    obtain ⟨t, ht, e⟩ := a1
    intro h
    rw [h, Rat.cast_zero] at e
    have := ht.pos
    rcases mul_eq_zero.1 e.symm with h | h
    · exact hm0 (by linarith)
    · exact this.ne' h
  unfold sincF
  simp only [if_neg hx0]
  have a2 := near_toDouble (near_pi.mul a1)
  obtain ⟨y, hy⟩ : ∃ y : ℝ, y = π * (1 / 120 * m) := ⟨_, rfl⟩
  rw [npSinc_eq, ← hy]
  rw [← hy] at a2
  generalize toDouble (piF * xF) = q at a2 ⊢
  have hy1 : |y| = π / 120 * |m| := by rw [hy, show π * (1 / 120 * m) = π / 120 * m by ring, abs_mul, abs_of_pos (by positivity)]
  have hyl : 0.013 ≤ |y| := by rw [hy1]; norm_num at hpi' hm ⊢; nlinarith
  have hyu : |y| ≤ 6.3 := by rw [hy1]; norm_num at hpi hm' ⊢; nlinarith
  have hyp : 0 < |y| := lt_of_lt_of_le (by norm_num) hyl
  have hy0 : y ≠ 0 := abs_pos.1 hyp
  rw [sinc_of_ne_zero hy0]
  have he := a2.err (by positivity) (by norm_num)
  have ec : (101 / 100 * (1 / 2 ^ 52 + (1 / 2 ^ 52 + 0 + 1 / 2 ^ 52) + 1 / 2 ^ 52) : ℝ) = 4.04 / 2 ^ 52 := by norm_num
  rw [ec] at he
  obtain ⟨t, ht, et⟩ := a2
  have htp := ht.pos
  have hti : |t⁻¹ - 1| ≤ 4.04 / 2 ^ 52 := by
    refine (ht.inv.abs_sub_one.trans (exp_small (by positivity) (by norm_num))).trans (le_of_eq ec)
  have hS : |(lm.sin q : ℝ) - sin y| ≤ 2 / 2 ^ 52 + 4.04 / 2 ^ 52 * |y| := by
    have h1 := hs q (by
      have : (q : ℝ) = y + (q - y) := by ring
      rw [this]
      refine (abs_add_le _ _).trans ?_
      norm_num at he hyu ⊢
      linarith)
    have h2 : |sin (q : ℝ) - sin y| ≤ |(q : ℝ) - y| := abs_sin_sub_sin_le _ _
    have e3 : (lm.sin q : ℝ) - sin y = (lm.sin q - sin q) + (sin q - sin y) := by ring
    rw [e3]
    refine (abs_add_le _ _).trans (add_le_add (h1.trans (by norm_num)) (h2.trans he))
  have hS' : |(lm.sin q : ℝ) / y - sin y / y| ≤ 158 / 2 ^ 52 := by
    rw [← sub_div, abs_div, div_le_iff₀ hyp]
    refine hS.trans ?_
    norm_num at hyl ⊢; linarith
  have hsc : |sin y / y| ≤ 1 := by
    rw [abs_div, div_le_one hyp]; exact abs_sin_le_abs
  have hprod := mul_err hS' hti hsc (show |(1 : ℝ)| ≤ 1 by norm_num)
  have e4 : (lm.sin q : ℝ) / y * t⁻¹ = ((lm.sin q / q : ℚ) : ℝ) := by
    push_cast; rw [et]; field_simp
  rw [e4, mul_one] at hprod
  refine (rnd _ _ hprod hsc).trans (by norm_num)

/-- The weights before scaling. -/
theorem raw_err (lm : FilterLibm) (hs : ∀ q : ℚ, |(q : ℝ)| ≤ 7 → |(lm.sin q : ℝ) - sin q| ≤ 1 / 2 ^ 51)
    (hc : ∀ q : ℚ, |(q : ℝ)| ≤ 7 → |(lm.cos q : ℝ) - cos q| ≤ 1 / 2 ^ 51) (n : ℕ) (hn : n < 480) :
    |(firwinRawF lm 480 cut n : ℝ) - firwinRaw 480 (1 / 120) n| ≤ 1.7 / 2 ^ 52 := by
  have hS := sinc_err lm hs n hn
  have hB := blackman_err lm hc n hn
  have hc' : |(cut : ℝ) - 1 / 120| ≤ 1 / 120 / 2 ^ 53 := by
    have h := cut_err
    rw [← Rat.cast_le (K := ℝ)] at h
    push_cast at h
    exact h
  unfold firwinRawF firwinRaw
  generalize sincF lm (toDouble (cut * ((n : ℚ) - (((480 : ℕ) : ℚ) - 1) / 2))) = sF at *
  have hsl : |npSinc (1 / 120 * ((n : ℝ) - 0.5 * (((480 : ℕ) : ℝ) - 1)))| ≤ 1 := by
    rw [npSinc_eq]; exact abs_sinc_le_one _
  have hbl : |blackman 480 n| ≤ 1 := by
    have := blackman_nonneg 480 n
    rw [abs_of_nonneg this, blackman_cos]
    have h1 := neg_one_le_cos (-π + n * (2 * π / (((480 : ℕ) : ℝ) - 1)))
    have h2 := cos_le_one (-π + n * (2 * π / (((480 : ℕ) : ℝ) - 1)))
    refine (window_mono h1 h2).trans (by norm_num)
  generalize npSinc (1 / 120 * ((n : ℝ) - 0.5 * (((480 : ℕ) : ℝ) - 1))) = S at *
  generalize blackmanF lm 480 n = bF at *
  generalize blackman 480 n = B at *
  have m1 := mul_err hc' hS (X := 1 / 120) (by norm_num) hsl
  rw [← Rat.cast_mul] at m1
  have b1 : |1 / 120 * S| ≤ 1 / 120 := by rw [abs_mul, abs_of_pos (by norm_num : (0 : ℝ) < 1 / 120)]; linarith
  have r1 := (rnd _ _ m1 b1).trans (show _ ≤ (1.396 / 2 ^ 52 : ℝ) by norm_num)
  have m2 := mul_err r1 hB b1 hbl
  rw [← Rat.cast_mul] at m2
  have b2 : |1 / 120 * S * B| ≤ 1 / 120 := by
    rw [abs_mul]; exact (mul_le_mul b1 hbl (abs_nonneg _) (by norm_num)).trans (by norm_num)
  exact (rnd _ _ m2 b2).trans (by norm_num)

theorem sum_map_rangeQ (f : ℕ → ℚ) (n : ℕ) : ((List.range n).map f).sum = ∑ j ∈ Finset.range n, f j := by
  induction n with
  | zero => simp
  | succ n ih => rw [List.range_succ, List.map_append, List.sum_append, ih, Finset.sum_range_succ]; simp

theorem firwinF_getD (lm : FilterLibm) (j : ℕ) (h : j < 480) :
    (firwinF lm 480 cut).getD j 0 = toDouble (firwinRawF lm 480 cut j / lm.sum ((List.range 480).map (firwinRawF lm 480 cut))) := by
  unfold firwinF
  simp only [List.map_map]
  exact getD_map_range _ _ _ _ h

theorem firwinF_length (lm : FilterLibm) : (firwinF lm 480 cut).length = 480 := by
  unfold firwinF; simp only [List.length_map, List.length_range]

open Lowpass in
theorem rawSum_ge : 0.578 ≤ rawSum := by
  have := lp_total
  rw [rawSum_eq]; norm_num at this ⊢; linarith

open Lowpass in
/-- The sum of the weights before scaling. -/
theorem sum_err (lm : FilterLibm) (hg : GoodFilterLib lm.sin lm.cos lm.sum lm.dot) :
    |(lm.sum ((List.range 480).map (firwinRawF lm 480 cut)) : ℝ) - rawSum| ≤ 6 / 10 ^ 13 * rawSum := by
  have hR := rawSum_ge
  have h1 := hg.sum ((List.range 480).map (firwinRawF lm 480 cut)) (by rw [List.length_map, List.length_range]; norm_num)
  rw [List.length_map, List.length_range, List.map_map, sum_map_rangeQ, sum_map_rangeQ, ← Rat.cast_le (K := ℝ)] at h1
  push_cast at h1
  have hd : ∀ j ∈ Finset.range 480, |(firwinRawF lm 480 cut j : ℝ) - firwinRaw 480 (1 / 120) j| ≤ 1.7 / 2 ^ 52 := fun j hj =>
    raw_err lm hg.sin hg.cos j (Finset.mem_range.1 hj)
  have hD : ∑ j ∈ Finset.range 480, |(firwinRawF lm 480 cut j : ℝ) - firwinRaw 480 (1 / 120) j| ≤ 816 / 2 ^ 52 := by
    refine (Finset.sum_le_card_nsmul _ _ _ hd).trans ?_
    rw [Finset.card_range, nsmul_eq_mul]; norm_num
  have hH : ∑ j ∈ Finset.range 480, |firwinRaw 480 (1 / 120) j| ≤ 1.2983 * rawSum := by
    have h := weights_abs
    have e : ∀ j ∈ Finset.range 480, |weights.getD j 0| = |firwinRaw 480 (1 / 120) j| / rawSum := fun j hj => by
      rw [weights_getD j (Finset.mem_range.1 hj), abs_div, abs_of_pos Lowpass.rawSum_pos]
    rw [Finset.sum_congr rfl e, ← Finset.sum_div, div_le_iff₀ Lowpass.rawSum_pos] at h
    exact h
  have hA : ∑ j ∈ Finset.range 480, |(firwinRawF lm 480 cut j : ℝ)| ≤ 1.2983 * rawSum + 816 / 2 ^ 52 := by
    refine le_trans ?_ (add_le_add hH hD)
    rw [← Finset.sum_add_distrib]
    refine Finset.sum_le_sum fun j _ => ?_
    have := abs_add_le (firwinRaw 480 (1 / 120) j) ((firwinRawF lm 480 cut j : ℝ) - firwinRaw 480 (1 / 120) j)
    rwa [add_sub_cancel] at this
  have hB : |∑ j ∈ Finset.range 480, (firwinRawF lm 480 cut j : ℝ) - rawSum| ≤ 816 / 2 ^ 52 := by
    have : rawSum = ∑ j ∈ Finset.range 480, firwinRaw 480 (1 / 120) j := by unfold rawSum; rw [sum_map_range]
    rw [this, ← Finset.sum_sub_distrib]
    exact (Finset.abs_sum_le_sum_abs _ _).trans hD
  have h2 : |(lm.sum ((List.range 480).map (firwinRawF lm 480 cut)) : ℝ) - ∑ j ∈ Finset.range 480, (firwinRawF lm 480 cut j : ℝ)| ≤
      481 / 2 ^ 51 * (1.2983 * rawSum + 816 / 2 ^ 52) := by
    refine h1.trans ?_
    rw [show ((480 : ℝ) + 1) / 2 ^ 51 = 481 / 2 ^ 51 by norm_num]
    refine mul_le_mul_of_nonneg_left ?_ (by positivity)
    simpa only [Function.comp_apply, Rat.cast_abs] using hA
  generalize (∑ j ∈ Finset.range 480, (firwinRawF lm 480 cut j : ℝ)) = T at *
  have h3 := abs_add_le ((lm.sum ((List.range 480).map (firwinRawF lm 480 cut)) : ℝ) - T) (T - rawSum)
  rw [sub_add_sub_cancel] at h3
  refine h3.trans ((add_le_add h2 hB).trans ?_)
  norm_num at hR ⊢
  linarith

open Lowpass in
/-- One weight. -/
theorem weight_err (lm : FilterLibm) (hg : GoodFilterLib lm.sin lm.cos lm.sum lm.dot) (j : ℕ) (hj : j < 480) :
    |((firwinF lm 480 cut).getD j 0 : ℝ) - weights.getD j 0| ≤ 3.1 / 2 ^ 52 + 6.1 / 10 ^ 13 * |weights.getD j 0| := by
  have hR := rawSum_ge
  have hs := sum_err lm hg
  have hr := raw_err lm hg.sin hg.cos j hj
  rw [firwinF_getD lm j hj, weights_getD j hj]
  generalize lm.sum ((List.range 480).map (firwinRawF lm 480 cut)) = sF at *
  generalize firwinRawF lm 480 cut j = hF at *
  generalize firwinRaw 480 (1 / 120) j = h at *
  generalize rawSum = S at *
  have hS0 : 0 < S := lt_of_lt_of_le (by norm_num) hR
  obtain ⟨w, hw⟩ : ∃ w, w = h / S := ⟨_, rfl⟩
  have hh : h = w * S := by rw [hw]; field_simp
  rw [← hw]
  have hsl : 0.999999 * S ≤ (sF : ℝ) := by have := (abs_le.1 hs).1; norm_num at this ⊢; linarith
  have hsp : 0 < (sF : ℝ) := lt_of_lt_of_le (by norm_num; exact hS0) hsl
  have hsl2 : (1 - 6 / 10 ^ 13) * S ≤ (sF : ℝ) := by have := (abs_le.1 hs).1; linarith
  have hq : |((hF / sF : ℚ) : ℝ) - w| ≤ 3 / 2 ^ 52 + 6.01 / 10 ^ 13 * |w| := by
    have e : ((hF / sF : ℚ) : ℝ) - w = ((hF - h) - w * (sF - S)) / sF := by push_cast; rw [hh]; field_simp; ring
    rw [e, abs_div, abs_of_pos hsp, div_le_iff₀ hsp]
    have h1 : |((hF : ℝ) - h) - w * (sF - S)| ≤ 1.7 / 2 ^ 52 + |w| * (6 / 10 ^ 13 * S) := by
      refine (abs_sub _ _).trans (add_le_add hr ?_)
      rw [abs_mul]; exact mul_le_mul_of_nonneg_left hs (abs_nonneg _)
    refine h1.trans ?_
    rw [add_mul]
    have hw0 := abs_nonneg w
    refine add_le_add ?_ ?_
    · norm_num at hsl hR ⊢; linarith
    · have : 6 / 10 ^ 13 * S ≤ 6.01 / 10 ^ 13 * (sF : ℝ) := by norm_num at hsl2 ⊢; linarith
      calc |w| * (6 / 10 ^ 13 * S) ≤ |w| * (6.01 / 10 ^ 13 * (sF : ℝ)) := mul_le_mul_of_nonneg_left this hw0
        _ = _ := by ring
  refine (rnd _ _ hq le_rfl).trans ?_
  have hw0 := abs_nonneg w
  norm_num
  linarith

open Lowpass in
/-- All of them. -/
theorem weights_err (lm : FilterLibm) (hg : GoodFilterLib lm.sin lm.cos lm.sum lm.dot) :
    ∑ j ∈ Finset.range 480, |((firwinF lm 480 cut).getD j 0 : ℝ) - weights.getD j 0| ≤ 1.2 / 10 ^ 12 := by
  refine (Finset.sum_le_sum fun j hj => weight_err lm hg j (Finset.mem_range.1 hj)).trans ?_
  rw [Finset.sum_add_distrib, ← Finset.mul_sum, Finset.sum_const, Finset.card_range, nsmul_eq_mul]
  have := weights_abs
  norm_num at this ⊢
  linarith

open Lowpass in
/-- One inner product with the weights. -/
theorem dot_err (lm : FilterLibm) (hg : GoodFilterLib lm.sin lm.cos lm.sum lm.dot) (gF : ℕ → ℚ) (g : ℕ → ℝ) (P ε : ℝ)
    (hge : ∀ j < 480, |(gF j : ℝ) - g j| ≤ ε) (hP : ∀ j < 480, |g j| ≤ P) :
    |(lm.dot (firwinF lm 480 cut) ((List.range 480).map gF) : ℝ) - ∑ j ∈ Finset.range 480, weights.getD j 0 * g j| ≤
      1.2983 * ε + 1.5 / 10 ^ 12 * (P + ε) := by
  have hwe := weights_err lm hg
  have hwa := weights_abs
  have hε : 0 ≤ ε := (abs_nonneg _).trans (hge 0 (by norm_num))
  have hP0 : 0 ≤ P := (abs_nonneg _).trans (hP 0 (by norm_num))
  have hl := firwinF_length lm
  have hd := hg.dot (firwinF lm 480 cut) ((List.range 480).map gF) (by rw [hl, List.length_map, List.length_range]) (by rw [hl]; norm_num)
  have hz : ∀ f : ℚ → ℚ → ℚ, List.zipWith f (firwinF lm 480 cut) ((List.range 480).map gF) =
      (List.range 480).map fun j => f ((firwinF lm 480 cut).getD j 0) (gF j) := by
    intro f
    apply List.ext_getElem
    · simp [hl]
    · intro i h1 h2
      have hi : i < 480 := by simpa using h2
      simp only [List.getElem_zipWith, List.getElem_map, List.getElem_range]
      rw [List.getD_eq_getElem _ _ (by rw [hl]; exact hi)]
  rw [hz, hz, hl, sum_map_rangeQ, sum_map_rangeQ, ← Rat.cast_le (K := ℝ)] at hd
  push_cast at hd
  generalize (lm.dot (firwinF lm 480 cut) ((List.range 480).map gF) : ℝ) = dF at *
  clear hz hl
  obtain ⟨wF, hwF⟩ : ∃ wF : ℕ → ℝ, ∀ j, ((firwinF lm 480 cut).getD j 0 : ℝ) = wF j := ⟨_, fun _ => rfl⟩
  obtain ⟨w, hw⟩ : ∃ w : ℕ → ℝ, ∀ j, weights.getD j 0 = w j := ⟨_, fun _ => rfl⟩
  simp only [hwF, hw] at hd hwe hwa ⊢
  have hG : ∀ j < 480, |(gF j : ℝ)| ≤ P + ε := fun j hj => by
    have := abs_add_le (g j) ((gF j : ℝ) - g j)
    rw [add_sub_cancel] at this
    exact this.trans (add_le_add (hP j hj) (hge j hj))
  have hA : ∑ j ∈ Finset.range 480, |wF j * (gF j : ℝ)| ≤ (1.2983 + 1.2 / 10 ^ 12) * (P + ε) := by
    refine (Finset.sum_le_sum fun j hj => ?_ : _ ≤ ∑ j ∈ Finset.range 480, (|w j| + |wF j - w j|) * (P + ε)).trans ?_
    · rw [abs_mul]
      refine mul_le_mul ?_ (hG j (Finset.mem_range.1 hj)) (abs_nonneg _) (by positivity)
      have := abs_add_le (w j) (wF j - w j)
      rwa [add_sub_cancel] at this
    · rw [← Finset.sum_mul, Finset.sum_add_distrib]
      exact mul_le_mul_of_nonneg_right (add_le_add hwa hwe) (by linarith)
  have hB : |∑ j ∈ Finset.range 480, wF j * (gF j : ℝ) - ∑ j ∈ Finset.range 480, w j * g j| ≤ 1.2983 * ε + 1.2 / 10 ^ 12 * (P + ε) := by
    rw [← Finset.sum_sub_distrib]
    refine (Finset.abs_sum_le_sum_abs _ _).trans ?_
    refine (Finset.sum_le_sum fun j hj => ?_ : _ ≤ ∑ j ∈ Finset.range 480, (|w j| * ε + |wF j - w j| * (P + ε))).trans ?_
    · have e : wF j * (gF j : ℝ) - w j * g j = w j * (gF j - g j) + (wF j - w j) * gF j := by ring
      rw [e]
      refine (abs_add_le _ _).trans (add_le_add ?_ ?_)
      · rw [abs_mul]; exact mul_le_mul_of_nonneg_left (hge j (Finset.mem_range.1 hj)) (abs_nonneg _)
      · rw [abs_mul]; exact mul_le_mul_of_nonneg_left (hG j (Finset.mem_range.1 hj)) (abs_nonneg _)
    · rw [Finset.sum_add_distrib, ← Finset.sum_mul, ← Finset.sum_mul]
      exact add_le_add (mul_le_mul_of_nonneg_right hwa hε) (mul_le_mul_of_nonneg_right hwe (by linarith))
  generalize (∑ j ∈ Finset.range 480, wF j * (gF j : ℝ)) = T at *
  generalize (∑ j ∈ Finset.range 480, |wF j * (gF j : ℝ)|) = A at *
  generalize (∑ j ∈ Finset.range 480, w j * g j) = Y at *
  have h3 := abs_add_le (dF - T) (T - Y)
  rw [sub_add_sub_cancel] at h3
  refine h3.trans ((add_le_add hd hB).trans ?_)
  have : (480 + 1) / 2 ^ 51 * A ≤ 0.3 / 10 ^ 12 * (P + ε) := by
    refine (mul_le_mul_of_nonneg_left hA (by norm_num)).trans ?_
    rw [← mul_assoc]
    exact mul_le_mul_of_nonneg_right (by norm_num) (by linarith)
  linarith

/-! ### The passes -/

theorem getD_reverseQ (x : List ℚ) (i : ℕ) (h : i < x.length) : x.reverse.getD i 0 = x.getD (x.length - 1 - i) 0 := by
  rw [List.getD_eq_getElem?_getD, List.getD_eq_getElem?_getD, List.getElem?_reverse h]

theorem lfilterStateF_length (lm : FilterLibm) (b x zi : List ℚ) (hb : b ≠ []) : (lfilterStateF lm b x zi).length = x.length := by
  have := List.length_pos_iff.2 hb
  unfold lfilterStateF convolveFullF
  simp only [List.length_take, List.length_map, List.length_range]
  omega

theorem lfilterStateF_inner (lm : FilterLibm) (b x zi : List ℚ) (n : ℕ) (hn : n < x.length) (hb : b ≠ []) (hz : zi.length ≤ b.length - 1) (h : b.length - 1 ≤ n) :
    (lfilterStateF lm b x zi).getD n 0 = lm.dot b ((List.range b.length).map fun j => x.getD (n - j) 0) := by
  have hpos := List.length_pos_iff.2 hb
  unfold lfilterStateF
  simp only
  have hlen : (convolveFullF lm b x).length = b.length + x.length - 1 := by simp [convolveFullF]
  rw [List.length_map, List.length_range, hlen, List.getD_eq_getElem?_getD, List.getElem?_take, if_pos (by omega), ← List.getD_eq_getElem?_getD,
    getD_map_range _ _ _ _ (by omega), if_neg (by omega)]
  unfold convolveFullF
  rw [getD_map_range _ _ _ _ (by omega)]
  congr 1
  refine List.map_congr_left fun j hj => ?_
  have := List.mem_range.1 hj
  rw [if_pos (by omega)]

theorem two_passF (lm : FilterLibm) (b ext z1 z2 : List ℚ) (hb : b ≠ []) (h1 : z1.length ≤ b.length - 1) (h2 : z2.length ≤ b.length - 1) (n : ℕ)
    (hn : b.length - 1 ≤ n) (hn' : n + b.length ≤ ext.length) :
    (lfilterStateF lm b (lfilterStateF lm b ext z1).reverse z2).reverse.getD n 0 =
      lm.dot b ((List.range b.length).map fun k => lm.dot b ((List.range b.length).map fun j => ext.getD (n + k - j) 0)) := by
  have hpos := List.length_pos_iff.2 hb
  have hl1 : (lfilterStateF lm b ext z1).length = ext.length := lfilterStateF_length _ _ _ _ hb
  have hl2 : (lfilterStateF lm b (lfilterStateF lm b ext z1).reverse z2).length = ext.length := by rw [lfilterStateF_length _ _ _ _ hb, List.length_reverse, hl1]
  rw [getD_reverseQ _ _ (by omega), hl2, lfilterStateF_inner _ _ _ _ _ (by rw [List.length_reverse, hl1]; omega) hb h2 (by omega)]
  congr 1
  refine List.map_congr_left fun k hk => ?_
  have hk := List.mem_range.1 hk
  rw [getD_reverseQ _ _ (by omega), hl1, lfilterStateF_inner _ _ _ _ _ (by omega) hb h1 (by omega)]
  congr 1
  refine List.map_congr_left fun j hj => ?_
  have hj := List.mem_range.1 hj
  rw [show ext.length - 1 - (ext.length - 1 - n - k) - j = n + k - j by omega]

theorem oddExtendF_length (x : List ℚ) (edge : ℕ) : (oddExtendF x edge).length = x.length + 2 * edge := by
  unfold oddExtendF; simp; omega

theorem filtfiltF_eq (lm : FilterLibm) (b x : List ℚ) (hb : b ≠ []) (hx : 3 * b.length < x.length) :
    ∃ y, filtfiltF lm b x = .ok y ∧ y.length = x.length ∧ ∀ i < x.length, y.getD i 0 =
      lm.dot b ((List.range b.length).map fun k => lm.dot b ((List.range b.length).map fun j => (oddExtendF x (3 * b.length)).getD (3 * b.length + i + k - j) 0)) := by
  have hpos := List.length_pos_iff.2 hb
  have hmax : max 1 b.length = b.length := by omega
  unfold filtfiltF
  simp only [hmax]
  rw [if_neg (by omega)]
  obtain ⟨edge, hedge⟩ : ∃ e, e = 3 * b.length := ⟨_, rfl⟩
  rw [← hedge] at hx ⊢
  have hlext : (oddExtendF x edge).length = x.length + 2 * edge := oddExtendF_length x edge
  generalize oddExtendF x edge = ext at *
  have hz : ∀ c : ℚ, ((lfilterZiF lm b).map fun v => toDouble (v * c)).length ≤ b.length - 1 := fun c => by unfold lfilterZiF; simp
  have hz1 := hz (ext.getD 0 0)
  generalize ((lfilterZiF lm b).map fun v => toDouble (v * ext.getD 0 0)) = z1 at *
  have hz2 := hz ((lfilterStateF lm b ext z1).getD ((lfilterStateF lm b ext z1).length - 1) 0)
  generalize ((lfilterZiF lm b).map fun v => toDouble (v * (lfilterStateF lm b ext z1).getD ((lfilterStateF lm b ext z1).length - 1) 0)) = z2 at *
  have hl : (lfilterStateF lm b (lfilterStateF lm b ext z1).reverse z2).reverse.length = x.length + 2 * edge := by
    rw [List.length_reverse, lfilterStateF_length _ _ _ _ hb, List.length_reverse, lfilterStateF_length _ _ _ _ hb, hlext]
  have key := two_passF lm b ext z1 z2 hb hz1 hz2
  generalize (lfilterStateF lm b (lfilterStateF lm b ext z1).reverse z2).reverse = out at *
  refine ⟨_, rfl, ?_, ?_⟩
  · simp [hl]; omega
  · intro i hi
    rw [List.getD_eq_getElem?_getD, List.getElem?_drop, List.getElem?_take, if_pos (by omega), ← List.getD_eq_getElem?_getD, key _ (by omega) (by omega)]

theorem filtfiltF_short (lm : FilterLibm) (b x : List ℚ) (hb : b ≠ []) (hx : x.length ≤ 3 * b.length) : filtfiltF lm b x = .error .valueError := by
  have hpos := List.length_pos_iff.2 hb
  unfold filtfiltF
  simp only
  rw [if_pos (by omega)]

theorem mid_getD {α : Type} (l m r : List α) (d : α) (i : ℕ) (h1 : l.length ≤ i) (h2 : i < l.length + m.length) :
    (l ++ m ++ r).getD i d = m.getD (i - l.length) d := by
  rw [List.getD_append _ _ _ _ (by simpa using h2), List.getD_append_right _ _ _ _ h1]

/-- The continuation of the record. -/
theorem extend_err (x : List ℚ) (M : ℝ) (hM : ∀ i, |(x.getD i 0 : ℝ)| ≤ M) (edge i : ℕ) (hi : i < x.length + 2 * edge) (hx : edge < x.length) :
    |((oddExtendF x edge).getD i 0 : ℝ) - continued (x.map fun (q : ℚ) => (q : ℝ)) ((i : ℤ) - edge)| ≤ 1.2 / 10 ^ 15 * M ∧
      |continued (x.map fun (q : ℚ) => (q : ℝ)) ((i : ℤ) - edge)| ≤ 3 * M := by
  have hM0 : 0 ≤ M := (abs_nonneg _).trans (hM 0)
  have hg : ∀ k, (x.map fun (q : ℚ) => (q : ℝ)).getD k 0 = (x.getD k 0 : ℝ) := fun k => by
    have : (0 : ℝ) = ((0 : ℚ) : ℝ) := by simp
    rw [this, List.getD_map]
  have hl : (x.map fun (q : ℚ) => (q : ℝ)).length = x.length := by simp
  have hb : ∀ a b : ℝ, |a| ≤ M → |b| ≤ M → |2 * a - b| ≤ 3 * M := fun a b h1 h2 => by
    refine (abs_sub _ _).trans ?_
    rw [abs_mul, abs_of_pos (by norm_num : (0 : ℝ) < 2)]; linarith
  have hr : ∀ a b : ℚ, |(a : ℝ)| ≤ M → |(b : ℝ)| ≤ M → |(toDouble (toDouble (2 * a) - b) : ℝ) - (2 * a - b)| ≤ 1.2 / 10 ^ 15 * M := fun a b h1 h2 => by
    have e1 : |(toDouble (2 * a) : ℝ) - 2 * a| ≤ 1 / 2 ^ 52 * (2 * M) := by
      have := toDouble_err (2 * a)
      push_cast at this
      refine this.trans (mul_le_mul_of_nonneg_left ?_ (by norm_num))
      rw [abs_mul, abs_of_pos (by norm_num : (0 : ℝ) < 2)]; linarith
    have e2 : |((toDouble (2 * a) - b : ℚ) : ℝ) - (2 * a - b)| ≤ 1 / 2 ^ 52 * (2 * M) := by
      push_cast
      rw [sub_sub_sub_cancel_right]; exact e1
    refine (rnd _ _ e2 (hb a b h1 h2)).trans ?_
    norm_num; linarith
  have h0 : |(0 : ℝ)| ≤ 1.2 / 10 ^ 15 * M := by rw [abs_zero]; positivity
  rw [← oddExtend_getD _ edge i (by rw [hl]; exact hi) (by rw [hl]; exact hx)]
  unfold oddExtendF oddExtend
  simp only [hl, hg]
  by_cases h1 : i < edge
  · rw [List.append_assoc, List.append_assoc, List.getD_append _ _ _ _ (by simpa using h1), List.getD_append _ _ _ _ (by simpa using h1), getD_map_range _ _ _ _ h1,
      getD_map_range _ _ _ _ h1]
    exact ⟨hr _ _ (hM _) (hM _), hb _ _ (hM _) (hM _)⟩
  · by_cases h2 : i < edge + x.length
    · rw [mid_getD _ _ _ _ _ (by simp; omega) (by simp; omega), mid_getD _ _ _ _ _ (by simp; omega) (by simp; omega)]
      simp only [List.length_map, List.length_range, hg]
      exact ⟨by rw [sub_self]; exact h0, (hM _).trans (by linarith)⟩
    · rw [List.getD_append_right _ _ _ _ (by simp; omega), List.getD_append_right _ _ _ _ (by simp; omega)]
      simp only [List.length_append, List.length_map, List.length_range]
      rw [getD_map_range _ _ _ _ (by omega), getD_map_range _ _ _ _ (by omega)]
      exact ⟨hr _ _ (hM _) (hM _), hb _ _ (hM _) (hM _)⟩

open Lowpass in
/-- Both passes. -/
theorem lowpass_err (lm : FilterLibm) (hg : GoodFilterLib lm.sin lm.cos lm.sum lm.dot) (x : List ℚ) (M : ℝ) (hM : ∀ i, |(x.getD i 0 : ℝ)| ≤ M)
    (hx : 1440 < x.length) :
    ∃ y, lowpassScriptF lm 1 x = .ok y ∧ y.length = x.length ∧ ∀ i < x.length,
      |(y.getD i 0 : ℝ) - bothWays weights (continued (x.map fun (q : ℚ) => (q : ℝ))) i| ≤ 1.2 / 10 ^ 11 * M := by
  have hM0 : 0 ≤ M := (abs_nonneg _).trans (hM 0)
  have hl := firwinF_length lm
  have hne : firwinF lm 480 cut ≠ [] := by intro h; rw [h] at hl; cases hl
  obtain ⟨y, h1, h2, h3⟩ := filtfiltF_eq lm (firwinF lm 480 cut) x hne (by rw [hl]; omega)
  refine ⟨y, h1, h2, fun i hi => ?_⟩
  have h3 := h3 i hi
  rw [hl] at h3
  rw [h3]
  have e : bothWays weights (continued (x.map fun (q : ℚ) => (q : ℝ))) i =
      ∑ k ∈ Finset.range 480, weights.getD k 0 * ∑ j ∈ Finset.range 480, weights.getD j 0 * continued (x.map fun (q : ℚ) => (q : ℝ)) ((3 * 480 + i + k - j : ℕ) - (3 * 480 : ℕ)) := by
    unfold bothWays
    rw [weights_length, Finset.sum_comm]
    refine Finset.sum_congr rfl fun k hk => ?_
    rw [Finset.mul_sum]
    refine Finset.sum_congr rfl fun j hj => ?_
    have hk := Finset.mem_range.1 hk
    have hj := Finset.mem_range.1 hj
    rw [show ((3 * 480 + i + k - j : ℕ) : ℤ) - (3 * 480 : ℕ) = (i : ℤ) + k - j by omega]
    ring
  rw [e]
  have hE : ∀ k < 480, ∀ j < 480, _ := fun k hk j hj => extend_err x M hM (3 * 480) (3 * 480 + i + k - j) (by omega) (by omega)
  have hwa := weights_abs
  generalize continued (x.map fun (q : ℚ) => (q : ℝ)) = c at *
  have hf : ∀ k < 480, |(lm.dot (firwinF lm 480 cut) ((List.range 480).map fun j => (oddExtendF x (3 * 480)).getD (3 * 480 + i + k - j) 0) : ℝ) -
      ∑ j ∈ Finset.range 480, weights.getD j 0 * c ((3 * 480 + i + k - j : ℕ) - (3 * 480 : ℕ))| ≤ 4.51 / 10 ^ 12 * M := fun k hk => by
    refine (dot_err lm hg _ (fun j => c ((3 * 480 + i + k - j : ℕ) - (3 * 480 : ℕ))) (3 * M) (1.2 / 10 ^ 15 * M) (fun j hj => (hE k hk j hj).1)
      (fun j hj => (hE k hk j hj).2)).trans ?_
    norm_num; linarith
  have hp : ∀ k < 480, |∑ j ∈ Finset.range 480, weights.getD j 0 * c ((3 * 480 + i + k - j : ℕ) - (3 * 480 : ℕ))| ≤ 3.9 * M := fun k hk => by
    refine (Finset.abs_sum_le_sum_abs _ _).trans ?_
    refine (Finset.sum_le_sum fun j hj => ?_ : _ ≤ ∑ j ∈ Finset.range 480, |weights.getD j 0| * (3 * M)).trans ?_
    · rw [abs_mul]; exact mul_le_mul_of_nonneg_left (hE k hk j (Finset.mem_range.1 hj)).2 (abs_nonneg _)
    · rw [← Finset.sum_mul]
      refine (mul_le_mul_of_nonneg_right hwa (by linarith)).trans ?_
      norm_num; linarith
  refine (dot_err lm hg _ (fun k => ∑ j ∈ Finset.range 480, weights.getD j 0 * c ((3 * 480 + i + k - j : ℕ) - (3 * 480 : ℕ))) (3.9 * M) (4.51 / 10 ^ 12 * M) hf hp).trans ?_
  norm_num; linarith

end Shipgrav.LowpassF
