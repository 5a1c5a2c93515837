import Verif.Lemmas.TideExact
import Verif.Lemmas.TideFloatMid
import Verif.Lemmas.TideFloatClose

/-! The longitude of the moon's node at whole seconds between 1900 and 2099 is never 180°, and how far away it is. -/

namespace Shipgrav
open Spec Real

private theorem tideN_anti {x y : ℝ} (h0 : 0 ≤ x) (h : x ≤ y) (h1 : y ≤ 3) : tideN y ≤ tideN x := by
  unfold tideN
  nlinarith

/-- Seconds since 1899-12-31 12:00 in Julian centuries. -/
noncomputable def centurySec (τ : ℤ) : ℝ := τ / 3155760000

private theorem bracket {c : ℝ} (lo : ℤ) (l0 : 0 ≤ lo) (l1 : lo + 1 ≤ 6311606400) (h1 : c + 3e-11 ≤ tideN (centurySec lo)) (h2 : tideN (centurySec (lo + 1)) + 3e-11 ≤ c)
    (τ : ℤ) (t0 : 0 ≤ τ) (t1 : τ ≤ 6311606400) : 3e-11 ≤ |tideN (centurySec τ) - c| := by
  have le3 : ∀ n : ℤ, n ≤ 6311606400 → centurySec n ≤ 3 := by
    intro n hn
    have : (n : ℝ) ≤ 6311606400 := by exact_mod_cast hn
    unfold centurySec
    rw [div_le_iff₀ (by norm_num)]
    linarith
  have ge0 : ∀ n : ℤ, 0 ≤ n → 0 ≤ centurySec n := by
    intro n hn
    have : (0 : ℝ) ≤ n := by exact_mod_cast hn
    unfold centurySec
    positivity
  have mono : ∀ n k : ℤ, n ≤ k → centurySec n ≤ centurySec k := by
    intro n k hn
    have : (n : ℝ) ≤ k := by exact_mod_cast hn
    unfold centurySec
    gcongr
  rcases le_or_gt τ lo with h | h
  · have := tideN_anti (ge0 τ t0) (mono _ _ h) (le3 lo (by omega))
    exact le_trans (by linarith) (le_abs_self _)
  · have := tideN_anti (ge0 (lo + 1) (by omega)) (mono (lo + 1) τ (by omega)) (le3 τ t1)
    exact le_trans (by linarith) (neg_le_abs _)

/-- At whole seconds the node is at least 3e-11 radians away from longitude 180°. -/
theorem node_away (τ : ℤ) (t0 : 0 ≤ τ) (t1 : τ ≤ 6311606400) (k : ℤ) : 3e-11 ≤ |tideN (centurySec τ) - (2 * k + 1) * π| := by
  have p1 := pi_gt_d20
  have p2 := pi_lt_d20
  have r0 : (0 : ℝ) ≤ τ := by exact_mod_cast t0
  have r1 : (τ : ℝ) ≤ 6311606400 := by exact_mod_cast t1
  have c0 : 0 ≤ centurySec τ := by unfold centurySec; positivity
  have c1 : centurySec τ ≤ 2.00003 := by unfold centurySec; rw [div_le_iff₀ (by norm_num)]; linarith
  rcases lt_or_ge 0 k with hk | hk
  · have hk' : (1 : ℝ) ≤ k := by exact_mod_cast hk
    have : tideN (centurySec τ) ≤ 5 := by unfold tideN; nlinarith
    refine le_trans ?_ (neg_le_abs _)
    nlinarith
  rcases lt_or_ge k (-10) with hk2 | hk2
  · have hk' : (k : ℝ) ≤ -11 := by exact_mod_cast (show k ≤ -11 by omega)
    have : -63 ≤ tideN (centurySec τ) := by unfold tideN; nlinarith
    refine le_trans ?_ (le_abs_self _)
    nlinarith
  interval_cases k
  · refine bracket 6002991885 (by norm_num) (by norm_num) ?_ ?_ τ t0 t1 <;> · unfold tideN centurySec; push_cast; norm_num at *; linarith
  · refine bracket 5415611102 (by norm_num) (by norm_num) ?_ ?_ τ t0 t1 <;> · unfold tideN centurySec; push_cast; norm_num at *; linarith
  · refine bracket 4828230557 (by norm_num) (by norm_num) ?_ ?_ τ t0 t1 <;> · unfold tideN centurySec; push_cast; norm_num at *; linarith
  · refine bracket 4240850251 (by norm_num) (by norm_num) ?_ ?_ τ t0 t1 <;> · unfold tideN centurySec; push_cast; norm_num at *; linarith
  · refine bracket 3653470182 (by norm_num) (by norm_num) ?_ ?_ τ t0 t1 <;> · unfold tideN centurySec; push_cast; norm_num at *; linarith
  · refine bracket 3066090351 (by norm_num) (by norm_num) ?_ ?_ τ t0 t1 <;> · unfold tideN centurySec; push_cast; norm_num at *; linarith
  · refine bracket 2478710759 (by norm_num) (by norm_num) ?_ ?_ τ t0 t1 <;> · unfold tideN centurySec; push_cast; norm_num at *; linarith
  · refine bracket 1891331404 (by norm_num) (by norm_num) ?_ ?_ τ t0 t1 <;> · unfold tideN centurySec; push_cast; norm_num at *; linarith
  · refine bracket 1303952288 (by norm_num) (by norm_num) ?_ ?_ τ t0 t1 <;> · unfold tideN centurySec; push_cast; norm_num at *; linarith
  · refine bracket 716573410 (by norm_num) (by norm_num) ?_ ?_ τ t0 t1 <;> · unfold tideN centurySec; push_cast; norm_num at *; linarith
  · refine bracket 129194769 (by norm_num) (by norm_num) ?_ ?_ τ t0 t1 <;> · unfold tideN centurySec; push_cast; norm_num at *; linarith

/-- The sine of an angle that is away from 180°. -/
theorem sin_away (N : ℝ) {δ : ℝ} (h0 : 0 < δ) (h1 : δ ≤ 2e-3) (h : ∀ k : ℤ, δ ≤ |N - (2 * k + 1) * π|) : δ * (1 - 1e-5) ≤ |sin N| ∨ 0 ≤ cos N := by
  rcases le_or_gt 0 (cos N) with hc | hc
  · exact Or.inr hc
  left
  have hpi := pi_pos
  set k := ⌊N / (2 * π)⌋ with hk
  have f1 : (k : ℝ) * (2 * π) ≤ N := (le_div_iff₀ (by positivity)).1 (Int.floor_le _)
  have f2 : N < (k + 1) * (2 * π) := (div_lt_iff₀ (by positivity)).1 (Int.lt_floor_add_one _)
  have hd := h k
  set d := N - (2 * k + 1) * π with hdd
  have e : N = d + π + k * (2 * π) := by rw [hdd]; ring
  have es : |sin N| = sin |d| := by
    rw [e, sin_add_int_mul_two_pi, sin_add_pi, abs_neg]
    rw [abs_sin_eq_sin_abs_of_abs_le_pi]
    rw [abs_le]
    constructor <;> linarith
  have ec : 0 < cos |d| := by
    rw [e, cos_add_int_mul_two_pi, cos_add_pi] at hc
    rw [cos_abs]
    linarith
  have dp : |d| ≤ π := by rw [abs_le]; constructor <;> linarith
  have d2 : |d| ≤ π / 2 := by
    by_contra hn
    push Not at hn
    have := cos_neg_of_pi_div_two_lt_of_lt hn (by linarith)
    linarith
  rw [es]
  generalize |d| = x at *
  have x0 : 0 < x := lt_of_lt_of_le h0 hd
  rcases le_or_gt x 4e-3 with hx | hx
  · have := sin_gt_sub_cube x0
    have x2 : x ^ 2 ≤ 1.6e-5 := by nlinarith
    nlinarith
  · have := mul_le_sin x0.le d2
    have p4 := pi_lt_d2
    have : x / 2 ≤ 2 / π * x := by
      rw [div_mul_eq_mul_div, div_le_div_iff₀ (by norm_num) hpi]
      nlinarith
    nlinarith

end Shipgrav
