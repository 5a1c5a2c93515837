import Verif.Lemmas.Interval
import Verif.Lemmas.Conv
import Verif.Model.NavVelFloat
import Verif.Spec.NavLibm
import Verif.Props.Nav

/-! C160: velocities, course and rotation in double precision. -/

namespace Shipgrav
open Spec Real

/-! ### Helpers -/

private theorem conv_list (lm : NavLibm) (f : ℕ → ℚ) (n m : ℕ) (hm : m + 10 < n) :
    convAtF lm (samples f n) tay10F (m + 5 + 5) = lm.dot tay10F [f (m + 10), f (m + 9), f (m + 8), f (m + 7), f (m + 6), f (m + 5), f (m + 4), f (m + 3), f (m + 2), f (m + 1), f m] := by
  have hg : ∀ k, k < n → (samples f n).getD k 0 = f k := by
    intro k hk
    unfold samples
    rw [List.getD_eq_getElem?_getD, List.getElem?_map, List.getElem?_range hk]; rfl
  have hmap : (List.range tay10F.length).map (fun j => if j ≤ m + 5 + 5 then (samples f n).getD (m + 5 + 5 - j) 0 else 0)
      = (List.range tay10F.length).map (fun j => f (m + 10 - j)) := by
    apply List.map_congr_left
    intro j hj
    have hj' : j < 11 := by simpa [tay10F] using hj
    rw [if_pos (by omega), hg _ (by omega)]
  unfold convAtF
  rw [hmap]
  have hlen : tay10F.length = 11 := rfl
  rw [hlen]
  rfl

private theorem weights_size : (tay10F.map fun w => |w|).sum ≤ 2284 / 1000 := by decide +kernel

private theorem weights_err : |toDouble (1/1260) - 1/1260| + |toDouble (-5/504) - -5/504| + |toDouble (5/84) - 5/84| + |toDouble (-5/21) - -5/21| +
    |toDouble (5/6) - 5/6| + |toDouble 0| + |toDouble (-5/6) - -5/6| + |toDouble (5/21) - 5/21| + |toDouble (-5/84) - -5/84| + |toDouble (5/504) - 5/504| +
    |toDouble (-1/1260) - -1/1260| ≤ 3 * vQ := by decide +kernel

private theorem mul_le_L {w x L : ℚ} (h : |x| ≤ L) : |w * x| ≤ |w| * L := by
  rw [abs_mul]
  exact mul_le_mul_of_nonneg_left h (abs_nonneg _)

private theorem conv_iv (lm : NavLibm) (g : GoodDot lm.dot) (f : ℕ → ℚ) (n i : ℕ) (h5 : 5 ≤ i) (hi : i + 5 < n) (L : ℚ) (hL : ∀ k < n, |f k| ≤ L) :
    Iv (-(2284 / 1000 * L)) (2284 / 1000 * L) (58 * vQ * L) (centralDiff10 (fun k => f k) i) (convAtF lm (samples f n) tay10F (i + 5)) := by
  obtain ⟨m, rfl⟩ : ∃ m, i = m + 5 := ⟨i - 5, by omega⟩
  rw [conv_list lm f n m (by omega)]
  have L0 : 0 ≤ L := (abs_nonneg _).trans (hL 0 (by omega))
  have b0 := hL m (by omega)
  have b1 := hL (m + 1) (by omega)
  have b2 := hL (m + 2) (by omega)
  have b3 := hL (m + 3) (by omega)
  have b4 := hL (m + 4) (by omega)
  have b5 := hL (m + 5) (by omega)
  have b6 := hL (m + 6) (by omega)
  have b7 := hL (m + 7) (by omega)
  have b8 := hL (m + 8) (by omega)
  have b9 := hL (m + 9) (by omega)
  have b10 := hL (m + 10) (by omega)
  have hd := g tay10F [f (m + 10), f (m + 9), f (m + 8), f (m + 7), f (m + 6), f (m + 5), f (m + 4), f (m + 3), f (m + 2), f (m + 1), f m] rfl (by decide)
  generalize lm.dot tay10F [f (m + 10), f (m + 9), f (m + 8), f (m + 7), f (m + 6), f (m + 5), f (m + 4), f (m + 3), f (m + 2), f (m + 1), f m] = D at hd
  have hw := weights_size
  have hwe := weights_err
  have hc : centralDiff10 (fun k => (f k : ℝ)) (m + 5) = ((1/1260 * f (m + 10) + -5/504 * f (m + 9) + 5/84 * f (m + 8) + -5/21 * f (m + 7) + 5/6 * f (m + 6) + -5/6 * f (m + 4)
      + 5/21 * f (m + 3) + -5/84 * f (m + 2) + 5/504 * f (m + 1) + -1/1260 * f m : ℚ) : ℝ) := by
    unfold centralDiff10
    simp only [show m + 5 + 1 = m + 6 by omega, show m + 5 + 2 = m + 7 by omega, show m + 5 + 3 = m + 8 by omega,
      show m + 5 + 4 = m + 9 by omega, show m + 5 + 5 = m + 10 by omega, show m + 5 - 1 = m + 4 by omega,
      show m + 5 - 2 = m + 3 by omega, show m + 5 - 3 = m + 2 by omega, show m + 5 - 4 = m + 1 by omega,
      show m + 5 - 5 = m by omega]
    push_cast
    ring
  rw [hc]
  have hlen : ((tay10F.length : ℕ) : ℚ) = 11 := by rfl
  rw [hlen] at hd
  unfold tay10F at hd hw
  simp only [List.map_cons, List.map_nil, List.zipWith_cons_cons, List.zipWith_nil_left, List.sum_cons, List.sum_nil, add_zero] at hd hw
  generalize toDouble (1/1260) = w0 at *
  generalize toDouble (-5/504) = w1 at *
  generalize toDouble (5/84) = w2 at *
  generalize toDouble (-5/21) = w3 at *
  generalize toDouble (5/6) = w4 at *
  generalize toDouble 0 = w5 at *
  generalize toDouble (-5/6) = w6 at *
  generalize toDouble (5/21) = w7 at *
  generalize toDouble (-5/84) = w8 at *
  generalize toDouble (5/504) = w9 at *
  generalize toDouble (-1/1260) = w10 at *
  generalize f (m + 10) = x0 at *
  generalize f (m + 9) = x1 at *
  generalize f (m + 8) = x2 at *
  generalize f (m + 7) = x3 at *
  generalize f (m + 6) = x4 at *
  generalize f (m + 5) = x5 at *
  generalize f (m + 4) = x6 at *
  generalize f (m + 3) = x7 at *
  generalize f (m + 2) = x8 at *
  generalize f (m + 1) = x9 at *
  generalize f m = x10 at *
  have e1 : |D - (w0 * x0 + (w1 * x1 + (w2 * x2 + (w3 * x3 + (w4 * x4 + (w5 * x5 + (w6 * x6 + (w7 * x7 + (w8 * x8 + (w9 * x9 + w10 * x10))))))))))| ≤ 55 * vQ * L := by
    refine hd.trans ?_
    have s : |w0 * x0| + (|w1 * x1| + (|w2 * x2| + (|w3 * x3| + (|w4 * x4| + (|w5 * x5| + (|w6 * x6| + (|w7 * x7| + (|w8 * x8| + (|w9 * x9| + |w10 * x10|)))))))))
        ≤ 2284 / 1000 * L := by
      have := mul_le_mul_of_nonneg_right hw L0
      linarith [mul_le_L (w := w0) b10, mul_le_L (w := w1) b9, mul_le_L (w := w2) b8, mul_le_L (w := w3) b7, mul_le_L (w := w4) b6, mul_le_L (w := w5) b5,
        mul_le_L (w := w6) b4, mul_le_L (w := w7) b3, mul_le_L (w := w8) b2, mul_le_L (w := w9) b1, mul_le_L (w := w10) b0]
    calc _ ≤ (11 + 1) / 2 ^ 51 * (2284 / 1000 * L) := mul_le_mul_of_nonneg_left s (by norm_num)
      _ ≤ 55 * vQ * L := by unfold vQ; nlinarith
  have e2 : |(w0 * x0 + (w1 * x1 + (w2 * x2 + (w3 * x3 + (w4 * x4 + (w5 * x5 + (w6 * x6 + (w7 * x7 + (w8 * x8 + (w9 * x9 + w10 * x10))))))))))
      - (1/1260 * x0 + -5/504 * x1 + 5/84 * x2 + -5/21 * x3 + 5/6 * x4 + -5/6 * x6 + 5/21 * x7 + -5/84 * x8 + 5/504 * x9 + -1/1260 * x10)| ≤ 3 * vQ * L := by
    have e : (w0 * x0 + (w1 * x1 + (w2 * x2 + (w3 * x3 + (w4 * x4 + (w5 * x5 + (w6 * x6 + (w7 * x7 + (w8 * x8 + (w9 * x9 + w10 * x10))))))))))
      - (1/1260 * x0 + -5/504 * x1 + 5/84 * x2 + -5/21 * x3 + 5/6 * x4 + -5/6 * x6 + 5/21 * x7 + -5/84 * x8 + 5/504 * x9 + -1/1260 * x10) =
      (w0 - 1/1260) * x0 + (w1 - -5/504) * x1 + (w2 - 5/84) * x2 + (w3 - -5/21) * x3 + (w4 - 5/6) * x4 + w5 * x5 + (w6 - -5/6) * x6 + (w7 - 5/21) * x7 +
      (w8 - -5/84) * x8 + (w9 - 5/504) * x9 + (w10 - -1/1260) * x10 := by ring
    rw [e]
    have := mul_le_mul_of_nonneg_right hwe L0
    have a10 := mul_le_L (w := w0 - 1/1260) b10
    have a9 := mul_le_L (w := w1 - -5/504) b9
    have a8 := mul_le_L (w := w2 - 5/84) b8
    have a7 := mul_le_L (w := w3 - -5/21) b7
    have a6 := mul_le_L (w := w4 - 5/6) b6
    have a5 := mul_le_L (w := w5) b5
    have a4 := mul_le_L (w := w6 - -5/6) b4
    have a3 := mul_le_L (w := w7 - 5/21) b3
    have a2 := mul_le_L (w := w8 - -5/84) b2
    have a1 := mul_le_L (w := w9 - 5/504) b1
    have a0 := mul_le_L (w := w10 - -1/1260) b0
    rw [abs_le] at *
    constructor <;> linarith
  have e3 : |1/1260 * x0 + -5/504 * x1 + 5/84 * x2 + -5/21 * x3 + 5/6 * x4 + -5/6 * x6 + 5/21 * x7 + -5/84 * x8 + 5/504 * x9 + -1/1260 * x10| ≤ 2284 / 1000 * L := by
    clear e1 e2 hd hwe hw hc hlen hL g
    rw [abs_le] at *
    constructor <;> linarith
  have e4 : |D - (1/1260 * x0 + -5/504 * x1 + 5/84 * x2 + -5/21 * x3 + 5/6 * x4 + -5/6 * x6 + 5/21 * x7 + -5/84 * x8 + 5/504 * x9 + -1/1260 * x10)| ≤ 58 * vQ * L := by
    have := (abs_sub_le D _ _).trans (add_le_add e1 e2)
    linarith
  refine ⟨?_, ?_, ?_⟩
  · exact_mod_cast (abs_le.1 e3).1
  · exact_mod_cast (abs_le.1 e3).2
  · exact_mod_cast e4

private theorem rad_radians (x : ℝ) : rad x = radians x := rfl

private theorem a_val : toDouble 6378137.0 = 6378137 := by decide +kernel

private theorem e2_iv (lm : NavLibm) (g : GoodSqr lm.sqr) :
    Iv (669 / 100000) (670 / 100000) (8 * vQ) wgsE2 (toDouble (1 - toDouble (lm.sqr (toDouble 6356752.3142451) / lm.sqr (toDouble 6378137.0)))) := by
  have va : Iv 6378137 6378137 0 ((6378137 : ℚ) : ℝ) (toDouble 6378137.0) := by
    rw [a_val]; exact iv_self _ le_rfl le_rfl
  have vb := iv_lit 6356752.3142451 (e := 1 / 2 ^ 31) (by decide +kernel)
  have va2 := (iv_sqr g va (h := 40680631600000) (e := 40680631600000 * vQ) (by decide +kernel)).range (l' := 40680631500000) (h' := 40680631600000)
    (by push_cast; norm_num) (by push_cast; norm_num)
  have vb2 := (iv_sqr g vb (h := 40408299990000) (e := 2 * 40408299990000 * vQ) (by decide +kernel)).range (l' := 40408299900000) (h' := 40408299990000)
    (by push_cast; norm_num) (by push_cast; norm_num)
  have vr := iv_div vb2 va2 (l := 99 / 100) (h := 995 / 1000) (e := 6 * vQ) (by decide +kernel)
  have ve := iv_sub (iv_self 1 (l := 1) (h := 1) le_rfl le_rfl) vr (l := 0) (h := 1 / 100) (e := 8 * vQ) (by decide +kernel)
  have e : wgsE2 = ((1 : ℚ) : ℝ) - ((6356752.3142451 : ℚ) : ℝ) ^ 2 / ((6378137 : ℚ) : ℝ) ^ 2 := by
    unfold wgsE2 wgsA wgsB; push_cast; norm_num
  rw [← e] at ve
  exact ve.range (by unfold wgsE2 wgsA wgsB; push_cast; norm_num) (by unfold wgsE2 wgsA wgsB; push_cast; norm_num)

private theorem e2term_iv {lm : NavLibm} {e2 : ℚ} (hsin : ∀ q : ℚ, |(q : ℝ)| ≤ 100000 → |(lm.sin q : ℝ) - Real.sin q| ≤ 1 / 2 ^ 51) (hq : GoodSqr lm.sqr)
    (hs : GoodSqrt lm.sqrt) (v : Iv (669 / 100000) (670 / 100000) (8 * vQ) wgsE2 e2) {l : ℚ} (hl : |l| ≤ 90) :
    Iv (9933 / 10000) 1 (13 * vQ) √(1 - wgsE2 * sin (rad l) ^ 2) (lm.sqrt (toDouble (1 - toDouble (e2 * lm.sqr (lm.sin (deg2radF l)))))) := by
  have vl := iv_self l (abs_le.1 hl).1 (abs_le.1 hl).2
  have v1 := iv_rad vl (h := 1576 / 1000) (e := 65 / 10 * vQ) (by decide +kernel)
  have v2 := iv_sin hsin v1 (e := 86 / 10 * vQ) (by decide +kernel)
  have v3 := iv_sqr hq v2 (h := 1) (e := 19 * vQ) (by decide +kernel)
  have v4 := iv_mul v v3 (l := 0) (h := 67 / 10000) (e := 9 * vQ) (by decide +kernel)
  have v5 := iv_sub (iv_self 1 (l := 1) (h := 1) le_rfl le_rfl) v4 (l := 9933 / 10000) (h := 1) (e := 11 * vQ) (by decide +kernel)
  have v6 := iv_sqrt hs v5 (e := 13 * vQ) (by decide +kernel)
  push_cast at v6
  exact v6

/-- Multiplication with the sampling frequency. -/
private theorem times_freq {l h e E : ℚ} {x : ℝ} {P : ℚ} (freq : ℚ) (v : Iv l h e x P) (c : e + vQ * (mag l h + e) ≤ E) :
    |(toDouble (P * freq) : ℝ) - freq * x| ≤ |(freq : ℝ)| * E := by
  have r := rnd_err (δ := 1 / 2 ^ 52) le_rfl (P * freq) ((freq : ℝ) * x) (e := |(freq : ℝ)| * e) (W := |(freq : ℝ)| * mag l h) (by
    have : ((P * freq : ℚ) : ℝ) - freq * x = freq * (P - x) := by push_cast; ring
    rw [this, abs_mul]
    exact mul_le_mul_of_nonneg_left v.2.2 (abs_nonneg _)) (by
    rw [abs_mul]
    exact mul_le_mul_of_nonneg_left v.abs (abs_nonneg _))
  have hc : ((e + vQ * (mag l h + e) : ℚ) : ℝ) ≤ E := by exact_mod_cast c
  unfold vQ at hc
  push_cast at hc
  have := mul_le_mul_of_nonneg_left hc (abs_nonneg (freq : ℝ))
  refine r.trans ?_
  linarith

private theorem north_iv {lm : NavLibm} {e2 c t : ℚ} {D φ : ℝ} (hc : ∀ q : ℚ, |(lm.cube q : ℝ) - (q : ℝ) ^ 3| ≤ |(q : ℝ)| ^ 3 / 2 ^ 52)
    (v : Iv (669 / 100000) (670 / 100000) (8 * vQ) wgsE2 e2) (vt : Iv (9933 / 10000) 1 (13 * vQ) √(1 - wgsE2 * sin φ ^ 2) t)
    (vc : Iv (-(2284 / 1000 * 90)) (2284 / 1000 * 90) (58 * vQ * 90) D c) (freq : ℚ) :
    |(toDouble (toDouble (toDouble (toDouble 6378137.0 * toDouble (1 - e2)) * toDouble (deg2radF c / lm.cube t)) * freq) : ℝ) - freq * (meridianRadius φ * rad D)|
      ≤ |(freq : ℝ)| / 10 ^ 6 := by
  have va : Iv 6378137 6378137 0 ((6378137 : ℚ) : ℝ) (toDouble 6378137.0) := by
    rw [a_val]; exact iv_self _ le_rfl le_rfl
  have v1 := iv_sub (iv_self 1 (l := 1) (h := 1) le_rfl le_rfl) v (l := 993 / 1000) (h := 994 / 1000) (e := 10 * vQ) (by decide +kernel)
  have v2 := iv_mul va v1 (l := 6333000) (h := 6340000) (e := 72000000 * vQ) (by decide +kernel)
  have v3 := (iv_cube hc vt (h := 1) (e := 41 * vQ) (by decide +kernel)).range (l' := 98 / 100) (h' := 1) (by
    have h := vt.1
    have := pow_le_pow_left₀ (by norm_num) h 3
    push_cast at this ⊢
    norm_num at this ⊢
    linarith) (by
    have h := vt.2.1
    push_cast at h ⊢
    exact pow_le_one₀ (Real.sqrt_nonneg _) h)
  have v4 := iv_rad vc (h := 36 / 10) (e := 108 * vQ) (by decide +kernel)
  have v5 := iv_div v4 v3 (l := -(368 / 100)) (h := 368 / 100) (e := 270 * vQ) (by decide +kernel)
  have v6 := iv_mul v2 v5 (l := -23400000) (h := 23400000) (e := 2100000000 * vQ) (by decide +kernel)
  have r := times_freq freq v6 (E := 1 / 10 ^ 6) (by decide +kernel)
  have e : ((6378137 : ℚ) : ℝ) * (((1 : ℚ) : ℝ) - wgsE2) * (radians D / √(1 - wgsE2 * sin φ ^ 2) ^ 3) = meridianRadius φ * rad D := by
    unfold meridianRadius
    rw [rad_radians]
    have : ((6378137 : ℚ) : ℝ) = wgsA := by unfold wgsA; push_cast; norm_num
    rw [this]
    push_cast
    ring
  rw [e] at r
  refine r.trans (le_of_eq ?_)
  push_cast
  ring

private theorem east_iv {lm : NavLibm} {c t l : ℚ} {D : ℝ} (hcos : ∀ q : ℚ, |(q : ℝ)| ≤ 100000 → |(lm.cos q : ℝ) - Real.cos q| ≤ 1 / 2 ^ 51) (hl : |l| ≤ 90)
    (vt : Iv (9933 / 10000) 1 (13 * vQ) √(1 - wgsE2 * sin (rad l) ^ 2) t)
    (vc : Iv (-(2284 / 1000 * 360)) (2284 / 1000 * 360) (58 * vQ * 360) D c) (freq : ℚ) :
    |(toDouble (toDouble (toDouble (toDouble 6378137.0 * deg2radF c) * toDouble (lm.cos (deg2radF l) / t)) * freq) : ℝ) - freq * (parallelRadius (rad l) * rad D)|
      ≤ 2 * |(freq : ℝ)| / 10 ^ 6 := by
  have va : Iv 6378137 6378137 0 ((6378137 : ℚ) : ℝ) (toDouble 6378137.0) := by
    rw [a_val]; exact iv_self _ le_rfl le_rfl
  have vl := iv_self l (abs_le.1 hl).1 (abs_le.1 hl).2
  have v1 := iv_rad vl (h := 1576 / 1000) (e := 65 / 10 * vQ) (by decide +kernel)
  have v2 := iv_cos hcos v1 (e := 86 / 10 * vQ) (by decide +kernel)
  have v3 := iv_div v2 vt (l := -(1007 / 1000)) (h := 1007 / 1000) (e := 24 * vQ) (by decide +kernel)
  have v4 := iv_rad vc (h := 144 / 10) (e := 425 * vQ) (by decide +kernel)
  have v5 := iv_mul va v4 (l := -92000000) (h := 92000000) (e := 2850000000 * vQ) (by decide +kernel)
  have v6 := iv_mul v5 v3 (l := -93000000) (h := 93000000) (e := 5500000000 * vQ) (by decide +kernel)
  have r := times_freq freq v6 (E := 2 / 10 ^ 6) (by decide +kernel)
  have e : ((6378137 : ℚ) : ℝ) * radians D * (cos (radians l) / √(1 - wgsE2 * sin (rad l) ^ 2)) = parallelRadius (rad l) * rad D := by
    unfold parallelRadius
    simp only [rad_radians]
    have : ((6378137 : ℚ) : ℝ) = wgsA := by unfold wgsA; push_cast; norm_num
    rw [this]
    ring
  rw [e] at r
  refine r.trans (le_of_eq ?_)
  push_cast
  ring

private theorem list_samples {α : Type} (l : List α) (d : α) : l = samples (fun i => l.getD i d) l.length := by
  apply List.ext_getElem
  · simp [samples]
  · intro i h1 h2
    simp [samples, h1]

private theorem forall₂_samples {α β : Type} {R : α → β → Prop} (f : ℕ → α) (g : ℕ → β) (n : ℕ) (h : ∀ i < n, R (f i) (g i)) :
    List.Forall₂ R (samples f n) (samples g n) := by
  unfold samples
  rw [List.forall₂_map_left_iff, List.forall₂_map_right_iff, List.forall₂_same]
  intro i hi
  exact h i (List.mem_range.1 hi)

/-- Closed form of the model in double precision. -/
private theorem latlonF_closed (lm : NavLibm) (f g : ℕ → ℚ) (n : ℕ) (hn : 10 < n) (freq : ℚ) :
    ∃ e2 : ℚ, e2 = toDouble (1 - toDouble (lm.sqr (toDouble 6356752.3142451) / lm.sqr (toDouble 6378137.0))) ∧
    latlonToENF lm (samples g n) (samples f n) freq = .ok
      (samples (fun i => if i < 5 ∨ n ≤ i + 5 then none
        else some (toDouble (toDouble (toDouble (toDouble 6378137.0 * toDouble (1 - e2)) * toDouble (deg2radF (convAtF lm (samples f n) tay10F (i + 5)) /
          lm.cube (lm.sqrt (toDouble (1 - toDouble (e2 * lm.sqr (lm.sin (deg2radF (f i))))))))) * freq))) n,
       samples (fun i => if i < 5 ∨ n ≤ i + 5 then none
        else some (toDouble (toDouble (toDouble (toDouble 6378137.0 * deg2radF (convAtF lm (samples g n) tay10F (i + 5))) *
          toDouble (lm.cos (deg2radF (f i)) / lm.sqrt (toDouble (1 - toDouble (e2 * lm.sqr (lm.sin (deg2radF (f i)))))))) * freq))) n) := by
  refine ⟨_, rfl, ?_⟩
  have hl : ∀ h : ℕ → ℚ, (samples h n).length = n := by intro h; simp [samples]
  unfold latlonToENF
  simp only [hl, ne_eq, not_true_eq_false, if_false, gt_iff_lt, hn, Except.ok.injEq, Prod.mk.injEq]
  have ht : (tay10F.length - 1) / 2 = 5 := rfl
  constructor
  · apply List.ext_getElem
    · simp [maskEdgesF, convolveSameF, samples]
    · intro i h1 h2
      simp only [maskEdgesF, convolveSameF, ht, samples, List.getElem_map, List.getElem_zipIdx, List.getElem_zipWith,
        List.getElem_range, List.length_zipWith, List.length_map, List.length_range, min_self, zero_add]
  · apply List.ext_getElem
    · simp [maskEdgesF, convolveSameF, samples]
    · intro i h1 h2
      simp only [maskEdgesF, convolveSameF, ht, samples, List.getElem_map, List.getElem_zipIdx, List.getElem_zipWith,
        List.getElem_range, List.length_zipWith, List.length_map, List.length_range, min_self, zero_add]

/-! ### C160 -/

/-- The functions of a library are good. -/
abbrev GoodNav (lm : NavLibm) : Prop := GoodNavLib lm.sin lm.cos lm.sqrt lm.sqr lm.cube lm.arctan2 lm.dot

/-- C160: for positions in degrees the velocities computed in double precision are missing at the same samples as the exact ones, and are elsewhere within one
(north) and two (east) micrometres per second times the sampling frequency of them. -/
theorem C160_velocities (lm : NavLibm) (g : GoodNav lm) (lon lat : List ℚ) (freq : ℚ) (hl : lon.length = lat.length) (hn : 10 < lon.length)
    (hlat : ∀ x ∈ lat, |x| ≤ 90) (hlon : ∀ x ∈ lon, |x| ≤ 360) :
    ∃ vn ve vn' ve', latlonToEN (lon.map fun q : ℚ => (q : ℝ)) (lat.map fun q : ℚ => (q : ℝ)) freq = .ok (vn, ve) ∧ latlonToENF lm lon lat freq = .ok (vn', ve') ∧
      List.Forall₂ (SampleWithin (|(freq : ℝ)| / 10 ^ 6)) vn' vn ∧ List.Forall₂ (SampleWithin (2 * |(freq : ℝ)| / 10 ^ 6)) ve' ve := by
  have key : ∀ (f h : ℕ → ℚ) (n : ℕ), 10 < n → (∀ k < n, |f k| ≤ 90) → (∀ k < n, |h k| ≤ 360) →
      ∃ vn ve vn' ve', latlonToEN (samples (fun i => (h i : ℝ)) n) (samples (fun i => (f i : ℝ)) n) freq = .ok (vn, ve) ∧
        latlonToENF lm (samples h n) (samples f n) freq = .ok (vn', ve') ∧
        List.Forall₂ (SampleWithin (|(freq : ℝ)| / 10 ^ 6)) vn' vn ∧ List.Forall₂ (SampleWithin (2 * |(freq : ℝ)| / 10 ^ 6)) ve' ve := by
    intro f h n hn b1 b2
    obtain ⟨e2, he, hF⟩ := latlonF_closed lm f h n hn freq
    have v := e2_iv lm g.sqr
    rw [← he] at v
    refine ⟨_, _, _, _, latlon_closed _ _ n hn freq, hF, forall₂_samples _ _ n ?_, forall₂_samples _ _ n ?_⟩
    · intro i hi
      by_cases hc : i < 5 ∨ n ≤ i + 5
      · simp only [if_pos hc, SampleWithin]
      · simp only [if_neg hc, SampleWithin]
        exact north_iv g.cube v (e2term_iv g.sin g.sqr g.sqrt v (b1 i hi)) (conv_iv lm g.dot f n i (by omega) (by omega) 90 b1) freq
    · intro i hi
      by_cases hc : i < 5 ∨ n ≤ i + 5
      · simp only [if_pos hc, SampleWithin]
      · simp only [if_neg hc, SampleWithin]
        exact east_iv g.cos (b1 i hi) (e2term_iv g.sin g.sqr g.sqrt v (b1 i hi)) (conv_iv lm g.dot h n i (by omega) (by omega) 360 b2) freq
  have k := key (fun i => lat.getD i 0) (fun i => lon.getD i 0) lat.length (by omega) (by
    intro k hk
    rw [List.getD_eq_getElem _ _ hk]
    exact hlat _ (List.getElem_mem hk)) (by
    intro k hk
    rw [List.getD_eq_getElem _ _ (by omega)]
    exact hlon _ (List.getElem_mem _))
  have c : ∀ l : List ℚ, samples (fun i => ((l.getD i 0 : ℚ) : ℝ)) l.length = l.map fun q : ℚ => (q : ℝ) := by
    intro l
    conv_rhs => rw [list_samples l 0]
    simp [samples]
  have e1 := list_samples lat 0
  have e2 := list_samples lon 0
  have c1 := c lat
  have c2 := c lon
  rw [hl] at e2 c2
  rwa [c1, c2, ← e1, ← e2] at k

/-- C160: a call in double precision fails exactly when the exact one does, with the same error. -/
theorem C160_same_errors (lm : NavLibm) (lon lat : List ℚ) (freq : ℚ) (e : PyErr) :
    latlonToENF lm lon lat freq = .error e ↔ latlonToEN (lon.map fun q : ℚ => (q : ℝ)) (lat.map fun q : ℚ => (q : ℝ)) freq = .error e := by
  unfold latlonToENF latlonToEN
  simp only [List.length_map]
  split
  · simp
  · split
    · simp
    · simp

/-- C160: the course is right to a fifth of a million-millionth of a degree, and the speed to six units of its last place. -/
theorem C160_course (lm : NavLibm) (g : GoodNav lm) (ve vn : ℚ) :
    |((enVelToCourseHeadingF lm ve vn).1 : ℝ) - (enVelToCourseHeading ve vn).1| ≤ 2 / 10 ^ 13 ∧
      |((enVelToCourseHeadingF lm ve vn).2 : ℝ) - (enVelToCourseHeading ve vn).2| ≤ 6 / 2 ^ 52 * (enVelToCourseHeading ve vn).2 := by
  unfold enVelToCourseHeadingF enVelToCourseHeading
  simp only
  constructor
  · have h := g.arctan2 ve vn
    have ha := Complex.abs_arg_le_pi ⟨(vn : ℝ), (ve : ℝ)⟩
    have h1 := Real.pi_gt_d6
    have h2 := Real.pi_lt_d6
    unfold arctan2
    generalize Complex.arg ⟨(vn : ℝ), (ve : ℝ)⟩ = t at *
    generalize lm.arctan2 ve vn = q at *
    have n1 := near_toDouble ((near_self 180).div near_pi)
    have n2 := near_toDouble ((near_self q).mul n1)
    have e := n2.err (by positivity) (by norm_num)
    have k : (0 : ℝ) < 180 / π ∧ 180 / π ≤ 58 := ⟨by positivity, by rw [div_le_iff₀ (by linarith)]; linarith⟩
    have hq : |(q : ℝ)| ≤ π + 1 / 2 ^ 51 := by
      have : (q : ℝ) = t + (q - t) := by ring
      rw [this]
      exact (abs_add_le _ _).trans (add_le_add ha h)
    have e3 : |(rad2degF q : ℝ) - rad2deg q| ≤ 304 / 100 * (1 / 2 ^ 52) * 181 := by
      unfold rad2degF rad2deg
      have c : (((180 : ℚ)) : ℝ) / π = 180 / π := by norm_num
      rw [c] at e
      refine e.trans ?_
      have : |(q : ℝ) * (180 / π)| ≤ 181 := by
        rw [abs_mul, abs_of_pos k.1]
        calc _ ≤ (π + 1 / 2 ^ 51) * (180 / π) := mul_le_mul_of_nonneg_right hq k.1.le
          _ = 180 + 1 / 2 ^ 51 * (180 / π) := by field_simp
          _ ≤ 181 := by nlinarith [k.2]
      exact (mul_le_mul_of_nonneg_left this (by positivity)).trans (by norm_num)
    have e4 : |rad2deg q - rad2deg t| ≤ 58 * (1 / 2 ^ 51) := by
      unfold rad2deg
      rw [← sub_mul, abs_mul, abs_of_pos k.1, mul_comm]
      exact mul_le_mul k.2 h (abs_nonneg _) (by norm_num)
    have := (abs_sub_le _ _ _).trans (add_le_add e3 e4)
    exact this.trans (by norm_num)
  · have s1 := g.sqr ve
    have s2 := g.sqr vn
    by_cases hz : ve = 0 ∧ vn = 0
    · obtain ⟨rfl, rfl⟩ := hz
      have z : lm.sqr 0 = 0 := by
        have := abs_nonpos_iff.1 (s1.trans (by simp))
        have : (lm.sqr 0 : ℝ) = 0 := by simpa using this
        exact_mod_cast this
      have t0 : toDouble 0 = 0 := by decide +kernel
      have := g.sqrt 0 le_rfl
      rw [z, add_zero, t0]
      simpa using this
    · have hp : 0 < (ve : ℝ) ^ 2 + (vn : ℝ) ^ 2 := by
        rcases not_and_or.1 hz with h | h
        · have : (ve : ℝ) ≠ 0 := by exact_mod_cast h
          positivity
        · have : (vn : ℝ) ≠ 0 := by exact_mod_cast h
          positivity
      have n1 := near_of_rel (u := lm.sqr ve + lm.sqr vn) (x := (ve : ℝ) ^ 2 + (vn : ℝ) ^ 2) (d := 1 / 2 ^ 52) hp.ne' (by norm_num) (by
        rw [abs_of_pos hp]
        have : ((lm.sqr ve + lm.sqr vn : ℚ) : ℝ) - ((ve : ℝ) ^ 2 + (vn : ℝ) ^ 2) = (lm.sqr ve - (ve : ℝ) ^ 2) + (lm.sqr vn - (vn : ℝ) ^ 2) := by push_cast; ring
        rw [this]
        refine (abs_add_le _ _).trans ((add_le_add s1 s2).trans (le_of_eq ?_))
        ring)
      have n2 := near_sqrt g.sqrt (near_toDouble n1) hp (by positivity)
      have e := n2.err (by positivity) (by norm_num)
      rw [abs_of_nonneg (Real.sqrt_nonneg _)] at e
      refine e.trans (mul_le_mul_of_nonneg_right (by norm_num) (Real.sqrt_nonneg _))

/-- C160: for headings between -360 and 360 degrees the rotated components are right to a hundred-million-millionth of the size of the accelerations. -/
theorem C160_rotation (lm : NavLibm) (g : GoodNav lm) (heading accE accN : ℚ) (hh : |heading| ≤ 360) :
    |((rotateENtoCLF lm heading accE accN).1 : ℝ) - (rotateENtoCL heading accE accN).1| ≤ (|(accE : ℝ)| + |(accN : ℝ)|) / 10 ^ 14 ∧
      |((rotateENtoCLF lm heading accE accN).2 : ℝ) - (rotateENtoCL heading accE accN).2| ≤ (|(accE : ℝ)| + |(accN : ℝ)|) / 10 ^ 14 := by
  have vh := iv_self heading (abs_le.1 hh).1 (abs_le.1 hh).2
  have v1 := iv_rad vh (h := 63 / 10) (e := 26 * vQ) (by decide +kernel)
  have vc := iv_cos g.cos v1 (e := 28 * vQ) (by decide +kernel)
  have vs := iv_sin g.sin v1 (e := 28 * vQ) (by decide +kernel)
  unfold rotateENtoCLF rotateENtoCL
  simp only
  rw [show deg2rad (heading : ℝ) = radians heading from rfl]
  generalize cos (radians (heading : ℝ)) = c at *
  generalize sin (radians (heading : ℝ)) = s at *
  generalize lm.cos (deg2radF heading) = c' at *
  generalize lm.sin (deg2radF heading) = s' at *
  have t : ∀ {x : ℝ} {P : ℚ} (a : ℚ), Iv (-1) 1 (28 * vQ) x P → |(toDouble (a * P) : ℝ) - a * x| ≤ |(a : ℝ)| * (30 / 2 ^ 52) ∧ |(a : ℝ) * x| ≤ |(a : ℝ)| := by
    intro x P a v
    have := times_freq a v (E := 30 * vQ) (by decide +kernel)
    rw [mul_comm P a] at this
    refine ⟨this.trans (le_of_eq (by unfold vQ; push_cast; ring)), ?_⟩
    rw [abs_mul]
    refine mul_le_of_le_one_right (abs_nonneg _) (v.abs.trans ?_)
    exact_mod_cast (by decide +kernel : mag (-1) 1 ≤ 1)
  have A := abs_nonneg (accE : ℝ)
  have B := abs_nonneg (accN : ℝ)
  obtain ⟨p1, q1⟩ := t accE vc
  obtain ⟨p2, q2⟩ := t accN vs
  obtain ⟨p3, q3⟩ := t accE vs
  obtain ⟨p4, q4⟩ := t accN vc
  constructor
  · refine (rnd_err (δ := 1 / 2 ^ 52) le_rfl _ _ (e := (|(accE : ℝ)| + |(accN : ℝ)|) * (30 / 2 ^ 52)) (W := |(accE : ℝ)| + |(accN : ℝ)|) ?_ ?_).trans ?_
    · push_cast
      rw [abs_le] at *
      constructor <;> linarith
    · exact (abs_sub _ _).trans (add_le_add q1 q2)
    · nlinarith
  · refine (rnd_err (δ := 1 / 2 ^ 52) le_rfl _ _ (e := (|(accE : ℝ)| + |(accN : ℝ)|) * (30 / 2 ^ 52)) (W := |(accE : ℝ)| + |(accN : ℝ)|) ?_ ?_).trans ?_
    · push_cast
      rw [abs_le] at *
      constructor <;> linarith
    · exact (abs_add_le _ _).trans (add_le_add q3 q4)
    · nlinarith

/-! ### Non-vacuity -/

/-- Rounding the products and adding them one after the other, rounding each time, is good enough. -/
theorem goodDot_sequential : GoodDot fun a b => fsum (List.zipWith (fun x y => toDouble (x * y)) a b) := by
  intro a b hl hn
  obtain ⟨s, t, -, h2, h3, h4⟩ := foldl_factor toDouble_rounds (List.zipWith (fun x y => toDouble (x * y)) a b) 0
  have hzl : (List.zipWith (fun x y => toDouble (x * y)) a b).length = a.length := by simp [hl]
  rw [hzl] at h2 h3
  have hn' : (a.length : ℝ) ≤ 100 := by exact_mod_cast hn
  obtain ⟨d, hd⟩ : ∃ d : ℝ, d = (a.length : ℝ) * (1 / 2 ^ 52) := ⟨_, rfl⟩
  have hE : Real.exp (1 / 2 ^ 52 + d) - 1 ≤ ((a.length : ℝ) + 1) / 2 ^ 51 := by
    have h0 : 0 ≤ (a.length : ℝ) := Nat.cast_nonneg _
    refine (exp_small (by rw [hd]; positivity) (by rw [hd]; nlinarith)).trans ?_
    rw [hd]
    nlinarith
  have key : |(fsum (List.zipWith (fun x y => toDouble (x * y)) a b) : ℝ) - (List.zipWith (fun x y : ℚ => (x : ℝ) * y) a b).sum| ≤
      (Real.exp (1 / 2 ^ 52 + d) - 1) * (List.zipWith (fun x y : ℚ => |(x : ℝ) * y|) a b).sum := by
    unfold fsum
    rw [h4, Rat.cast_zero, zero_mul, zero_add]
    rw [← hd] at h3
    clear h4 hE hd hzl hn hn'
    induction a generalizing b t with
    | nil => simp
    | cons x a ih =>
      cases b with
      | nil => simp at hl
      | cons y b =>
        cases t with
        | nil => simp at h2
        | cons p t =>
          have ih' := ih b (by simpa using hl) t (by simpa using h2) (fun x hx => h3 x (by simp [hx]))
          simp only [List.zipWith_cons_cons, List.sum_cons]
          obtain ⟨q, hq, e⟩ := near_toDouble ((near_self x).mul (near_self y))
          rw [zero_add, zero_add] at hq
          have hone := (hq.mul (h3 p (by simp))).abs_sub_one
          rw [e]
          have hterm : |(x : ℝ) * y * q * p - x * y| ≤ (Real.exp (1 / 2 ^ 52 + d) - 1) * |(x : ℝ) * y| := by
            have e2 : (x : ℝ) * y * q * p - x * y = x * y * (q * p - 1) := by ring
            rw [e2, abs_mul, mul_comm]
            exact mul_le_mul_of_nonneg_right hone (abs_nonneg _)
          rw [mul_add]
          refine le_trans ?_ (add_le_add hterm ih')
          refine le_trans (le_of_eq ?_) (abs_add_le _ _)
          congr 1
          ring
  have c1 : (((List.zipWith (· * ·) a b).sum : ℚ) : ℝ) = (List.zipWith (fun x y : ℚ => (x : ℝ) * y) a b).sum := by
    rw [Rat.cast_list_sum, List.map_zipWith]
    simp
  have c2 : (((List.zipWith (fun x y => |x * y|) a b).sum : ℚ) : ℝ) = (List.zipWith (fun x y : ℚ => |(x : ℝ) * y|) a b).sum := by
    rw [Rat.cast_list_sum, List.map_zipWith]
    simp
  have nn : 0 ≤ (List.zipWith (fun x y : ℚ => |(x : ℝ) * y|) a b).sum := by
    apply List.sum_nonneg
    intro z hz
    rw [List.zipWith_eq_zipWith_take_min] at hz
    obtain ⟨i, hi, rfl⟩ := List.mem_iff_getElem.1 hz
    simp only [List.getElem_zipWith]
    positivity
  have fin := key.trans (mul_le_mul_of_nonneg_right hE nn)
  rw [← c1, ← c2] at fin
  beta_reduce
  clear c1 c2 nn key
  generalize (List.zipWith (fun x y => |x * y|) a b).sum = S at *
  generalize (List.zipWith (· * ·) a b).sum = T at *
  rw [← Rat.cast_le (K := ℝ)]
  push_cast
  exact fin

/-- The hypotheses on the library can be met, with inner products computed from left to right. -/
theorem goodNav_exists : ∃ lm : NavLibm, GoodNav lm := by
  have key : ∀ x : ℝ, ∃ r : ℚ, |(r : ℝ) - x| ≤ 1 / 2 ^ 51 := by
    intro x
    obtain ⟨r, h1, h2⟩ := exists_rat_btwn (show x < x + 1 / 2 ^ 51 by linarith [show (0 : ℝ) < 1 / 2 ^ 51 by positivity])
    exact ⟨r, by rw [abs_le]; constructor <;> linarith⟩
  have rel : ∀ x : ℝ, 0 ≤ x → ∃ r : ℚ, |(r : ℝ) - x| ≤ x / 2 ^ 52 := by
    intro x hx
    rcases hx.eq_or_lt with rfl | hx
    · exact ⟨0, by norm_num⟩
    · obtain ⟨r, h1, h2⟩ := exists_rat_btwn (show x < x + x / 2 ^ 52 by linarith [show (0 : ℝ) < x / 2 ^ 52 by positivity])
      exact ⟨r, by rw [abs_le]; constructor <;> linarith⟩
  choose sn hsn using fun q : ℚ => key (sin (q : ℝ))
  choose cs hcs using fun q : ℚ => key (cos (q : ℝ))
  choose at2 hat using fun y x : ℚ => key (Complex.arg ⟨x, y⟩)
  choose sq hsq using fun q : ℚ => rel (√(q : ℝ)) (sqrt_nonneg _)
  refine ⟨⟨sn, cs, sq, fun q => q ^ 2, fun q => q ^ 3, at2, _⟩, ⟨fun q _ => hsn q, fun q _ => hcs q, fun q _ => hsq q, fun q => ?_, fun q => ?_, hat, goodDot_sequential⟩⟩
  · push_cast
    rw [sub_self, abs_zero]
    positivity
  · push_cast
    rw [sub_self, abs_zero]
    positivity

/-- Eleven fixes going north-east from 45° N 170° W meet the hypotheses on the positions. -/
example : ((List.range 11).map fun i => (-170 + i / 10000 : ℚ)).length = ((List.range 11).map fun i => (45 + i / 10000 : ℚ)).length ∧
    10 < ((List.range 11).map fun i => (-170 + i / 10000 : ℚ)).length ∧ (∀ x ∈ (List.range 11).map fun i => (45 + i / 10000 : ℚ), |x| ≤ 90) ∧
    ∀ x ∈ (List.range 11).map fun i => (-170 + i / 10000 : ℚ), |x| ≤ 360 := by
  decide +kernel

end Shipgrav
