import Verif.Model.Parker1dFloat
import Verif.Spec.ParkerLibm
import Verif.Lemmas.Parker1d
import Verif.Lemmas.TiltFloat
import Verif.Lemmas.TiltCoeffs
import Verif.Lemmas.ThermalFloat

/-! Rounding errors of `grav1d_padded`. -/

namespace Shipgrav.Parker1
open Spec

theorem pairC_norm_le {p q : ℚ × ℚ} {d : ℝ} (hd : 0 ≤ d) (h1 : |(p.1 : ℝ) - q.1| ≤ d * |(q.1 : ℝ)|) (h2 : |(p.2 : ℝ) - q.2| ≤ d * |(q.2 : ℝ)|) :
    ‖pairC p - pairC q‖ ≤ d * ‖pairC q‖ := by
  rw [Complex.norm_eq_sqrt_sq_add_sq, Complex.norm_eq_sqrt_sq_add_sq, ← Real.sqrt_sq hd, ← Real.sqrt_mul (sq_nonneg d)]
  apply Real.sqrt_le_sqrt
  simp only [pairC, Complex.sub_re, Complex.sub_im]
  have a1 := pow_le_pow_left₀ (abs_nonneg _) h1 2
  have a2 := pow_le_pow_left₀ (abs_nonneg _) h2 2
  rw [mul_pow, sq_abs, sq_abs] at a1 a2
  linarith

theorem cmulF_round (z : ℚ × ℚ) (c : ℚ) : ‖pairC (cmulF z c) - pairC z * ((c : ℝ) : ℂ)‖ ≤ 1 / 2 ^ 52 * ‖pairC z * ((c : ℝ) : ℂ)‖ := by
  have e : pairC z * ((c : ℝ) : ℂ) = pairC (z.1 * c, z.2 * c) := by
    apply Complex.ext <;> simp [pairC]
  rw [e]
  exact pairC_norm_le (by positivity) (toDouble_err _) (toDouble_err _)

theorem caddF_round (z w : ℚ × ℚ) : ‖pairC (caddF z w) - (pairC z + pairC w)‖ ≤ 1 / 2 ^ 52 * ‖pairC z + pairC w‖ := by
  have e : pairC z + pairC w = pairC (z.1 + w.1, z.2 + w.2) := by
    apply Complex.ext <;> simp [pairC]
  rw [e]
  exact pairC_norm_le (by positivity) (toDouble_err _) (toDouble_err _)

theorem cmulF_err {z' : ℚ × ℚ} {c' : ℚ} {z : ℂ} {c α β B E : ℝ} (hα : 0 ≤ α) (hβ : 0 ≤ β) (hz : ‖pairC z' - z‖ ≤ α * B) (hB : ‖z‖ ≤ B)
    (hc : |(c' : ℝ) - c| ≤ β * E) (hE : |c| ≤ E) :
    ‖pairC (cmulF z' c') - z * (c : ℂ)‖ ≤ (α * (1 + β) + β + 1 / 2 ^ 52 * ((1 + α) * (1 + β))) * (B * E) := by
  have hB0 := (norm_nonneg _).trans hB
  have hE0 := (abs_nonneg _).trans hE
  have h1 : ‖pairC z'‖ ≤ (1 + α) * B := by
    have := norm_add_le (pairC z' - z) z
    rw [sub_add_cancel] at this
    linarith
  have h2 : |(c' : ℝ)| ≤ (1 + β) * E := by
    have := abs_add_le ((c' : ℝ) - c) c
    rw [sub_add_cancel] at this
    linarith
  have n1 : ‖pairC z' * ((c' : ℝ) : ℂ)‖ ≤ (1 + α) * B * ((1 + β) * E) := by
    rw [norm_mul, Complex.norm_real, Real.norm_eq_abs]
    exact mul_le_mul h1 h2 (abs_nonneg _) (by positivity)
  have h3 := cmulF_round z' c'
  have h4 : ‖pairC z' * ((c' : ℝ) : ℂ) - z * (c : ℂ)‖ ≤ α * B * ((1 + β) * E) + B * (β * E) := by
    have e : pairC z' * ((c' : ℝ) : ℂ) - z * (c : ℂ) = (pairC z' - z) * ((c' : ℝ) : ℂ) + z * (((c' : ℝ) - c : ℝ) : ℂ) := by push_cast; ring
    rw [e]
    refine (norm_add_le _ _).trans ?_
    rw [norm_mul, norm_mul, Complex.norm_real, Complex.norm_real, Real.norm_eq_abs, Real.norm_eq_abs]
    exact add_le_add (mul_le_mul hz h2 (abs_nonneg _) (by positivity)) (mul_le_mul hB hc (abs_nonneg _) hB0)
  have h5 := norm_add_le (pairC (cmulF z' c') - pairC z' * ((c' : ℝ) : ℂ)) (pairC z' * ((c' : ℝ) : ℂ) - z * (c : ℂ))
  rw [sub_add_sub_cancel] at h5
  have h6 : 1 / 2 ^ 52 * ‖pairC z' * ((c' : ℝ) : ℂ)‖ ≤ 1 / 2 ^ 52 * ((1 + α) * B * ((1 + β) * E)) := by gcongr
  linarith

theorem caddF_err {z' w' : ℚ × ℚ} {z w : ℂ} {α A B : ℝ} (hz : ‖pairC z' - z‖ ≤ α * A) (hA : ‖z‖ ≤ A)
    (hw : ‖pairC w' - w‖ ≤ α * B) (hB : ‖w‖ ≤ B) :
    ‖pairC (caddF z' w') - (z + w)‖ ≤ (α + 1 / 2 ^ 52 * (1 + α)) * (A + B) ∧ ‖z + w‖ ≤ A + B := by
  have h0 : ‖z + w‖ ≤ A + B := (norm_add_le _ _).trans (add_le_add hA hB)
  refine ⟨?_, h0⟩
  have e : pairC z' + pairC w' - (z + w) = (pairC z' - z) + (pairC w' - w) := by ring
  have h1 : ‖pairC z' + pairC w' - (z + w)‖ ≤ α * A + α * B := by
    rw [e]; exact (norm_add_le _ _).trans (add_le_add hz hw)
  have h2 : ‖pairC z' + pairC w'‖ ≤ (1 + α) * (A + B) := by
    have := norm_add_le (pairC z' + pairC w' - (z + w)) (z + w)
    rw [sub_add_cancel] at this
    linarith
  have h3 := caddF_round z' w'
  have h4 := norm_add_le (pairC (caddF z' w') - (pairC z' + pairC w')) (pairC z' + pairC w' - (z + w))
  rw [sub_add_sub_cancel] at h4
  have h6 : 1 / 2 ^ 52 * ‖pairC z' + pairC w'‖ ≤ 1 / 2 ^ 52 * ((1 + α) * (A + B)) := by gcongr
  linarith

theorem recip_err (ip : ℕ) : |((toDouble (1 / ip.factorial : ℚ) : ℚ) : ℝ) - 1 / ip.factorial| ≤ 1 / 2 ^ 52 * (1 / ip.factorial) := by
  have := toDouble_err (1 / ip.factorial : ℚ)
  push_cast at this ⊢
  rwa [abs_of_nonneg (show (0 : ℝ) ≤ 1 / ip.factorial by positivity)] at this

/-- One power. -/
theorem term_err {F' : ℚ × ℚ} {q : ℚ} {F : ℂ} {B E : ℝ} (ip : ℕ) (hF : ‖pairC F' - F‖ ≤ 1 / 2 ^ 44 * B) (hB : ‖F‖ ≤ B) {κ : ℝ}
    (hq : |(q : ℝ) - κ| ≤ 1 / 2 ^ 43 * E) (hE : |κ| ≤ E) :
    ‖pairC (cmulF (cmulF F' q) (toDouble (1 / ip.factorial))) - F * (κ : ℂ) * ((1 / ip.factorial : ℝ) : ℂ)‖ ≤ 1 / 2 ^ 41 * (B * E * (1 / ip.factorial)) ∧
      ‖F * (κ : ℂ) * ((1 / ip.factorial : ℝ) : ℂ)‖ ≤ B * E * (1 / ip.factorial) := by
  have hB0 := (norm_nonneg _).trans hB
  have hE0 := (abs_nonneg _).trans hE
  have h1 := cmulF_err (by positivity) (by positivity) hF hB hq hE
  have n1 : ‖F * (κ : ℂ)‖ ≤ B * E := by
    rw [norm_mul, Complex.norm_real, Real.norm_eq_abs]
    exact mul_le_mul hB hE (abs_nonneg _) hB0
  have h2 := cmulF_err (by positivity) (by positivity) h1 n1 (recip_err ip) (abs_of_nonneg (by positivity)).le
  constructor
  · refine h2.trans (mul_le_mul_of_nonneg_right (by norm_num) (by positivity))
  · rw [norm_mul, Complex.norm_real, Real.norm_eq_abs, abs_of_nonneg (by positivity)]
    exact mul_le_mul_of_nonneg_right n1 (by positivity)

/-- Five powers. -/
theorem sum5_err {f1 t2 t3 t4 t5 : ℚ × ℚ} {F1 T2 T3 T4 T5 : ℂ} {A1 A2 A3 A4 A5 : ℝ}
    (h1 : ‖pairC f1 - F1‖ ≤ 1 / 2 ^ 41 * A1 ∧ ‖F1‖ ≤ A1) (h2 : ‖pairC t2 - T2‖ ≤ 1 / 2 ^ 41 * A2 ∧ ‖T2‖ ≤ A2)
    (h3 : ‖pairC t3 - T3‖ ≤ 1 / 2 ^ 41 * A3 ∧ ‖T3‖ ≤ A3) (h4 : ‖pairC t4 - T4‖ ≤ 1 / 2 ^ 41 * A4 ∧ ‖T4‖ ≤ A4)
    (h5 : ‖pairC t5 - T5‖ ≤ 1 / 2 ^ 41 * A5 ∧ ‖T5‖ ≤ A5) :
    ‖pairC (caddF (caddF (caddF (caddF f1 t2) t3) t4) t5) - (F1 + T2 + T3 + T4 + T5)‖ ≤ 1 / 2 ^ 40 * (A1 + A2 + A3 + A4 + A5) ∧
      ‖F1 + T2 + T3 + T4 + T5‖ ≤ A1 + A2 + A3 + A4 + A5 := by
  have up : ∀ {a b : ℝ} {z' : ℚ × ℚ} {z : ℂ} {A : ℝ}, a ≤ b → (‖pairC z' - z‖ ≤ a * A ∧ ‖z‖ ≤ A) → ‖pairC z' - z‖ ≤ b * A ∧ ‖z‖ ≤ A := by
    intro a b z' z A hab h
    exact ⟨h.1.trans (mul_le_mul_of_nonneg_right hab ((norm_nonneg _).trans h.2)), h.2⟩
  have a2 := up (b := 1 / 2 ^ 41 + 1 / 2 ^ 51) (by norm_num) (caddF_err h1.1 h1.2 h2.1 h2.2)
  have h3' := up (b := 1 / 2 ^ 41 + 1 / 2 ^ 51) (by norm_num) h3
  have a3 := up (b := 1 / 2 ^ 41 + 2 / 2 ^ 51) (by norm_num) (caddF_err a2.1 a2.2 h3'.1 h3'.2)
  have h4' := up (b := 1 / 2 ^ 41 + 2 / 2 ^ 51) (by norm_num) h4
  have a4 := up (b := 1 / 2 ^ 41 + 3 / 2 ^ 51) (by norm_num) (caddF_err a3.1 a3.2 h4'.1 h4'.2)
  have h5' := up (b := 1 / 2 ^ 41 + 3 / 2 ^ 51) (by norm_num) h5
  exact up (by norm_num) (caddF_err a4.1 a4.2 h5'.1 h5'.2)

/-- The polynomial of the five powers. -/
noncomputable def poly5 (x : ℝ) : ℝ := 1 + x / 2 + x ^ 2 / 6 + x ^ 3 / 24 + x ^ 4 / 120

theorem poly5_exp {x : ℝ} (hx : 0 ≤ x) : poly5 x * Real.exp (-x) ≤ 1 ∧ x * (poly5 x * Real.exp (-x)) ≤ 1 := by
  have h := Real.sum_le_exp_of_nonneg hx 6
  simp only [Finset.sum_range_succ, Finset.sum_range_zero, Nat.factorial] at h
  norm_num at h
  have hp := Real.exp_pos x
  have n2 := pow_nonneg hx 2
  have n3 := pow_nonneg hx 3
  have n4 := pow_nonneg hx 4
  have n5 := pow_nonneg hx 5
  unfold poly5
  rw [Real.exp_neg]
  constructor
  · rw [← div_eq_mul_inv, div_le_one hp]
    linarith
  · rw [← mul_assoc, ← div_eq_mul_inv, div_le_one hp]
    nlinarith

theorem poly5_scale {x r : ℝ} (hx : 0 ≤ x) (hr : 1 ≤ r) : poly5 (r * x) ≤ r ^ 4 * poly5 x := by
  have r0 : 0 ≤ r := by linarith
  have e2 : r ^ 1 ≤ r ^ 4 := pow_le_pow_right₀ hr (by norm_num)
  have e3 : r ^ 2 ≤ r ^ 4 := pow_le_pow_right₀ hr (by norm_num)
  have e4 : r ^ 3 ≤ r ^ 4 := pow_le_pow_right₀ hr (by norm_num)
  have e1 : 1 ≤ r ^ 4 := one_le_pow₀ hr
  have a1 := mul_le_mul_of_nonneg_right e2 (show 0 ≤ x / 2 by positivity)
  have a2 := mul_le_mul_of_nonneg_right e3 (show 0 ≤ x ^ 2 / 6 by positivity)
  have a3 := mul_le_mul_of_nonneg_right e4 (show 0 ≤ x ^ 3 / 24 by positivity)
  unfold poly5
  nlinarith

theorem poly5_mono {x y : ℝ} (hx : 0 ≤ x) (h : x ≤ y) : poly5 x ≤ poly5 y := by
  unfold poly5
  gcongr

/-- Exponential of a slightly wrong argument. -/
theorem exp_err {ex : ℚ → ℚ} (he : ∀ q : ℚ, |(ex q : ℝ) - Real.exp q| ≤ Real.exp q / 2 ^ 51) {q : ℚ} {x w : ℝ} (hw : |(q : ℝ) + x| ≤ w) (hw1 : w ≤ 1) :
    |(ex q : ℝ) - Real.exp (-x)| ≤ (2 * w + 3 / 2 ^ 51) * Real.exp (-x) := by
  have h1 := Real.abs_exp_sub_one_le (x := q + x) (hw.trans hw1)
  have e : Real.exp q = Real.exp (-x) * Real.exp (q + x) := by rw [← Real.exp_add]; congr 1; ring
  have hp := Real.exp_pos (-x)
  have h2 : |Real.exp q - Real.exp (-x)| ≤ 2 * w * Real.exp (-x) := by
    rw [e, show Real.exp (-x) * Real.exp (q + x) - Real.exp (-x) = Real.exp (-x) * (Real.exp (q + x) - 1) by ring, abs_mul, abs_of_pos hp]
    nlinarith
  have h3 := he q
  have h4 : Real.exp q ≤ 3 * Real.exp (-x) := by
    have := (abs_le.1 h2).2
    nlinarith
  have h5 := abs_add_le ((ex q : ℝ) - Real.exp q) (Real.exp q - Real.exp (-x))
  rw [sub_add_sub_cancel] at h5
  have h6 : Real.exp q / 2 ^ 51 ≤ 3 * Real.exp (-x) / 2 ^ 51 := by gcongr
  linarith

/-- One bin before the inverse transform. -/
theorem bin_err {ex : ℚ → ℚ} (he : ∀ q : ℚ, |(ex q : ℝ) - Real.exp q| ≤ Real.exp q / 2 ^ 51) {S' : ℚ × ℚ} {g' q : ℚ} {S : ℂ} {g N H κ D r ν : ℝ}
    (hN : 0 ≤ N) (hH : 0 ≤ H) (hκ : 0 ≤ κ) (hD : 0 ≤ D) (hr : 1 ≤ r) (hHD : H ≤ r * D) (hν : 0 ≤ ν)
    (hS : ‖pairC S' - S‖ ≤ 1 / 2 ^ 40 * (N * H * poly5 (κ * H))) (hSB : ‖S‖ ≤ N * H * poly5 (κ * H))
    (hg : |(g' : ℝ) - g| ≤ 1 / 2 ^ 48 * |g|) (hq : |(q : ℝ) + D * κ| ≤ ν * (D * κ)) (h1 : ν * (D * κ) ≤ 1) :
    ‖pairC (cmulF (cmulF S' g') (ex q)) - S * (g : ℂ) * ((Real.exp (-D * κ) : ℝ) : ℂ)‖ ≤ N * H * |g| * r ^ 4 * (1 / 2 ^ 37 + 2 * ν) ∧
      ‖S * (g : ℂ) * ((Real.exp (-D * κ) : ℝ) : ℂ)‖ ≤ N * H * |g| * r ^ 4 := by
  have hx : 0 ≤ D * κ := mul_nonneg hD hκ
  have hP : poly5 (κ * H) ≤ r ^ 4 * poly5 (D * κ) :=
    (poly5_mono (by positivity) (by nlinarith : κ * H ≤ r * (D * κ))).trans (poly5_scale hx hr)
  have hp := Real.exp_pos (-(D * κ))
  obtain ⟨p1, p2⟩ := poly5_exp hx
  have hE := exp_err he (x := D * κ) hq h1
  rw [neg_mul]
  have a1 := cmulF_err (by positivity) (by positivity) hS hSB hg le_rfl
  have n1 : ‖S * (g : ℂ)‖ ≤ N * H * poly5 (κ * H) * |g| := by
    rw [norm_mul, Complex.norm_real, Real.norm_eq_abs]
    exact mul_le_mul_of_nonneg_right hSB (abs_nonneg _)
  have hB : 0 ≤ N * H * poly5 (κ * H) * |g| := (norm_nonneg _).trans n1
  have a2 : ‖pairC (cmulF S' g') - S * (g : ℂ)‖ ≤ 1 / 2 ^ 39 * (N * H * poly5 (κ * H) * |g|) :=
    a1.trans (mul_le_mul_of_nonneg_right (by norm_num) hB)
  have a3 := cmulF_err (by positivity) (by positivity) a2 n1 hE (abs_of_pos hp).le
  have c1 : N * H * poly5 (κ * H) * |g| * Real.exp (-(D * κ)) ≤ N * H * |g| * r ^ 4 := by
    calc N * H * poly5 (κ * H) * |g| * Real.exp (-(D * κ)) ≤ N * H * (r ^ 4 * poly5 (D * κ)) * |g| * Real.exp (-(D * κ)) := by gcongr
      _ = N * H * |g| * r ^ 4 * (poly5 (D * κ) * Real.exp (-(D * κ))) := by ring
      _ ≤ N * H * |g| * r ^ 4 * 1 := by gcongr
      _ = _ := by ring
  have c2 : ν * (D * κ) * (N * H * poly5 (κ * H) * |g| * Real.exp (-(D * κ))) ≤ ν * (N * H * |g| * r ^ 4) := by
    calc ν * (D * κ) * (N * H * poly5 (κ * H) * |g| * Real.exp (-(D * κ))) ≤
        ν * (D * κ) * (N * H * (r ^ 4 * poly5 (D * κ)) * |g| * Real.exp (-(D * κ))) := by gcongr
      _ = ν * (N * H * |g| * r ^ 4) * (D * κ * (poly5 (D * κ) * Real.exp (-(D * κ)))) := by ring
      _ ≤ ν * (N * H * |g| * r ^ 4) * 1 := by gcongr
      _ = _ := by ring
  constructor
  · refine a3.trans ?_
    have hQ : 0 ≤ N * H * poly5 (κ * H) * |g| * Real.exp (-(D * κ)) := by positivity
    have hy : 0 ≤ ν * (D * κ) := by positivity
    generalize N * H * poly5 (κ * H) * |g| * Real.exp (-(D * κ)) = Q at c1 c2 hQ ⊢
    generalize ν * (D * κ) = y at h1 c2 hy ⊢
    have hk : 1 / 2 ^ 39 * (1 + (2 * y + 3 / 2 ^ 51)) + (2 * y + 3 / 2 ^ 51) + 1 / 2 ^ 52 * ((1 + 1 / 2 ^ 39) * (1 + (2 * y + 3 / 2 ^ 51))) ≤ 1 / 2 ^ 37 + 2 * y := by
      nlinarith
    refine (mul_le_mul_of_nonneg_right hk hQ).trans ?_
    nlinarith
  · rw [norm_mul, Complex.norm_real, Real.norm_eq_abs, abs_of_pos hp]
    exact (mul_le_mul_of_nonneg_right n1 hp.le).trans c1

theorem list_samples {α : Type} (d : α) (l : List α) : l = samples (fun i => l.getD i d) l.length := by
  apply List.ext_getElem?
  intro i
  simp only [samples, List.getElem?_map]
  by_cases hi : i < l.length
  · rw [List.getElem?_range hi, List.getElem?_eq_getElem hi]
    simp [List.getD_eq_getElem?_getD, List.getElem?_eq_getElem hi]
  · rw [List.getElem?_eq_none (by omega), List.getElem?_eq_none (by simp; omega)]
    rfl

theorem getD_samples {α : Type} (f : ℕ → α) (n k : ℕ) (d : α) (hk : k < n) : (samples f n).getD k d = f k := by
  unfold samples
  rw [List.getD_eq_getElem?_getD, List.getElem?_map, List.getElem?_range hk]; rfl

theorem near_rel0 {u : ℚ} {x d : ℝ} (hd0 : 0 ≤ d) (hd : d ≤ 1 / 2) (h : |(u : ℝ) - x| ≤ d * |x|) : Near (2 * d) u x := by
  by_cases hx : x = 0
  · subst hx
    rw [abs_zero, mul_zero, sub_zero] at h
    refine ⟨1, within_zero.mono (by positivity), ?_⟩
    rw [abs_nonpos_iff.1 h, zero_mul]
  · exact near_of_rel hx hd h

theorem near_trans {c d : ℝ} {u v : ℚ} {y : ℝ} (h : Near c u (v : ℝ)) (h' : Near d v y) : Near (d + c) u y := by
  obtain ⟨t, ht, e⟩ := h
  obtain ⟨s, hs, e'⟩ := h'
  exact ⟨s * t, hs.mul ht, by rw [e, e']; ring⟩

theorem near_powr {c : ℝ} {u : ℚ} {x : ℝ} (h : Near c u x) (j : ℕ) : Near (j * c) (u ^ j) (x ^ j) := by
  induction j with
  | zero => exact ⟨1, by simpa using within_zero, by simp⟩
  | succ j ih =>
    have := ih.mul h
    rw [pow_succ, pow_succ]
    convert this using 1
    push_cast; ring

/-- A power computed by the library. -/
theorem near_pow {pw : ℚ → ℕ → ℚ} (hp : ∀ (q : ℚ) (j : ℕ), 1 ≤ j → j ≤ 5 → |(pw q j : ℝ) - (q : ℝ) ^ j| ≤ |(q : ℝ)| ^ j / 2 ^ 51) {c : ℝ} {u : ℚ} {x : ℝ}
    (h : Near c u x) (j : ℕ) (h1 : 1 ≤ j) (h5 : j ≤ 5) : Near (j * c + 2 * (1 / 2 ^ 51)) (pw u j) (x ^ j) := by
  refine near_trans (near_rel0 (by positivity) (by norm_num) ?_) (near_powr h j)
  have := hp u j h1 h5
  push_cast
  rw [abs_pow]
  linarith

/-- The wavenumbers in double precision, by the index. -/
theorem wavenumbersF_eq (lm : ParkerLibm) (N : ℕ) (dx : ℚ) :
    wavenumbers1dF lm N dx = samples (fun k => lm.sqrt (toDouble (toDouble ((usedCycles N k : ℚ) * usedCycles N k) *
      lm.pow (toDouble (toDouble (2 * piF) / toDouble (N * dx))) 2))) N := by
  unfold wavenumbers1dF samples
  simp only
  apply List.ext_getElem?
  intro i
  simp only [List.getElem?_map]
  by_cases hi : i < N
  · rw [List.getElem?_take_of_lt hi, List.getElem?_map, mirror_get N i hi, List.getElem?_range hi]
    simp only [Option.map_some, Option.some.injEq]
    push_cast
    rw [add_sub_cancel_right]
  · rw [List.getElem?_eq_none (by simp; omega), List.getElem?_eq_none (by simp; omega)]
    simp

theorem wave_near (lm : ParkerLibm) (hs : GoodSqrt lm.sqrt)
    (hp : ∀ (q : ℚ) (j : ℕ), 1 ≤ j → j ≤ 5 → |(lm.pow q j : ℝ) - (q : ℝ) ^ j| ≤ |(q : ℝ)| ^ j / 2 ^ 51) (N k : ℕ) {dx' : ℚ} {dx : ℝ}
    (h : Near (2 * (1 / 2 ^ 52)) dx' dx) :
    Near (20 * (1 / 2 ^ 52)) (lm.sqrt (toDouble (toDouble ((usedCycles N k : ℚ) * usedCycles N k) *
      lm.pow (toDouble (toDouble (2 * piF) / toDouble (N * dx'))) 2))) (|2 * Real.pi / (N * dx)| * usedCycles N k) := by
  have h1 : Near (2 * (1 / 2 ^ 52)) (toDouble (2 * piF)) (2 * Real.pi) := by
    have := near_toDouble ((near_self 2).mul near_pi)
    push_cast at this
    exact this.mono (by norm_num)
  have h2 : Near (3 * (1 / 2 ^ 52)) (toDouble (N * dx')) (N * dx) := by
    have := near_toDouble ((near_self (N : ℚ)).mul h)
    push_cast at this
    exact this.mono (by norm_num)
  have h3 := near_toDouble (h1.div h2)
  have h4 := near_pow hp h3 2 (by norm_num) (by norm_num)
  have h5 := near_toDouble (near_self ((usedCycles N k : ℚ) * usedCycles N k))
  have h6 := near_toDouble (h5.mul h4)
  have h7 := (near_sqrt0 hs h6 (by push_cast; positivity) (by norm_num)).2
  have e : √((((usedCycles N k : ℚ) * usedCycles N k : ℚ) : ℝ) * (2 * Real.pi / (N * dx)) ^ 2) = |2 * Real.pi / (N * dx)| * usedCycles N k := by
    push_cast
    rw [show (usedCycles N k : ℝ) * usedCycles N k * (2 * Real.pi / (N * dx)) ^ 2 = (2 * Real.pi / (N * dx) * usedCycles N k) ^ 2 by ring,
      Real.sqrt_sq_eq_abs, abs_mul, Nat.abs_cast]
  rw [e] at h7
  exact h7.mono (by norm_num)

theorem usedCycles_le (N k : ℕ) (hk : k < N) : usedCycles N k ≤ N := by
  unfold usedCycles
  split <;> omega

/-- The depth below the level of observation, and the exponent. -/
theorem expo_err {sum' : ℚ} {n : ℕ} {zlev k' : ℚ} {μ H D r κ : ℝ} (hn : 0 < n) (hH : 0 ≤ H) (hr : 1 ≤ r) (hκ : 0 ≤ κ) (hHD : H ≤ r * D)
    (hsmall : (n + 12) * r ≤ 2 ^ 40) (hD : D = zlev - μ) (hμ : |μ| ≤ H) (hs : |(sum' : ℝ) - n * μ| ≤ (n + 1) / 2 ^ 51 * (n * H))
    (hk : |(k' : ℝ) - κ| ≤ 1 / 2 ^ 47 * κ) :
    |((toDouble (-toDouble (zlev - toDouble (sum' / n)) * k') : ℚ) : ℝ) + D * κ| ≤ (n + 12) * r / 2 ^ 50 * (D * κ) := by
  have hn' : (0 : ℝ) < n := by exact_mod_cast hn
  have hD0 : 0 ≤ D := by nlinarith
  have a1 : |((sum' / n : ℚ) : ℝ) - μ| ≤ (n + 1) / 2 ^ 51 * H := by
    push_cast
    have e : (sum' : ℝ) / n - μ = (sum' - n * μ) / n := by field_simp
    rw [e, abs_div, abs_of_pos hn', div_le_iff₀ hn']
    linarith
  have hn1 : (n : ℝ) + 12 ≤ 2 ^ 40 := by nlinarith
  have a2 : |((sum' / n : ℚ) : ℝ)| ≤ 2 * H := by
    have := abs_add_le (((sum' / n : ℚ) : ℝ) - μ) μ
    rw [sub_add_cancel] at this
    have h2 : ((n : ℝ) + 1) / 2 ^ 51 * H ≤ 1 * H := by
      apply mul_le_mul_of_nonneg_right _ hH
      rw [div_le_one (by positivity)]; linarith
    linarith
  have a3 := toDouble_err (sum' / n)
  generalize toDouble (sum' / n) = b at a3 ⊢
  generalize ((sum' / n : ℚ) : ℝ) = b0 at a1 a2 a3
  have a4 : |(b : ℝ) - μ| ≤ (n + 2) / 2 ^ 51 * H := by
    have := abs_add_le ((b : ℝ) - b0) (b0 - μ)
    rw [sub_add_sub_cancel] at this
    linarith
  have a5 : |((zlev - b : ℚ) : ℝ) - D| ≤ (n + 2) * r / 2 ^ 51 * D := by
    push_cast
    rw [hD, show (zlev : ℝ) - b - (zlev - μ) = -((b : ℝ) - μ) by ring, abs_neg, ← hD]
    refine a4.trans ?_
    calc ((n : ℝ) + 2) / 2 ^ 51 * H ≤ (n + 2) / 2 ^ 51 * (r * D) := by gcongr
      _ = _ := by ring
  have hrD : D ≤ r * D := by nlinarith
  have a6 : |((zlev - b : ℚ) : ℝ)| ≤ 2 * D := by
    have := abs_add_le (((zlev - b : ℚ) : ℝ) - D) D
    rw [sub_add_cancel, abs_of_nonneg hD0] at this
    have h2 : ((n : ℝ) + 2) * r / 2 ^ 51 * D ≤ 1 * D := by
      apply mul_le_mul_of_nonneg_right _ hD0
      rw [div_le_one (by positivity)]; nlinarith
    linarith
  have a7 := toDouble_err (zlev - b)
  generalize toDouble (zlev - b) = d at a7 ⊢
  generalize ((zlev - b : ℚ) : ℝ) = d0 at a5 a6 a7
  have a8 : |(d : ℝ) - D| ≤ (n + 3) * r / 2 ^ 51 * D := by
    have := abs_add_le ((d : ℝ) - d0) (d0 - D)
    rw [sub_add_sub_cancel] at this
    have e : ((n : ℝ) + 3) * r / 2 ^ 51 * D = (n + 2) * r / 2 ^ 51 * D + 1 / 2 ^ 51 * (r * D) := by ring
    rw [e]
    linarith
  have a9 : |(d : ℝ)| ≤ 2 * D := by
    have := abs_add_le ((d : ℝ) - D) D
    rw [sub_add_cancel, abs_of_nonneg hD0] at this
    have h2 : ((n : ℝ) + 3) * r / 2 ^ 51 * D ≤ 1 * D := by
      apply mul_le_mul_of_nonneg_right _ hD0
      rw [div_le_one (by positivity)]; nlinarith
    linarith
  have b1 : |(k' : ℝ)| ≤ 2 * κ := by
    have := abs_add_le ((k' : ℝ) - κ) κ
    rw [sub_add_cancel, abs_of_nonneg hκ] at this
    linarith
  have b2 : |(d : ℝ) * k' - D * κ| ≤ (n + 3) * r / 2 ^ 51 * D * (2 * κ) + D * (1 / 2 ^ 47 * κ) := by
    rw [show (d : ℝ) * k' - D * κ = (d - D) * k' + D * (k' - κ) by ring]
    refine (abs_add_le _ _).trans ?_
    rw [abs_mul, abs_mul, abs_of_nonneg hD0]
    exact add_le_add (mul_le_mul a8 b1 (abs_nonneg _) (by positivity)) (mul_le_mul_of_nonneg_left hk hD0)
  have b3 : |(d : ℝ) * k'| ≤ 2 * D * (2 * κ) := by
    rw [abs_mul]; exact mul_le_mul a9 b1 (abs_nonneg _) (by positivity)
  have b4 := toDouble_err (-d * k')
  generalize toDouble (-d * k') = q at b4 ⊢
  push_cast at b4
  rw [neg_mul, abs_neg] at b4
  have b5 := abs_add_le ((q : ℝ) - -((d : ℝ) * k')) (-((d : ℝ) * k' - D * κ))
  rw [abs_neg] at b5
  rw [show (q : ℝ) + D * κ = (q : ℝ) - -((d : ℝ) * k') + -((d : ℝ) * k' - D * κ) by ring]
  have hDκ : D * κ ≤ r * (D * κ) := by nlinarith [mul_nonneg hD0 hκ]
  have e : ((n : ℝ) + 12) * r / 2 ^ 50 * (D * κ) = (n + 3) * r / 2 ^ 51 * D * (2 * κ) + 9 / 2 ^ 50 * (r * (D * κ)) := by ring
  rw [e]
  linarith

theorem norm_wave (a : ℝ) : ‖Complex.exp (a * Complex.I)‖ = 1 := Complex.norm_exp_ofReal_mul_I a

theorem norm_wave1 (k m N : ℕ) : ‖Complex.exp (-2 * Real.pi * Complex.I * (k * m) / N)‖ = 1 := by
  rw [show -2 * (Real.pi : ℂ) * Complex.I * (k * m) / N = ((-2 * Real.pi * (k * m) / N : ℝ) : ℂ) * Complex.I by push_cast; ring]
  exact norm_wave _

theorem norm_wave2 (k m N : ℕ) : ‖Complex.exp (2 * Real.pi * Complex.I * (k * m) / N)‖ = 1 := by
  rw [show 2 * (Real.pi : ℂ) * Complex.I * (k * m) / N = ((2 * Real.pi * (k * m) / N : ℝ) : ℂ) * Complex.I by push_cast; ring]
  exact norm_wave _

/-- Transform of one power. -/
theorem fft_err {fft : List ℚ → List (ℚ × ℚ)}
    (hf : ∀ (x : List ℚ) (M : ℝ), (∀ v ∈ x, |(v : ℝ)| ≤ M) → ∀ k < x.length,
      ‖pairC ((fft x).getD k (0, 0)) - ∑ m ∈ Finset.range x.length, ((x.getD m 0 : ℝ) : ℂ) * Complex.exp (-2 * Real.pi * Complex.I * (k * m) / x.length)‖ ≤ x.length * M / 2 ^ 45)
    (N : ℕ) (x : ℕ → ℚ) (y : ℕ → ℝ) (B : ℝ) (hxy : ∀ m < N, |(x m : ℝ) - y m| ≤ 1 / 2 ^ 51 * B) (hy : ∀ m < N, |y m| ≤ B) (k : ℕ) (hk : k < N) :
    ‖pairC ((fft (samples x N)).getD k (0, 0)) - ∑ m ∈ Finset.range N, (y m : ℂ) * Complex.exp (-2 * Real.pi * Complex.I * (k * m) / N)‖ ≤ 1 / 2 ^ 44 * (N * B) ∧
      ‖∑ m ∈ Finset.range N, (y m : ℂ) * Complex.exp (-2 * Real.pi * Complex.I * (k * m) / N)‖ ≤ N * B := by
  have hB : 0 ≤ B := (abs_nonneg _).trans (hy k hk)
  have h1 := hf (samples x N) ((1 + 1 / 2 ^ 51) * B) (by
    intro v hv
    obtain ⟨m, hm, rfl⟩ := List.mem_map.1 hv
    have hm' := List.mem_range.1 hm
    have := abs_add_le ((x m : ℝ) - y m) (y m)
    rw [sub_add_cancel] at this
    linarith [hxy m hm', hy m hm']) k (by simpa using hk)
  rw [samples_length] at h1
  have e : ∑ m ∈ Finset.range N, (((samples x N).getD m 0 : ℝ) : ℂ) * Complex.exp (-2 * Real.pi * Complex.I * (k * m) / N) =
      ∑ m ∈ Finset.range N, ((x m : ℝ) : ℂ) * Complex.exp (-2 * Real.pi * Complex.I * (k * m) / N) := by
    apply Finset.sum_congr rfl
    intro m hm
    rw [getD_samples x N m 0 (Finset.mem_range.1 hm)]
  rw [e] at h1
  have h2 : ‖∑ m ∈ Finset.range N, ((x m : ℝ) : ℂ) * Complex.exp (-2 * Real.pi * Complex.I * (k * m) / N) -
      ∑ m ∈ Finset.range N, (y m : ℂ) * Complex.exp (-2 * Real.pi * Complex.I * (k * m) / N)‖ ≤ N * (1 / 2 ^ 51 * B) := by
    rw [← Finset.sum_sub_distrib]
    refine (norm_sum_le _ _).trans ?_
    refine (Finset.sum_le_card_nsmul _ _ (1 / 2 ^ 51 * B) ?_).trans (by simp)
    intro m hm
    rw [← sub_mul, norm_mul, norm_wave1, mul_one, ← Complex.ofReal_sub, Complex.norm_real, Real.norm_eq_abs]
    exact hxy m (Finset.mem_range.1 hm)
  constructor
  · have h3 := norm_add_le (pairC ((fft (samples x N)).getD k (0, 0)) - ∑ m ∈ Finset.range N, ((x m : ℝ) : ℂ) * Complex.exp (-2 * Real.pi * Complex.I * (k * m) / N))
      (∑ m ∈ Finset.range N, ((x m : ℝ) : ℂ) * Complex.exp (-2 * Real.pi * Complex.I * (k * m) / N) -
        ∑ m ∈ Finset.range N, (y m : ℂ) * Complex.exp (-2 * Real.pi * Complex.I * (k * m) / N))
    rw [sub_add_sub_cancel] at h3
    have hNB : 0 ≤ (N : ℝ) * B := by positivity
    nlinarith
  · refine (norm_sum_le _ _).trans ?_
    refine (Finset.sum_le_card_nsmul _ _ B ?_).trans (by simp)
    intro m hm
    rw [norm_mul, norm_wave1, mul_one, Complex.norm_real, Real.norm_eq_abs]
    exact hy m (Finset.mem_range.1 hm)

theorem set_samples {α : Type} (f : ℕ → α) (N : ℕ) (a : α) : (samples f N).set 0 a = samples (fun k => if k = 0 then a else f k) N := by
  apply List.ext_getElem?
  intro i
  rw [List.getElem?_set]
  simp only [samples, List.getElem?_map, List.length_map, List.length_range]
  by_cases h0 : 0 = i
  · subst h0
    by_cases hN : 0 < N
    · rw [List.getElem?_range hN]; simp [hN]
    · have : N = 0 := by omega
      subst this; simp
  · rw [if_neg h0]
    by_cases hi : i < N
    · rw [List.getElem?_range hi]; simp [Ne.symm h0]
    · rw [List.getElem?_eq_none (by simp; omega)]; rfl

theorem padF_map (topo : List ℚ) : (padTopoF topo).map (fun q : ℚ => (q : ℝ)) = padTopo (topo.map fun q : ℚ => (q : ℝ)) := by
  have h1 : ((topo.headD 0 : ℚ) : ℝ) = (topo.map fun q : ℚ => (q : ℝ)).headD 0 := by cases topo <;> simp
  have h2 : ((topo.getLastD 0 : ℚ) : ℝ) = (topo.map fun q : ℚ => (q : ℝ)).getLastD 0 := by
    rw [List.getLastD_eq_getLast?, List.getLastD_eq_getLast?, List.getLast?_map]
    cases topo.getLast? <;> simp
  unfold padTopoF padTopo
  rw [← h1, ← h2]
  simp

theorem padF_eq (n : ℕ) (hn : 0 < n) (h : ℕ → ℚ) : ∃ p : ℕ → ℚ, padTopoF (samples h n) = samples p (5 * n) ∧
    ∀ m < 5 * n, (p m : ℝ) = carriedOn n (fun i => (h i : ℝ)) m := by
  have h1 := padF_map (samples h n)
  rw [map_samples, pad_eq n hn] at h1
  have hl : (padTopoF (samples h n)).length = 5 * n := by
    have := congrArg List.length h1
    rwa [List.length_map, samples_length] at this
  have e := list_samples 0 (padTopoF (samples h n))
  rw [hl] at e
  refine ⟨_, e, ?_⟩
  intro m hm
  rw [e, map_samples] at h1
  have := congrArg (fun l => l.getD m 0) h1
  rw [getD_samples _ _ _ _ hm, getD_samples _ _ _ _ hm] at this
  exact this

/-- The sum of five powers in double precision at bin `k`. -/
def specF (lm : ParkerLibm) (N : ℕ) (p kq : ℕ → ℚ) (k : ℕ) : ℚ × ℚ :=
  let t := fun ip : ℕ => cmulF (cmulF ((lm.fft (samples (fun m => lm.pow (p m) ip) N)).getD k (0, 0)) (lm.pow (kq k) (ip - 1))) (toDouble (1 / ip.factorial))
  caddF (caddF (caddF (caddF (if k = 0 then (0, 0) else (lm.fft (samples p N)).getD k (0, 0)) (t 2)) (t 3)) (t 4)) (t 5)

theorem parkerSumF_eq (lm : ParkerLibm) (hl : ∀ x, (lm.fft x).length = x.length) (N : ℕ) (p kq : ℕ → ℚ) :
    parkerSum1dF lm (samples p N) (samples kq N) = samples (specF lm N p kq) N := by
  have hf : ∀ x : ℕ → ℚ, lm.fft (samples x N) = samples (fun k => (lm.fft (samples x N)).getD k (0, 0)) N := by
    intro x
    have := list_samples (0, 0) (lm.fft (samples x N))
    rwa [hl, samples_length] at this
  have hterm : ∀ ip : ℕ, parkerTerm1dF lm (samples p N) (samples kq N) ip = samples (fun k =>
      cmulF (cmulF ((lm.fft (samples (fun m => lm.pow (p m) ip) N)).getD k (0, 0)) (lm.pow (kq k) (ip - 1))) (toDouble (1 / ip.factorial))) N := by
    intro ip
    unfold parkerTerm1dF
    rw [map_samples, hf, zip_samples']
    apply samples_congr
    intro k hk
    rw [← hf]
  unfold parkerSum1dF
  simp only [List.foldl_cons, List.foldl_nil]
  rw [hf, set_samples, hterm, hterm, hterm, hterm, zip_samples', zip_samples', zip_samples', zip_samples']
  apply samples_congr
  intro k hk
  rfl

/-- The sum of five powers against that of Parker's series. -/
theorem spec_err (lm : ParkerLibm) (gd : GoodParkerLib lm.fft lm.ifft lm.exp lm.sqrt lm.pow lm.sum) (N : ℕ) (p kq : ℕ → ℚ) (h κ : ℕ → ℝ) (H : ℝ)
    (hp : ∀ m < N, (p m : ℝ) = h m) (hh : ∀ m < N, |h m| ≤ H) (hκ0 : κ 0 = 0) (k : ℕ) (hk : k < N) (hκ : 0 ≤ κ k) (hkq : Near (20 * (1 / 2 ^ 52)) (kq k) (κ k)) :
    ‖pairC (specF lm N p kq k) - spec5 N κ h k‖ ≤ 1 / 2 ^ 40 * (N * H * poly5 (κ k * H)) ∧ ‖spec5 N κ h k‖ ≤ N * H * poly5 (κ k * H) := by
  have hH : 0 ≤ H := (abs_nonneg _).trans (hh k hk)
  let F : ℕ → ℂ := fun ip => ∑ m ∈ Finset.range N, ((h m ^ ip : ℝ) : ℂ) * Complex.exp (-2 * Real.pi * Complex.I * (k * m) / N)
  have hF1 := fft_err gd.fft N p h H (fun m hm => by rw [hp m hm, sub_self, abs_zero]; positivity) hh k hk
  have hFp : ∀ ip : ℕ, 1 ≤ ip → ip ≤ 5 → ‖pairC ((lm.fft (samples (fun m => lm.pow (p m) ip) N)).getD k (0, 0)) - F ip‖ ≤ 1 / 2 ^ 44 * (N * H ^ ip) ∧
      ‖F ip‖ ≤ N * H ^ ip := by
    intro ip h1 h5
    refine fft_err gd.fft N _ (fun m => h m ^ ip) (H ^ ip) ?_ ?_ k hk
    · intro m hm
      have a := gd.pow (p m) ip h1 h5
      rw [hp m hm] at a
      refine a.trans ?_
      rw [div_eq_mul_inv, mul_comm, one_div]
      exact mul_le_mul_of_nonneg_left (pow_le_pow_left₀ (abs_nonneg _) (hh m hm) _) (by positivity)
    · intro m hm
      rw [abs_pow]
      exact pow_le_pow_left₀ (abs_nonneg _) (hh m hm) _
  have hkp : ∀ j : ℕ, 1 ≤ j → j ≤ 4 → |(lm.pow (kq k) j : ℝ) - κ k ^ j| ≤ 1 / 2 ^ 43 * κ k ^ j := by
    intro j h1 h4
    have a := near_pow gd.pow hkq j h1 (by omega)
    have hj : (j : ℝ) ≤ 4 := by exact_mod_cast h4
    have b := (a.mono (d := 84 * (1 / 2 ^ 52)) (by linarith)).err (by norm_num) (by norm_num)
    rw [abs_of_nonneg (pow_nonneg hκ j)] at b
    exact b.trans (mul_le_mul_of_nonneg_right (by norm_num) (pow_nonneg hκ j))
  have T : ∀ ip : ℕ, 2 ≤ ip → ip ≤ 5 → _ := fun ip h2 h5 =>
    term_err ip (hFp ip (by omega) h5).1 (hFp ip (by omega) h5).2 (hkp (ip - 1) (by omega) (by omega)) (abs_of_nonneg (pow_nonneg hκ (ip - 1))).le
  have hS1 : ‖pairC (if k = 0 then (0, 0) else (lm.fft (samples p N)).getD k (0, 0)) - (if k = 0 then 0 else F 1)‖ ≤ 1 / 2 ^ 41 * (N * H) ∧
      ‖(if k = 0 then 0 else F 1)‖ ≤ N * H := by
    by_cases h0 : k = 0
    · simp only [if_pos h0]
      have e : pairC (0, 0) = 0 := by apply Complex.ext <;> simp [pairC]
      rw [e, sub_zero, norm_zero]
      constructor <;> positivity
    · simp only [if_neg h0]
      have e : F 1 = ∑ m ∈ Finset.range N, (h m : ℂ) * Complex.exp (-2 * Real.pi * Complex.I * (k * m) / N) := by simp [F]
      rw [e]
      refine ⟨hF1.1.trans (mul_le_mul_of_nonneg_right (by norm_num) (by positivity)), hF1.2⟩
  have S := sum5_err hS1 (T 2 (by norm_num) (by norm_num)) (T 3 (by norm_num) (by norm_num)) (T 4 (by norm_num) (by norm_num)) (T 5 (by norm_num) (by norm_num))
  have e1 : (if k = 0 then 0 else F 1) + F 2 * ((κ k ^ (2 - 1) : ℝ) : ℂ) * ((1 / (Nat.factorial 2 : ℕ) : ℝ) : ℂ) + F 3 * ((κ k ^ (3 - 1) : ℝ) : ℂ) * ((1 / (Nat.factorial 3 : ℕ) : ℝ) : ℂ) +
      F 4 * ((κ k ^ (4 - 1) : ℝ) : ℂ) * ((1 / (Nat.factorial 4 : ℕ) : ℝ) : ℂ) + F 5 * ((κ k ^ (5 - 1) : ℝ) : ℂ) * ((1 / (Nat.factorial 5 : ℕ) : ℝ) : ℂ) = spec5 N κ h k := by
    unfold spec5
    by_cases h0 : k = 0
    · subst h0
      simp [hκ0]
    · simp only [if_neg h0]
      rw [show Finset.Icc 1 5 = {1, 2, 3, 4, 5} from rfl]
      simp only [Finset.sum_insert, Finset.mem_insert, Finset.mem_singleton, Finset.sum_singleton, Nat.reduceEqDiff, or_self, not_false_eq_true,
        OfNat.ofNat_ne_one, OfNat.one_ne_ofNat, F]
      push_cast
      simp [Nat.factorial]
      ring
  have e2 : (N : ℝ) * H + N * H ^ 2 * κ k ^ (2 - 1) * (1 / (Nat.factorial 2 : ℕ)) + N * H ^ 3 * κ k ^ (3 - 1) * (1 / (Nat.factorial 3 : ℕ)) +
      N * H ^ 4 * κ k ^ (4 - 1) * (1 / (Nat.factorial 4 : ℕ)) + N * H ^ 5 * κ k ^ (5 - 1) * (1 / (Nat.factorial 5 : ℕ)) = N * H * poly5 (κ k * H) := by
    unfold poly5
    simp [Nat.factorial]
    ring
  rw [e1, e2] at S
  exact S

theorem window_samples {α : Type} (v : ℕ → α) (n : ℕ) : ((samples v (5 * n)).take (3 * n)).drop (2 * n) = samples (fun i => v (2 * n + i)) n := by
  apply List.ext_getElem?
  intro i
  rw [List.getElem?_drop]
  simp only [samples, List.getElem?_map]
  by_cases hi : i < n
  · rw [List.getElem?_take_of_lt (by omega), List.getElem?_map, List.getElem?_range (by omega), List.getElem?_range hi]; rfl
  · rw [List.getElem?_eq_none (by simp; omega), List.getElem?_eq_none (by simp; omega)]; rfl

theorem grav_near (rho : ℚ) : |((toDouble (toDouble (toDouble (2 * piF) * toDouble (toDouble 6.673 * toDouble 1e-8)) * rho) : ℚ) : ℝ) - 2 * Real.pi * (6.673 * 1e-8) * rho| ≤
    1 / 2 ^ 48 * |2 * Real.pi * (6.673 * 1e-8) * rho| := by
  have h1 : Near (2 * (1 / 2 ^ 52)) (toDouble (2 * piF)) (2 * Real.pi) := by
    have := near_toDouble ((near_self 2).mul near_pi)
    push_cast at this
    exact this.mono (by norm_num)
  have h2 : Near (3 * (1 / 2 ^ 52)) (toDouble (toDouble 6.673 * toDouble 1e-8)) (6.673 * 1e-8) := by
    have a := near_toDouble (near_self (6.673 : ℚ))
    have b := near_toDouble (near_self (1e-8 : ℚ))
    have c := near_toDouble (a.mul b)
    have e : ((6.673 : ℚ) : ℝ) * ((1e-8 : ℚ) : ℝ) = 6.673 * 1e-8 := by norm_num
    rw [e] at c
    exact c.mono (by norm_num)
  have h3 := near_toDouble ((near_toDouble (h1.mul h2)).mul (near_self rho))
  have h4 := h3.err (by norm_num) (by norm_num)
  exact h4.trans (mul_le_mul_of_nonneg_right (by norm_num) (abs_nonneg _))

/-- The mean. -/
theorem sum_bound (sm : List ℚ → ℚ) (hs : ∀ l : List ℚ, |sm l - l.sum| ≤ (l.length + 1) / 2 ^ 51 * (l.map fun x => |x|).sum) (n : ℕ) (hn : 0 < n) (h : ℕ → ℚ) (H : ℝ)
    (hh : ∀ i < n, |(h i : ℝ)| ≤ H) :
    |(sm (samples h n) : ℝ) - n * ((∑ i ∈ Finset.range n, (h i : ℝ)) / n)| ≤ (n + 1) / 2 ^ 51 * (n * H) ∧ |(∑ i ∈ Finset.range n, (h i : ℝ)) / n| ≤ H := by
  have hn' : (0 : ℝ) < n := by exact_mod_cast hn
  have hb : ∑ i ∈ Finset.range n, |(h i : ℝ)| ≤ n * H :=
    (Finset.sum_le_card_nsmul _ _ H fun i hi => hh i (Finset.mem_range.1 hi)).trans (by simp)
  constructor
  · have a := hs (samples h n)
    rw [map_samples, samples_length] at a
    unfold samples at a
    rw [sum_map_range, sum_map_range] at a
    have b := (Rat.cast_le (K := ℝ)).2 a
    push_cast at b
    rw [mul_div_cancel₀ _ hn'.ne']
    refine b.trans ?_
    gcongr
  · rw [abs_div, abs_of_pos hn', div_le_iff₀ hn', mul_comm]
    exact (Finset.abs_sum_le_sum_abs _ _).trans hb

/-- The inverse transform of slightly wrong numbers. -/
theorem ifft_err {ifft : List (ℚ × ℚ) → List (ℚ × ℚ)}
    (hf : ∀ (y : List (ℚ × ℚ)) (M : ℝ), (∀ v ∈ y, ‖pairC v‖ ≤ M) → ∀ j < y.length,
      ‖pairC ((ifft y).getD j (0, 0)) - 1 / y.length * ∑ m ∈ Finset.range y.length, pairC (y.getD m (0, 0)) * Complex.exp (2 * Real.pi * Complex.I * (j * m) / y.length)‖ ≤ M / 2 ^ 45)
    (N : ℕ) (y : ℕ → ℚ × ℚ) (d : ℕ → ℂ) (Q ε : ℝ) (hε : ε ≤ 1) (hy : ∀ m < N, ‖pairC (y m) - d m‖ ≤ Q * ε) (hd : ∀ m < N, ‖d m‖ ≤ Q) (j : ℕ) (hj : j < N) :
    ‖pairC ((ifft (samples y N)).getD j (0, 0)) - 1 / (N : ℂ) * ∑ m ∈ Finset.range N, d m * Complex.exp (2 * Real.pi * Complex.I * (j * m) / N)‖ ≤ Q * (1 / 2 ^ 44 + ε) ∧
      ‖1 / (N : ℂ) * ∑ m ∈ Finset.range N, d m * Complex.exp (2 * Real.pi * Complex.I * (j * m) / N)‖ ≤ Q := by
  have hN : (0 : ℝ) < N := by exact_mod_cast (by omega : 0 < N)
  have hQ : 0 ≤ Q := (norm_nonneg _).trans (hd j hj)
  have hε' : Q * ε ≤ Q := by nlinarith
  have mean : ∀ (z : ℕ → ℂ) (B : ℝ), (∀ m < N, ‖z m‖ ≤ B) → ‖1 / (N : ℂ) * ∑ m ∈ Finset.range N, z m * Complex.exp (2 * Real.pi * Complex.I * (j * m) / N)‖ ≤ B := by
    intro z B hz
    rw [norm_mul, norm_div, norm_one, Complex.norm_natCast, one_div, inv_mul_le_iff₀ hN]
    refine (norm_sum_le _ _).trans ((Finset.sum_le_card_nsmul _ _ B ?_).trans (by simp))
    intro m hm
    rw [norm_mul, norm_wave2, mul_one]
    exact hz m (Finset.mem_range.1 hm)
  refine ⟨?_, mean d Q hd⟩
  have h1 := hf (samples y N) (2 * Q) (by
    intro v hv
    obtain ⟨m, hm, rfl⟩ := List.mem_map.1 hv
    have hm' := List.mem_range.1 hm
    have := norm_add_le (pairC (y m) - d m) (d m)
    rw [sub_add_cancel] at this
    linarith [hy m hm', hd m hm']) j (by simpa using hj)
  rw [samples_length] at h1
  have e : ∑ m ∈ Finset.range N, pairC ((samples y N).getD m (0, 0)) * Complex.exp (2 * Real.pi * Complex.I * (j * m) / N) =
      ∑ m ∈ Finset.range N, pairC (y m) * Complex.exp (2 * Real.pi * Complex.I * (j * m) / N) := by
    apply Finset.sum_congr rfl
    intro m hm
    rw [getD_samples y N m _ (Finset.mem_range.1 hm)]
  rw [e] at h1
  have h2 := mean (fun m => pairC (y m) - d m) _ hy
  simp only [sub_mul, Finset.sum_sub_distrib, mul_sub] at h2
  have h3 := norm_add_le (pairC ((ifft (samples y N)).getD j (0, 0)) - 1 / (N : ℂ) * ∑ m ∈ Finset.range N, pairC (y m) * Complex.exp (2 * Real.pi * Complex.I * (j * m) / N))
    (1 / (N : ℂ) * ∑ m ∈ Finset.range N, pairC (y m) * Complex.exp (2 * Real.pi * Complex.I * (j * m) / N) -
      1 / (N : ℂ) * ∑ m ∈ Finset.range N, d m * Complex.exp (2 * Real.pi * Complex.I * (j * m) / N))
  rw [sub_add_sub_cancel] at h3
  linarith

/-- Factor of hundred. -/
theorem mgal_err {a' : ℚ} {a Q ε : ℝ} (hε : ε ≤ 1 / 2) (ha' : |(a' : ℝ) - a| ≤ Q * (1 / 2 ^ 44 + ε)) (ha : |a| ≤ Q) :
    |((toDouble (a' * 100) : ℚ) : ℝ) - a * 100| ≤ 100 * Q * (1 / 2 ^ 43 + ε) := by
  have hQ : 0 ≤ Q := (abs_nonneg _).trans ha
  have h1 := toDouble_err (a' * 100)
  push_cast at h1
  have h2 : |(a' : ℝ) * 100| ≤ 200 * Q := by
    rw [abs_mul, abs_of_pos (by norm_num : (0 : ℝ) < 100)]
    have := abs_add_le ((a' : ℝ) - a) a
    rw [sub_add_cancel] at this
    nlinarith
  have h3 := abs_add_le (((toDouble (a' * 100) : ℚ) : ℝ) - a' * 100) ((a' : ℝ) * 100 - a * 100)
  rw [sub_add_sub_cancel] at h3
  have h4 : |(a' : ℝ) * 100 - a * 100| ≤ 100 * (Q * (1 / 2 ^ 44 + ε)) := by
    rw [← sub_mul, abs_mul, abs_of_pos (by norm_num : (0 : ℝ) < 100)]
    linarith
  nlinarith

end Shipgrav.Parker1
