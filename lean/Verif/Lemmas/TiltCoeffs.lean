import Verif.Lemmas.TiltFloat
import Verif.Lemmas.GaussianFloat
import Verif.Spec.FloatLibm
import Mathlib.Analysis.Real.Pi.Bounds
import Mathlib.Analysis.SpecialFunctions.Trigonometric.Bounds

/-! The coefficients of the tilt filter in double precision. -/

namespace Shipgrav
open Spec Real

theorem near_of_rel {u : ℚ} {x d : ℝ} (hx : x ≠ 0) (hd : d ≤ 1 / 2) (h : |(u : ℝ) - x| ≤ d * |x|) : Near (2 * d) u x := by
  refine ⟨u / x, within_of_near hd ?_, by field_simp⟩
  have e : (u : ℝ) / x - 1 = (u - x) / x := by field_simp
  rw [e, abs_div, div_le_iff₀ (abs_pos.2 hx)]
  exact h

theorem exp_small {c : ℝ} (h0 : 0 ≤ c) (h1 : c ≤ 1 / 100) : Real.exp c - 1 ≤ 101 / 100 * c := by
  have := (abs_le.1 (Real.abs_exp_sub_one_sub_id_le (x := c) (by rw [abs_of_nonneg h0]; linarith))).2
  nlinarith

theorem Near.err {c : ℝ} {u : ℚ} {x : ℝ} (h : Near c u x) (h0 : 0 ≤ c) (h1 : c ≤ 1 / 100) : |(u : ℝ) - x| ≤ 101 / 100 * c * |x| := by
  obtain ⟨t, ht, e⟩ := h
  have e2 : (u : ℝ) - x = x * (t - 1) := by rw [e]; ring
  rw [e2, abs_mul, mul_comm]
  exact mul_le_mul_of_nonneg_right (ht.abs_sub_one.trans (exp_small h0 h1)) (abs_nonneg _)

theorem Near.add {c d : ℝ} {u v : ℚ} {x y : ℝ} (h : Near c u x) (h' : Near d v y) (hx : 0 < x) (hy : 0 < y) (hcd : c ≤ d) :
    Near d (u + v) (x + y) := by
  obtain ⟨t, ht, e⟩ := h.mono hcd
  obtain ⟨s, hs, e'⟩ := h'
  refine ⟨(x * t + y * s) / (x + y), ⟨?_, ?_⟩, ?_⟩
  · rw [le_div_iff₀ (by positivity)]
    have := mul_le_mul_of_nonneg_left ht.1 hx.le
    have := mul_le_mul_of_nonneg_left hs.1 hy.le
    linarith
  · rw [div_le_iff₀ (by positivity)]
    have := mul_le_mul_of_nonneg_left ht.2 hx.le
    have := mul_le_mul_of_nonneg_left hs.2 hy.le
    linarith
  · have : x + y ≠ 0 := by positivity
    push_cast
    rw [e, e']
    field_simp

theorem Near.pos {c : ℝ} {u : ℚ} {x : ℝ} (h : Near c u x) (hx : 0 < x) : 0 < u := by
  obtain ⟨t, ht, e⟩ := h
  have := ht.pos
  have : (0 : ℝ) < u := by rw [e]; positivity
  exact_mod_cast this

theorem near_pi : Near (1 / 2 ^ 52) piF π := by
  have h1 := Real.pi_gt_d20
  have h2 := Real.pi_lt_d20
  have := near_of_rel (u := piF) (x := π) (d := 1 / 2 ^ 53) (by positivity) (by norm_num) (by
    rw [abs_of_pos Real.pi_pos, abs_le]
    unfold piF
    push_cast
    constructor <;> norm_num at h1 h2 ⊢ <;> linarith)
  convert this using 1
  norm_num

theorem near_sqr {sq : ℚ → ℚ} (hs : GoodSqr sq) {c : ℝ} {u : ℚ} {x : ℝ} (h : Near c u x) (hx : x ≠ 0) :
    Near (2 * c + 2 * (1 / 2 ^ 52)) (sq u) (x ^ 2) := by
  obtain ⟨t, ht, e⟩ := h
  have hu : (u : ℝ) ≠ 0 := by rw [e]; exact mul_ne_zero hx ht.pos.ne'
  obtain ⟨s, hs', e'⟩ := near_of_rel (u := sq u) (x := (u : ℝ) ^ 2) (d := 1 / 2 ^ 52) (by positivity) (by norm_num) (by
    rw [abs_of_nonneg (sq_nonneg (u : ℝ)), one_div_mul_eq_div]
    exact hs u)
  exact ⟨t * t * s, ((ht.mul ht).mul hs').mono (le_of_eq (by ring)), by rw [e', e]; ring⟩

theorem near_sqrt {sq : ℚ → ℚ} (hs : GoodSqrt sq) {c : ℝ} {u : ℚ} {x : ℝ} (h : Near c u x) (hx : 0 < x) (hc : 0 ≤ c) :
    Near (c + 2 * (1 / 2 ^ 52)) (sq u) (√x) := by
  have hu := h.pos hx
  obtain ⟨t, ht, e⟩ := h
  have hu' : (0 : ℝ) < u := by exact_mod_cast hu
  obtain ⟨s, hs', e'⟩ := near_of_rel (u := sq u) (x := √(u : ℝ)) (d := 1 / 2 ^ 52) (by positivity) (by norm_num) (by
    rw [abs_of_nonneg (Real.sqrt_nonneg _), one_div_mul_eq_div]
    exact hs u hu.le)
  have hw : Within c (√t) := by
    constructor
    · refine (Real.exp_le_exp.2 (show -c ≤ -c / 2 by linarith)).trans ?_
      rw [Real.exp_half]
      exact Real.sqrt_le_sqrt ht.1
    · refine le_trans ?_ (Real.exp_le_exp.2 (show c / 2 ≤ c by linarith))
      rw [Real.exp_half]
      exact Real.sqrt_le_sqrt ht.2
  exact ⟨√t * s, hw.mul hs', by rw [e', e, Real.sqrt_mul hx.le]; ring⟩

theorem near_tan {tn : ℚ → ℚ} (htn : GoodTan tn) {q : ℚ} {θ : ℝ} (h : Near (7 * (1 / 2 ^ 52)) q θ) (h0 : 0 < θ) (h1 : θ ≤ π / 4) :
    Near (37 * (1 / 2 ^ 52)) (tn q) (tan θ) := by
  obtain ⟨v, hv⟩ : ∃ v : ℝ, v = 1 / 2 ^ 52 := ⟨_, rfl⟩
  have hv0 : 0 < v := by rw [hv]; positivity
  have hv1 : v ≤ 1 / 10 ^ 6 := by rw [hv]; norm_num
  have hπ := Real.pi_pos
  have hπ2 := Real.pi_lt_d2
  have hπ3 := Real.pi_gt_d2
  have hq := h.pos h0
  have hq' : (0 : ℝ) < q := by exact_mod_cast hq
  have e1 := h.err (by positivity) (by norm_num)
  rw [← hv, abs_of_pos h0] at e1
  have hθ : θ ≤ 79 / 100 := by linarith
  have e2 : |(q : ℝ) - θ| ≤ 1 / 1000 := by
    refine e1.trans ?_
    nlinarith
  have hq1 : (q : ℝ) ≤ 79 / 100 := by linarith [(abs_le.1 e2).2]
  have hcq : 687 / 1000 ≤ cos (q : ℝ) := by
    have := Real.one_sub_sq_div_two_le_cos (x := (q : ℝ))
    nlinarith
  have hcθ : 0 < cos θ := Real.cos_pos_of_mem_Ioo ⟨by linarith, by linarith⟩
  have hsθ : 2 / π * θ ≤ sin θ := Real.mul_le_sin h0.le (by linarith)
  have hsθ' : 634 / 1000 * θ ≤ sin θ := by
    refine le_trans (mul_le_mul_of_nonneg_right ?_ h0.le) hsθ
    rw [le_div_iff₀ hπ]
    linarith
  have hs0 : 0 < sin θ := lt_of_lt_of_le (by positivity) hsθ'
  have htθ : 0 < tan θ := by rw [Real.tan_eq_sin_div_cos]; positivity
  have htq : 0 < tan (q : ℝ) := Real.tan_pos_of_pos_of_lt_pi_div_two hq' (by linarith)
  have hdiff : tan (q : ℝ) - tan θ = sin (q - θ) / (cos q * cos θ) := by
    have : cos (q : ℝ) ≠ 0 := by linarith
    rw [Real.tan_eq_sin_div_cos, Real.tan_eq_sin_div_cos, Real.sin_sub]
    field_simp
  have hrel : |tan (q : ℝ) - tan θ| ≤ 33 / 2 * v * tan θ := by
    rw [hdiff, abs_div, abs_of_pos (by positivity : 0 < cos (q : ℝ) * cos θ), div_le_iff₀ (by positivity)]
    have e3 : |sin ((q : ℝ) - θ)| ≤ |(q : ℝ) - θ| := by
      exact Real.abs_sin_le_abs
    refine e3.trans (e1.trans ?_)
    have e4 : 33 / 2 * v * tan θ * (cos q * cos θ) = 33 / 2 * v * (cos q * sin θ) := by
      rw [Real.tan_eq_sin_div_cos]; field_simp
    rw [e4]
    have e5 : 687 / 1000 * (634 / 1000 * θ) ≤ cos q * sin θ := mul_le_mul hcq hsθ' (by positivity) (by linarith)
    have e6 : 33 / 2 * v * (687 / 1000 * (634 / 1000 * θ)) ≤ 33 / 2 * v * (cos q * sin θ) := mul_le_mul_of_nonneg_left e5 (by positivity)
    refine le_trans ?_ e6
    have : 0 < v * θ := by positivity
    nlinarith
  -- `tan q` up to a factor
  have w1 : Within (33 * v) (tan (q : ℝ) / tan θ) := by
    have := within_of_near (d := 33 / 2 * v) (t := tan (q : ℝ) / tan θ) (by linarith) (by
      have e : tan (q : ℝ) / tan θ - 1 = (tan (q : ℝ) - tan θ) / tan θ := by field_simp
      rw [e, abs_div, abs_of_pos htθ, div_le_iff₀ htθ]
      exact hrel)
    convert this using 1
    ring
  obtain ⟨s, hs, e'⟩ := near_of_rel (u := tn q) (x := tan (q : ℝ)) (d := 2 * v) htq.ne' (by linarith) (by
    refine (htn q (by rw [abs_of_pos hq']; linarith)).trans (le_of_eq ?_)
    rw [hv]
    norm_num
    ring)
  rw [← hv]
  refine ⟨tan (q : ℝ) / tan θ * s, (w1.mul hs).mono (le_of_eq (by ring)), ?_⟩
  rw [e']
  field_simp

/-- Rounded quotient of a number that is off by `E` and a denominator that is off by a factor. -/
theorem quot_err {n d : ℚ} {N D E W : ℝ} (hn : |(n : ℝ) - N| ≤ E) (hN : |N| ≤ W) (hd : Near (81 * (1 / 2 ^ 52)) d D) (hD : 0 < D) :
    |(toDouble (n / d) : ℝ) - N / D| ≤ (102 / 100 * E + 84 * (1 / 2 ^ 52) * W) / D := by
  obtain ⟨v, hv⟩ : ∃ v : ℝ, v = 1 / 2 ^ 52 := ⟨_, rfl⟩
  have hv0 : 0 < v := by rw [hv]; positivity
  have hv1 : v ≤ 1 / 10 ^ 6 := by rw [hv]; norm_num
  have hE : 0 ≤ E := (abs_nonneg _).trans hn
  have hW : 0 ≤ W := (abs_nonneg _).trans hN
  obtain ⟨t, ht, e⟩ := hd
  rw [← hv] at ht ⊢
  have hi := ht.inv
  have h1 := hi.abs_sub_one.trans (exp_small (by positivity) (by linarith))
  have h2 : |t⁻¹| ≤ 101 / 100 := by
    have : t⁻¹ = 1 + (t⁻¹ - 1) := by ring
    rw [this]
    refine (abs_add_le _ _).trans ?_
    rw [abs_one]
    linarith
  have e1 : ((n / d : ℚ) : ℝ) - N / D = ((n - N) * t⁻¹ + N * (t⁻¹ - 1)) / D := by
    have := ht.pos.ne'
    push_cast
    rw [e]
    field_simp
    ring
  have e2 : |((n / d : ℚ) : ℝ) - N / D| ≤ (101 / 100 * E + 82 * v * W) / D := by
    rw [e1, abs_div, abs_of_pos hD]
    refine div_le_div_of_nonneg_right ?_ hD.le
    refine (abs_add_le _ _).trans (add_le_add ?_ ?_)
    · rw [abs_mul, mul_comm]
      exact mul_le_mul h2 hn (abs_nonneg _) (by norm_num)
    · rw [abs_mul, mul_comm]
      refine mul_le_mul (h1.trans ?_) hN (abs_nonneg _) (by positivity)
      linarith
  have e3 : |N / D| ≤ W / D := by
    rw [abs_div, abs_of_pos hD]
    exact div_le_div_of_nonneg_right hN hD.le
  refine (rnd_err (δ := v) (le_of_eq hv.symm) _ _ e2 e3).trans ?_
  have e4 : (101 / 100 * E + 82 * v * W) / D + v * (W / D + (101 / 100 * E + 82 * v * W) / D) =
    ((101 / 100 * E + 82 * v * W) + v * (W + (101 / 100 * E + 82 * v * W))) / D := by ring
  rw [e4]
  refine div_le_div_of_nonneg_right ?_ hD.le
  have : v * E ≤ 1 / 10 ^ 6 * E := mul_le_mul_of_nonneg_right hv1 hE
  have h5 : 0 ≤ v * W := by positivity
  have : v * (v * W) ≤ 1 / 10 ^ 6 * (v * W) := mul_le_mul_of_nonneg_right hv1 h5
  nlinarith

/-- The coefficients from the four quantities `a, b, c, d`. -/
theorem coeffs_close {aq bq cq dq : ℚ} {wS2 b c d : ℝ} (hb : 0 < b) (hc : 0 < c) (hd : 0 < d) (hw0 : 0 < wS2) (hw : wS2 ≤ d) (sS : ℚ)
    (nS : Near (80 * (1 / 2 ^ 52)) sS wS2) (nb : Near (46 * (1 / 2 ^ 52)) bq b) (nc : Near (3 * (1 / 2 ^ 52)) cq c)
    (nd : Near (80 * (1 / 2 ^ 52)) dq d) (ha : aq = toDouble (sS - dq)) (f : Biquad) (D : ℝ) (hD : D = b + c + d)
    (h0 : f.b0 * D = (wS2 - d) - b) (h1 : f.b1 * D = 2 * (wS2 - d)) (h2 : f.b2 * D = (wS2 - d) + b) (h3 : f.a1 * D = 2 * (d - c))
    (h4 : f.a2 * D = c + d - b) :
    toDouble (toDouble (bq + cq) + dq) ≠ 0 ∧
    CloseTo f ⟨toDouble (toDouble (aq - bq) / toDouble (toDouble (bq + cq) + dq)), toDouble (toDouble (2 * aq) / toDouble (toDouble (bq + cq) + dq)),
      toDouble (toDouble (aq + bq) / toDouble (toDouble (bq + cq) + dq)), toDouble (toDouble (2 * toDouble (dq - cq)) / toDouble (toDouble (bq + cq) + dq)),
      toDouble (toDouble (toDouble (cq + dq) - bq) / toDouble (toDouble (bq + cq) + dq))⟩ (350 * (1 / 2 ^ 52)) ((4 * d + 2 * b) / D) := by
  have hD0 : 0 < D := by rw [hD]; positivity
  have nD : Near (81 * (1 / 2 ^ 52)) (toDouble (toDouble (bq + cq) + dq)) D := by
    have n1 := near_toDouble (nc.add nb hc hb (by norm_num))
    have n2 := near_toDouble (n1.add nd (by positivity) hd (by norm_num))
    rw [add_comm cq bq] at n2
    refine Near.mono ?_ (show 80 * (1 / 2 ^ 52) + 1 / 2 ^ 52 ≤ 81 * (1 / 2 ^ 52) by norm_num)
    rw [hD]
    convert n2 using 1
    ring
  refine ⟨(nD.pos hD0).ne', ?_⟩
  generalize toDouble (toDouble (bq + cq) + dq) = Dq at nD ⊢
  have eS := nS.err (by positivity) (by norm_num)
  have eb := nb.err (by positivity) (by norm_num)
  have ec := nc.err (by positivity) (by norm_num)
  have ed := nd.err (by positivity) (by norm_num)
  rw [abs_of_pos hw0] at eS
  rw [abs_of_pos hb] at eb
  rw [abs_of_pos hc] at ec
  rw [abs_of_pos hd] at ed
  have q0 := fun (n : ℚ) (N E W : ℝ) (hn : |(n : ℝ) - N| ≤ E) (hN : |N| ≤ W) => quot_err hn hN nD hD0
  clear nS nb nc nd nD
  obtain ⟨v, hv⟩ : ∃ v : ℝ, v = 1 / 2 ^ 52 := ⟨_, rfl⟩
  have hv0 : 0 < v := by rw [hv]; positivity
  have hv1 : v ≤ 1 / 10 ^ 6 := by rw [hv]; norm_num
  have rr := fun (e W : ℝ) (s : ℚ) (w : ℝ) (h : |(s : ℝ) - w| ≤ e) (h' : |w| ≤ W) => rnd_err (δ := v) (le_of_eq hv.symm) s w h h'
  rw [← hv] at eS eb ec ed ⊢
  simp only [← hv] at q0
  have vd : 0 < v * d := by positivity
  have vb : 0 < v * b := by positivity
  have vc : 0 < v * c := by positivity
  have vvd : v * (v * d) ≤ 1 / 10 ^ 6 * (v * d) := mul_le_mul_of_nonneg_right hv1 vd.le
  have vvb : v * (v * b) ≤ 1 / 10 ^ 6 * (v * b) := mul_le_mul_of_nonneg_right hv1 vb.le
  have vvc : v * (v * c) ≤ 1 / 10 ^ 6 * (v * c) := mul_le_mul_of_nonneg_right hv1 vc.le
  have vS : v * wS2 ≤ v * d := mul_le_mul_of_nonneg_left hw hv0.le
  have ed' : |(dq : ℝ) - d| ≤ 81 * (v * d) := by linarith
  have eb' : |(bq : ℝ) - b| ≤ 47 * (v * b) := by linarith
  have ec' : |(cq : ℝ) - c| ≤ 4 * (v * c) := by linarith
  have eS' : |(sS : ℝ) - wS2| ≤ 81 * (v * d) := by linarith
  rw [abs_le] at ed' eb' ec' eS'
  have hA : |wS2 - d| ≤ d := by rw [abs_le]; constructor <;> linarith
  -- a
  have ea : |(aq : ℝ) - (wS2 - d)| ≤ 164 * (v * d) := by
    rw [ha]
    refine (rr (162 * (v * d)) d _ _ ?_ hA).trans ?_
    · push_cast; rw [abs_le]; constructor <;> linarith
    · linarith
  rw [abs_le] at ea hA
  have E1 : |(toDouble (aq - bq) : ℝ) - ((wS2 - d) - b)| ≤ 166 * (v * d) + 49 * (v * b) := by
    refine (rr (164 * (v * d) + 47 * (v * b)) (d + b) _ _ ?_ ?_).trans ?_
    · push_cast; rw [abs_le]; constructor <;> linarith
    · rw [abs_le]; constructor <;> linarith
    · linarith
  have E2 : |(toDouble (aq + bq) : ℝ) - ((wS2 - d) + b)| ≤ 166 * (v * d) + 49 * (v * b) := by
    refine (rr (164 * (v * d) + 47 * (v * b)) (d + b) _ _ ?_ ?_).trans ?_
    · push_cast; rw [abs_le]; constructor <;> linarith
    · rw [abs_le]; constructor <;> linarith
    · linarith
  have E3 : |(toDouble (2 * aq) : ℝ) - 2 * (wS2 - d)| ≤ 331 * (v * d) := by
    refine (rr (328 * (v * d)) (2 * d) _ _ ?_ ?_).trans ?_
    · push_cast; rw [abs_le]; constructor <;> linarith
    · rw [abs_le]; constructor <;> linarith
    · linarith
  have E4 : |(toDouble (dq - cq) : ℝ) - (d - c)| ≤ 83 * (v * d) + 6 * (v * c) := by
    refine (rr (81 * (v * d) + 4 * (v * c)) (d + c) _ _ ?_ ?_).trans ?_
    · push_cast; rw [abs_le]; constructor <;> linarith
    · rw [abs_le]; constructor <;> linarith
    · linarith
  rw [abs_le] at E4
  have E5 : |(toDouble (2 * toDouble (dq - cq)) : ℝ) - 2 * (d - c)| ≤ 169 * (v * d) + 15 * (v * c) := by
    refine (rr (166 * (v * d) + 12 * (v * c)) (2 * (d + c)) _ _ ?_ ?_).trans ?_
    · push_cast; rw [abs_le]; constructor <;> linarith
    · rw [abs_le]; constructor <;> linarith
    · linarith
  have E6 : |(toDouble (cq + dq) : ℝ) - (c + d)| ≤ 83 * (v * d) + 6 * (v * c) := by
    refine (rr (81 * (v * d) + 4 * (v * c)) (d + c) _ _ ?_ ?_).trans ?_
    · push_cast; rw [abs_le]; constructor <;> linarith
    · rw [abs_le]; constructor <;> linarith
    · linarith
  rw [abs_le] at E6
  have E7 : |(toDouble (toDouble (cq + dq) - bq) : ℝ) - (c + d - b)| ≤ 85 * (v * d) + 8 * (v * c) + 49 * (v * b) := by
    refine (rr (83 * (v * d) + 6 * (v * c) + 47 * (v * b)) (d + c + b) _ _ ?_ ?_).trans ?_
    · push_cast; rw [abs_le]; constructor <;> linarith
    · rw [abs_le]; constructor <;> linarith
    · linarith
  have c0 : f.b0 = ((wS2 - d) - b) / D := by rw [← h0]; field_simp
  have c1 : f.b1 = 2 * (wS2 - d) / D := by rw [← h1]; field_simp
  have c2 : f.b2 = ((wS2 - d) + b) / D := by rw [← h2]; field_simp
  have c3 : f.a1 = 2 * (d - c) / D := by rw [← h3]; field_simp
  have c4 : f.a2 = (c + d - b) / D := by rw [← h4]; field_simp
  refine ⟨by rw [← hv]; linarith, by linarith, ?_, ?_, ?_, ?_, ?_, ?_, ?_, ?_⟩
  · rw [c3, abs_div, abs_of_pos hD0, div_le_iff₀ hD0, hD, abs_le]; constructor <;> linarith
  · rw [c4, abs_div, abs_of_pos hD0, div_le_iff₀ hD0, hD, abs_le]; constructor <;> linarith
  · rw [c0, c1, c2, abs_div, abs_div, abs_div, abs_of_pos hD0, ← add_div, ← add_div]
    refine div_le_div_of_nonneg_right ?_ hD0.le
    have i1 : |wS2 - d - b| ≤ d + b := by rw [abs_le]; constructor <;> linarith
    have i2 : |wS2 - d + b| ≤ d + b := by rw [abs_le]; constructor <;> linarith
    have i3 : |2 * (wS2 - d)| ≤ 2 * d := by rw [abs_le]; constructor <;> linarith
    linarith
  · rw [c3]
    refine (q0 _ _ _ (2 * (d + c)) E5 (by rw [abs_le]; constructor <;> linarith)).trans ?_
    rw [div_le_iff₀ hD0, hD]
    linarith
  · rw [c4]
    refine (q0 _ _ _ (d + c + b) E7 (by rw [abs_le]; constructor <;> linarith)).trans ?_
    rw [div_le_iff₀ hD0, hD]
    linarith
  · rw [c0, mul_div_assoc']
    refine (q0 _ _ _ (d + b) E1 (by rw [abs_le]; constructor <;> linarith)).trans ?_
    refine div_le_div_of_nonneg_right ?_ hD0.le
    linarith
  · rw [c1, mul_div_assoc']
    refine (q0 _ _ _ (2 * d) E3 (by rw [abs_le]; constructor <;> linarith)).trans ?_
    refine div_le_div_of_nonneg_right ?_ hD0.le
    linarith
  · rw [c2, mul_div_assoc']
    refine (q0 _ _ _ (d + b) E2 (by rw [abs_le]; constructor <;> linarith)).trans ?_
    refine div_le_div_of_nonneg_right ?_ hD0.le
    linarith

end Shipgrav
