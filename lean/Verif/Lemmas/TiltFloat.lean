import Verif.Lemmas.FloatSum
import Verif.Lemmas.Tilt
import Verif.Model.TiltFloat

/-! The recursive filter in double precision stays near the exact one, however long the record. -/

namespace Shipgrav
open Spec

/-- Error of one rounding, over the reals. -/
theorem toDouble_err (z : ℚ) : |(toDouble z : ℝ) - z| ≤ 1 / 2 ^ 52 * |(z : ℝ)| := by
  have h := toDouble_rounds.rel z
  have h2 : ((|z - toDouble z| : ℚ) : ℝ) ≤ ((|z| / 2 ^ 53 : ℚ) : ℝ) := by exact_mod_cast h
  push_cast at h2
  rw [abs_sub_comm]
  refine h2.trans ?_
  rw [div_eq_inv_mul]
  exact mul_le_mul_of_nonneg_right (by norm_num) (abs_nonneg _)

/-- Rounding a number `s` near `w`. -/
theorem rnd_err {δ e W : ℝ} (hδ : 1 / 2 ^ 52 ≤ δ) (s : ℚ) (w : ℝ) (hs : |(s : ℝ) - w| ≤ e) (hw : |w| ≤ W) :
    |(toDouble s : ℝ) - w| ≤ e + δ * (W + e) := by
  have h1 := toDouble_err s
  have h2 : |(s : ℝ)| ≤ W + e := by
    have : (s : ℝ) = w + (s - w) := by ring
    rw [this]
    exact (abs_add_le _ _).trans (add_le_add hw hs)
  have h3 : 1 / 2 ^ 52 * |(s : ℝ)| ≤ δ * (W + e) := mul_le_mul hδ h2 (abs_nonneg _) (le_trans (by positivity) hδ)
  have h4 : (toDouble s : ℝ) - w = (s - w) + (toDouble s - s) := by ring
  rw [h4]
  exact (abs_add_le _ _).trans (add_le_add hs (h1.trans h3))

/-- A rounded product with a coefficient that is slightly wrong. -/
theorem prod_err {δ C X : ℝ} (hδ : 1 / 2 ^ 52 ≤ δ) (hδ1 : δ ≤ 1 / 1000) (x c' : ℚ) (c : ℝ) (hc : |(c' : ℝ) - c| ≤ δ * C) (hC : |c| ≤ C)
    (hx : |(x : ℝ)| ≤ X) : |(toDouble (x * c') : ℝ) - c * x| ≤ 201 / 100 * δ * (C * X) := by
  have hX : 0 ≤ X := (abs_nonneg _).trans hx
  have hC0 : 0 ≤ C := (abs_nonneg _).trans hC
  have hδ0 : 0 ≤ δ := le_trans (by positivity) hδ
  have h1 : |((x * c' : ℚ) : ℝ) - c * x| ≤ δ * (C * X) := by
    push_cast
    have e : (x : ℝ) * c' - c * x = (c' - c) * x := by ring
    rw [e, abs_mul]
    refine (mul_le_mul hc hx (abs_nonneg _) (by positivity)).trans (le_of_eq (by ring))
  have h2 : |c * x| ≤ C * X := by
    rw [abs_mul]; exact mul_le_mul hC hx (abs_nonneg _) hC0
  refine (rnd_err hδ _ _ h1 h2).trans ?_
  have h3 : 0 ≤ C * X := by positivity
  have h4 : 0 ≤ δ * (C * X) := by positivity
  have h5 : δ * (δ * (C * X)) ≤ 1 / 1000 * (δ * (C * X)) := mul_le_mul_of_nonneg_right hδ1 h4
  nlinarith

/-- Exact filter and double precision filter with coefficients close to each other. -/
structure CloseTo (f : Biquad) (g : BiquadF) (δ B : ℝ) : Prop where
  δ_lo : 1 / 2 ^ 52 ≤ δ
  δ_hi : δ ≤ 1 / 1000
  a1 : |f.a1| ≤ 2
  a2 : |f.a2| ≤ 1
  b : |f.b0| + |f.b1| + |f.b2| ≤ B
  a1' : |(g.a1 : ℝ) - f.a1| ≤ δ
  a2' : |(g.a2 : ℝ) - f.a2| ≤ δ
  b0' : |(g.b0 : ℝ) - f.b0| ≤ δ * B
  b1' : |(g.b1 : ℝ) - f.b1| ≤ δ * B
  b2' : |(g.b2 : ℝ) - f.b2| ≤ δ * B

/-- The state before sample `n`. -/
def stF (g : BiquadF) (x : ℕ → ℚ) : ℕ → ℚ × ℚ
  | 0 => (0, 0)
  | n + 1 =>
    let y := toDouble ((stF g x n).1 + toDouble (g.b0 * x n))
    (toDouble (toDouble ((stF g x n).2 + toDouble (x n * g.b1)) - toDouble (y * g.a1)), toDouble (toDouble (x n * g.b2) - toDouble (y * g.a2)))

/-- Sample `n` of the filtered record. -/
def outF (g : BiquadF) (x : ℕ → ℚ) (n : ℕ) : ℚ := toDouble ((stF g x n).1 + toDouble (g.b0 * x n))

theorem samples_succ' {α : Type} (x : ℕ → α) (k n : ℕ) :
    samples (fun i => x (k + i)) (n + 1) = x k :: samples (fun i => x (k + 1 + i)) n := by
  unfold samples
  rw [List.range_succ_eq_map, List.map_cons, List.map_map]
  simp only [Nat.add_zero, List.cons.injEq, true_and]
  apply List.map_congr_left
  intro i _
  simp only [Function.comp_apply, Nat.succ_eq_add_one]
  congr 1; omega

theorem lfilter2F_samples (g : BiquadF) (x : ℕ → ℚ) (n : ℕ) : lfilter2F g (samples x n) = samples (outF g x) n := by
  have hgo : ∀ n k, lfilterGoF g (stF g x k).1 (stF g x k).2 (samples (fun i => x (k + i)) n) = samples (fun i => outF g x (k + i)) n := by
    intro n
    induction n with
    | zero => intro k; rfl
    | succ n ih =>
      intro k
      rw [samples_succ' x, samples_succ' (outF g x)]
      unfold lfilterGoF
      simp only
      exact congrArg _ (ih (k + 1))
  have := hgo n 0
  simpa [lfilter2F, stF] using this

variable {f : Biquad} {g : BiquadF} {δ B : ℝ}

section
variable (h : CloseTo f g δ B) (x : ℕ → ℚ) (M Y : ℝ) (hM : ∀ n, |(x n : ℝ)| ≤ M) (hY : 0 ≤ Y)
include h hM hY

theorem st1_err (n : ℕ) (hy : |(outF g x n : ℝ)| ≤ Y) :
    |((stF g x (n + 1)).2 : ℝ) - (f.b2 * x n - f.a2 * outF g x n)| ≤ 4 * δ * (B * M + Y) ∧
      |((stF g x (n + 1)).2 : ℝ)| ≤ 101 / 100 * (B * M + Y) := by
  have hM0 : 0 ≤ M := (abs_nonneg _).trans (hM 0)
  have hB0 : 0 ≤ B := le_trans (by positivity) h.b
  have hδ0 : 0 ≤ δ := le_trans (by positivity) h.δ_lo
  have hBM : 0 ≤ B * M := by positivity
  have e1 := prod_err h.δ_lo h.δ_hi (x n) g.b2 f.b2 h.b2' (by linarith [h.b, abs_nonneg f.b0, abs_nonneg f.b1]) (hM n)
  have e2 := prod_err h.δ_lo h.δ_hi (outF g x n) g.a2 f.a2 (C := 1) (by simpa using h.a2') h.a2 hy
  have e3 : |((toDouble (x n * g.b2) - toDouble (outF g x n * g.a2) : ℚ) : ℝ) - (f.b2 * x n - f.a2 * outF g x n)| ≤
      201 / 100 * δ * (B * M + Y) := by
    push_cast
    have e : (toDouble (x n * g.b2) : ℝ) - toDouble (outF g x n * g.a2) - (f.b2 * x n - f.a2 * outF g x n) =
      (toDouble (x n * g.b2) - f.b2 * x n) - (toDouble (outF g x n * g.a2) - f.a2 * outF g x n) := by ring
    rw [e]
    refine (abs_sub _ _).trans ((add_le_add e1 e2).trans (le_of_eq (by ring)))
  have e4 : |f.b2 * x n - f.a2 * (outF g x n : ℝ)| ≤ B * M + Y := by
    refine (abs_sub _ _).trans (add_le_add ?_ ?_)
    · rw [abs_mul]
      exact mul_le_mul (by linarith [h.b, abs_nonneg f.b0, abs_nonneg f.b1]) (hM n) (abs_nonneg _) hB0
    · rw [abs_mul]
      calc _ ≤ 1 * Y := mul_le_mul h.a2 hy (abs_nonneg _) (by norm_num)
        _ = Y := one_mul _
  have e5 := rnd_err h.δ_lo _ _ e3 e4
  have hS : 0 ≤ B * M + Y := by positivity
  have hδS : 0 ≤ δ * (B * M + Y) := by positivity
  have h5 : δ * (δ * (B * M + Y)) ≤ 1 / 1000 * (δ * (B * M + Y)) := mul_le_mul_of_nonneg_right h.δ_hi hδS
  have h6 : δ * (B * M + Y) ≤ 1 / 1000 * (B * M + Y) := mul_le_mul_of_nonneg_right h.δ_hi hS
  have e6 : |((stF g x (n + 1)).2 : ℝ) - (f.b2 * x n - f.a2 * outF g x n)| ≤ 4 * δ * (B * M + Y) := by
    refine e5.trans ?_
    nlinarith
  refine ⟨e6, ?_⟩
  have e7 : ((stF g x (n + 1)).2 : ℝ) = (((stF g x (n + 1)).2 : ℝ) - (f.b2 * x n - f.a2 * outF g x n)) + (f.b2 * x n - f.a2 * outF g x n) := by ring
  rw [e7]
  refine (abs_add_le _ _).trans ((add_le_add e6 e4).trans ?_)
  nlinarith

theorem st0_err (n : ℕ) (hy : |(outF g x n : ℝ)| ≤ Y) (hz : |((stF g x n).2 : ℝ)| ≤ 101 / 100 * (B * M + Y)) :
    |((stF g x (n + 1)).1 : ℝ) - (f.b1 * x n - f.a1 * outF g x n + (stF g x n).2)| ≤ 12 * δ * (B * M + Y) ∧
      |((stF g x (n + 1)).1 : ℝ)| ≤ 5 * (B * M + Y) := by
  have hM0 : 0 ≤ M := (abs_nonneg _).trans (hM 0)
  have hB0 : 0 ≤ B := le_trans (by positivity) h.b
  have hδ0 : 0 ≤ δ := le_trans (by positivity) h.δ_lo
  have hBM : 0 ≤ B * M := by positivity
  have hS : 0 ≤ B * M + Y := by positivity
  have hδS : 0 ≤ δ * (B * M + Y) := by positivity
  have h5 : δ * (δ * (B * M + Y)) ≤ 1 / 1000 * (δ * (B * M + Y)) := mul_le_mul_of_nonneg_right h.δ_hi hδS
  have h6 : δ * (B * M + Y) ≤ 1 / 1000 * (B * M + Y) := mul_le_mul_of_nonneg_right h.δ_hi hS
  have hδBM : δ * (B * M) ≤ δ * (B * M + Y) := mul_le_mul_of_nonneg_left (by linarith) hδ0
  have hδY : δ * Y ≤ δ * (B * M + Y) := mul_le_mul_of_nonneg_left (by linarith) hδ0
  have hb1 : |f.b1| ≤ B := by linarith [h.b, abs_nonneg f.b0, abs_nonneg f.b2]
  have e1 := prod_err h.δ_lo h.δ_hi (x n) g.b1 f.b1 h.b1' hb1 (hM n)
  have e2 := prod_err h.δ_lo h.δ_hi (outF g x n) g.a1 f.a1 (C := 2) (by linarith [h.a1']) h.a1 hy
  have q1 : |f.b1 * (x n : ℝ)| ≤ B * M := by
    rw [abs_mul]
    exact mul_le_mul hb1 (hM n) (abs_nonneg _) hB0
  have q2 : |f.a1 * (outF g x n : ℝ)| ≤ 2 * Y := by
    rw [abs_mul]
    exact mul_le_mul h.a1 hy (abs_nonneg _) (by norm_num)
  have e3 : |(((stF g x n).2 + toDouble (x n * g.b1) : ℚ) : ℝ) - (f.b1 * x n + (stF g x n).2)| ≤ 201 / 100 * δ * (B * M + Y) := by
    push_cast
    have e : ((stF g x n).2 : ℝ) + toDouble (x n * g.b1) - (f.b1 * x n + (stF g x n).2) = toDouble (x n * g.b1) - f.b1 * x n := by ring
    rw [e]
    refine e1.trans ?_
    nlinarith
  have e4 : |f.b1 * x n + ((stF g x n).2 : ℝ)| ≤ 201 / 100 * (B * M + Y) := by
    refine (abs_add_le _ _).trans ?_
    linarith
  have e5 := rnd_err h.δ_lo _ _ e3 e4
  have e6 : |((toDouble ((stF g x n).2 + toDouble (x n * g.b1)) - toDouble (outF g x n * g.a1) : ℚ) : ℝ) -
      (f.b1 * x n - f.a1 * outF g x n + (stF g x n).2)| ≤ 81 / 10 * δ * (B * M + Y) := by
    push_cast
    have e : (toDouble ((stF g x n).2 + toDouble (x n * g.b1)) : ℝ) - toDouble (outF g x n * g.a1) -
      (f.b1 * x n - f.a1 * outF g x n + (stF g x n).2) =
      (toDouble ((stF g x n).2 + toDouble (x n * g.b1)) - (f.b1 * x n + (stF g x n).2)) - (toDouble (outF g x n * g.a1) - f.a1 * outF g x n) := by ring
    rw [e]
    refine (abs_sub _ _).trans ((add_le_add e5 e2).trans ?_)
    nlinarith
  have e7 : |f.b1 * x n - f.a1 * outF g x n + ((stF g x n).2 : ℝ)| ≤ 35 / 10 * (B * M + Y) := by
    have e : f.b1 * x n - f.a1 * outF g x n + ((stF g x n).2 : ℝ) = (f.b1 * x n + (stF g x n).2) - f.a1 * outF g x n := by ring
    rw [e]
    refine (abs_sub _ _).trans ?_
    have : |f.b1 * x n + ((stF g x n).2 : ℝ)| ≤ B * M + 101 / 100 * (B * M + Y) := (abs_add_le _ _).trans (add_le_add q1 hz)
    linarith
  have e8 := rnd_err h.δ_lo _ _ e6 e7
  have e9 : |((stF g x (n + 1)).1 : ℝ) - (f.b1 * x n - f.a1 * outF g x n + (stF g x n).2)| ≤ 12 * δ * (B * M + Y) := by
    refine e8.trans ?_
    nlinarith
  refine ⟨e9, ?_⟩
  have e10 : ((stF g x (n + 1)).1 : ℝ) = (((stF g x (n + 1)).1 : ℝ) - (f.b1 * x n - f.a1 * outF g x n + (stF g x n).2)) +
    (f.b1 * x n - f.a1 * outF g x n + (stF g x n).2) := by ring
  rw [e10]
  refine (abs_add_le _ _).trans ((add_le_add e9 e7).trans ?_)
  nlinarith

theorem out_err (n : ℕ) (hz : |((stF g x n).1 : ℝ)| ≤ 5 * (B * M + Y)) :
    |(outF g x n : ℝ) - (f.b0 * x n + (stF g x n).1)| ≤ 9 * δ * (B * M + Y) := by
  have hM0 : 0 ≤ M := (abs_nonneg _).trans (hM 0)
  have hB0 : 0 ≤ B := le_trans (by positivity) h.b
  have hδ0 : 0 ≤ δ := le_trans (by positivity) h.δ_lo
  have hBM : 0 ≤ B * M := by positivity
  have hS : 0 ≤ B * M + Y := by positivity
  have hδS : 0 ≤ δ * (B * M + Y) := by positivity
  have h5 : δ * (δ * (B * M + Y)) ≤ 1 / 1000 * (δ * (B * M + Y)) := mul_le_mul_of_nonneg_right h.δ_hi hδS
  have hδBM : δ * (B * M) ≤ δ * (B * M + Y) := mul_le_mul_of_nonneg_left (by linarith) hδ0
  have hb0 : |f.b0| ≤ B := by linarith [h.b, abs_nonneg f.b1, abs_nonneg f.b2]
  have e1 := prod_err h.δ_lo h.δ_hi (x n) g.b0 f.b0 h.b0' hb0 (hM n)
  rw [mul_comm (x n)] at e1
  have q1 : |f.b0 * (x n : ℝ)| ≤ B * M := by
    rw [abs_mul]
    exact mul_le_mul hb0 (hM n) (abs_nonneg _) hB0
  have e3 : |(((stF g x n).1 + toDouble (g.b0 * x n) : ℚ) : ℝ) - (f.b0 * x n + (stF g x n).1)| ≤ 201 / 100 * δ * (B * M + Y) := by
    push_cast
    have e : ((stF g x n).1 : ℝ) + toDouble (g.b0 * x n) - (f.b0 * x n + (stF g x n).1) = toDouble (g.b0 * x n) - f.b0 * x n := by ring
    rw [e]
    refine e1.trans ?_
    nlinarith
  have e4 : |f.b0 * x n + ((stF g x n).1 : ℝ)| ≤ 6 * (B * M + Y) := by
    refine (abs_add_le _ _).trans ?_
    linarith
  refine (rnd_err h.δ_lo _ _ e3 e4).trans ?_
  nlinarith

/-- The residual of the exact difference equation: one step of rounding and of wrong coefficients. -/
theorem residual (n : ℕ) (hy : ∀ k < n, |(outF g x k : ℝ)| ≤ Y) :
    |(outF g x n : ℝ) - (f.b0 * x n + (if 1 ≤ n then f.b1 * x (n - 1) - f.a1 * outF g x (n - 1) else 0) +
      (if 2 ≤ n then f.b2 * x (n - 2) - f.a2 * outF g x (n - 2) else 0))| ≤ 25 * δ * (B * M + Y) := by
  have hM0 : 0 ≤ M := (abs_nonneg _).trans (hM 0)
  have hB0 : 0 ≤ B := le_trans (by positivity) h.b
  have hδ0 : 0 ≤ δ := le_trans (by positivity) h.δ_lo
  have hS : 0 ≤ B * M + Y := by positivity
  have hδS : 0 ≤ δ * (B * M + Y) := by positivity
  match n with
  | 0 =>
    have := out_err h x M Y hM hY 0 (by simp [stF]; positivity)
    simp only [stF] at this
    simp only [show ¬ (1 ≤ 0) by decide, show ¬ (2 ≤ 0) by decide, if_false, add_zero]
    push_cast at this
    rw [add_zero] at this
    nlinarith
  | 1 =>
    have z := st0_err h x M Y hM hY 0 (hy 0 (by omega)) (by simp [stF]; positivity)
    have o := out_err h x M Y hM hY 1 z.2
    simp only [show 1 ≤ 1 by decide, show ¬ (2 ≤ 1) by decide, if_false, if_true, add_zero, Nat.sub_self]
    have z1 := z.1
    have : ((stF g x 0).2 : ℝ) = 0 := by simp [stF]
    rw [this, add_zero, zero_add] at z1
    have e : (outF g x 1 : ℝ) - (f.b0 * x 1 + (f.b1 * x 0 - f.a1 * outF g x 0)) =
      (outF g x 1 - (f.b0 * x 1 + (stF g x 1).1)) + ((stF g x 1).1 - (f.b1 * x 0 - f.a1 * outF g x 0)) := by ring
    rw [e]
    refine (abs_add_le _ _).trans ((add_le_add o z1).trans ?_)
    nlinarith
  | n + 2 =>
    have s := st1_err h x M Y hM hY n (hy n (by omega))
    have z := st0_err h x M Y hM hY (n + 1) (hy (n + 1) (by omega)) s.2
    have o := out_err h x M Y hM hY (n + 2) z.2
    simp only [show 1 ≤ n + 2 by omega, show 2 ≤ n + 2 by omega, if_true, Nat.add_sub_cancel, show n + 2 - 1 = n + 1 by omega]
    have e : (outF g x (n + 2) : ℝ) - (f.b0 * x (n + 2) + (f.b1 * x (n + 1) - f.a1 * outF g x (n + 1)) + (f.b2 * x n - f.a2 * outF g x n)) =
      (outF g x (n + 2) - (f.b0 * x (n + 2) + (stF g x (n + 2)).1)) +
      (((stF g x (n + 2)).1 - (f.b1 * x (n + 1) - f.a1 * outF g x (n + 1) + (stF g x (n + 1)).2)) +
       ((stF g x (n + 1)).2 - (f.b2 * x n - f.a2 * outF g x n))) := by ring
    rw [e]
    refine (abs_add_le _ _).trans ((add_le_add o ((abs_add_le _ _).trans (add_le_add z.1 s.1))).trans ?_)
    nlinarith

end

/-- The filter in double precision differs from the exact one by a bounded amount, for all samples. -/
theorem filter_error (h : CloseTo f g δ B) (p q : ℂ) (h1 : p + q = -f.a1) (h2 : p * q = f.a2) (hp : ‖p‖ < 1) (hq : ‖q‖ < 1) (G : ℝ)
    (hG : 1 / (1 - ‖q‖) / (1 - ‖p‖) ≤ G) (hsmall : 75 * δ * G ≤ 1) (x : ℕ → ℚ) (M : ℝ) (hM : ∀ n, |(x n : ℝ)| ≤ M) (n : ℕ) :
    |(outF g x n : ℝ) - answer f (fun i => (x i : ℝ)) n| ≤ 75 * δ * G ^ 2 * (B * M) := by
  have hM0 : 0 ≤ M := (abs_nonneg _).trans (hM 0)
  have hB0 : 0 ≤ B := le_trans (by positivity) h.b
  have hδ0 : 0 ≤ δ := le_trans (by positivity) h.δ_lo
  have hBM : 0 ≤ B * M := by positivity
  have hq1 : 0 < 1 - ‖q‖ := by linarith
  have hp1 : 0 < 1 - ‖p‖ := by linarith
  have hG1 : 1 ≤ G := by
    refine le_trans ?_ hG
    rw [div_div, le_div_iff₀ (by positivity)]
    nlinarith [norm_nonneg p, norm_nonneg q]
  have hG0 : 0 < G := by linarith
  have hgain : ∀ U : ℝ, 0 ≤ U → U / (1 - ‖q‖) / (1 - ‖p‖) ≤ G * U := by
    intro U hU
    have : U / (1 - ‖q‖) / (1 - ‖p‖) = 1 / (1 - ‖q‖) / (1 - ‖p‖) * U := by field_simp
    rw [this]
    exact mul_le_mul_of_nonneg_right hG hU
  obtain ⟨y, hy⟩ : ∃ y, y = answer f (fun i => (x i : ℝ)) := ⟨_, rfl⟩
  obtain ⟨y0, y1, y2⟩ : Answers f.b0 f.b1 f.b2 f.a1 f.a2 (fun i => (x i : ℝ)) y := hy ▸ answer_answers f _
  rw [← hy]
  -- the exact answer is bounded
  have hyb : ∀ n, |y n| ≤ G * (B * M) := by
    intro n
    have hb : ∀ (c : ℝ) n, |c * (x n : ℝ)| ≤ |c| * M := fun c n => by
      rw [abs_mul]; exact mul_le_mul_of_nonneg_left (hM n) (abs_nonneg _)
    have hs : (|f.b0| + |f.b1| + |f.b2|) * M ≤ B * M := mul_le_mul_of_nonneg_right h.b hM0
    have := abs_nonneg f.b0
    have := abs_nonneg f.b1
    have := abs_nonneg f.b2
    refine (second_order_bound f.a1 f.a2 p q h1 h2 hp hq
      (fun n => f.b0 * x n + (if 1 ≤ n then f.b1 * x (n - 1) else 0) + (if 2 ≤ n then f.b2 * x (n - 2) else 0)) y (B * M) ?_ ?_ ?_ ?_ n).trans
      (hgain _ hBM)
    · intro n
      refine (abs_add_le _ _).trans ((add_le_add ((abs_add_le _ _).trans (add_le_add (hb f.b0 n) ?_)) ?_).trans
        ((le_of_eq (show |f.b0| * M + |f.b1| * M + |f.b2| * M = (|f.b0| + |f.b1| + |f.b2|) * M by ring)).trans hs))
      · split
        · exact hb _ _
        · simp; positivity
      · split
        · exact hb _ _
        · simp; positivity
    · simp [y0]
    · simp [y1]
    · intro n
      simp only [show 1 ≤ n + 2 by omega, show 2 ≤ n + 2 by omega, if_true, Nat.add_sub_cancel, show n + 2 - 1 = n + 1 by omega]
      rw [y2]
  obtain ⟨e, he⟩ : ∃ e : ℕ → ℝ, e = fun n => (outF g x n : ℝ) - y n := ⟨_, rfl⟩
  obtain ⟨ρ, hρ⟩ : ∃ ρ : ℕ → ℝ, ρ = fun n => (outF g x n : ℝ) - (f.b0 * x n + (if 1 ≤ n then f.b1 * x (n - 1) - f.a1 * outF g x (n - 1) else 0) +
      (if 2 ≤ n then f.b2 * x (n - 2) - f.a2 * outF g x (n - 2) else 0)) := ⟨_, rfl⟩
  have e0 : e 0 = ρ 0 := by rw [he, hρ]; simp [y0]
  have e1 : e 1 = ρ 1 - f.a1 * e 0 := by rw [he, hρ]; simp [y1]; ring
  have e2 : ∀ n, e (n + 2) = ρ (n + 2) - f.a1 * e (n + 1) - f.a2 * e n := by
    intro n
    rw [he, hρ]
    simp only [show 1 ≤ n + 2 by omega, show 2 ≤ n + 2 by omega, if_true, Nat.add_sub_cancel, show n + 2 - 1 = n + 1 by omega, y2]
    ring
  obtain ⟨R, hR⟩ : ∃ R, R = 75 * δ * G * (B * M) := ⟨_, rfl⟩
  have hR0 : 0 ≤ R := by rw [hR]; positivity
  have hRBM : R ≤ B * M := by
    rw [hR]
    calc _ ≤ 1 * (B * M) := mul_le_mul_of_nonneg_right hsmall hBM
      _ = B * M := one_mul _
  have bound : ∀ n, (∀ k < n, |ρ k| ≤ R) → ∀ k < n, |e k| ≤ G * R := by
    intro n hn k hk
    obtain ⟨ρ', hρ'⟩ : ∃ ρ' : ℕ → ℝ, ρ' = fun k => if k < n then ρ k else 0 := ⟨_, rfl⟩
    obtain ⟨e', he'⟩ : ∃ e', e' = answer ⟨1, 0, 0, f.a1, f.a2⟩ ρ' := ⟨_, rfl⟩
    obtain ⟨a0, a1, a2⟩ : Answers 1 0 0 f.a1 f.a2 ρ' e' := he' ▸ answer_answers ⟨1, 0, 0, f.a1, f.a2⟩ _
    simp only [one_mul, zero_mul, add_zero] at a0 a1 a2
    have hb := second_order_bound f.a1 f.a2 p q h1 h2 hp hq ρ' e' R
      (by intro k; rw [hρ']; simp only; split
          · exact hn k ‹_›
          · simpa using hR0) a0 a1 a2 k
    have heq : ∀ k, (k < n → e' k = e k) ∧ (k + 1 < n → e' (k + 1) = e (k + 1)) := by
      have hr : ∀ k, k < n → ρ' k = ρ k := by
        intro k hk; rw [hρ']; simp [hk]
      intro k
      induction k with
      | zero =>
        refine ⟨fun hk => by rw [a0, e0, hr 0 hk], fun hk => ?_⟩
        rw [zero_add, a1, e1, hr 1 hk, a0, e0, hr 0 (by omega)]
      | succ k ih =>
        refine ⟨ih.2, fun hk => ?_⟩
        rw [a2, e2, hr (k + 2) hk, ih.1 (by omega), ih.2 (by omega)]
    rw [← (heq k).1 hk]
    exact hb.trans (hgain R hR0)
  have hρb : ∀ n, ∀ k < n, |ρ k| ≤ R := by
    intro n
    induction n with
    | zero => intro k hk; omega
    | succ n ih =>
      intro k hk
      rcases Nat.lt_succ_iff_lt_or_eq.1 hk with hk | rfl
      · exact ih k hk
      have hY : ∀ j < k, |(outF g x j : ℝ)| ≤ 2 * G * (B * M) := by
        intro j hj
        have b1 := bound k ih j hj
        have b2 := hyb j
        have : (outF g x j : ℝ) = e j + y j := by rw [he]; simp
        rw [this]
        have : G * R ≤ G * (B * M) := mul_le_mul_of_nonneg_left hRBM hG0.le
        refine (abs_add_le _ _).trans ?_
        linarith
      have := residual h x M (2 * G * (B * M)) hM (by positivity) k hY
      rw [hρ]
      refine this.trans ?_
      rw [hR]
      have h3 : B * M ≤ G * (B * M) := by nlinarith
      have h4 : 25 * δ * (B * M + 2 * G * (B * M)) ≤ 25 * δ * (G * (B * M) + 2 * G * (B * M)) :=
        mul_le_mul_of_nonneg_left (by linarith) (by positivity)
      refine h4.trans (le_of_eq (by ring))
  have := bound (n + 1) (hρb (n + 1)) n (by omega)
  rw [he, hR] at this
  refine this.trans (le_of_eq (by ring))

end Shipgrav
