import Verif.Model.Tilt
import Verif.Spec.Tilt
import Verif.Spec.Nav
import Mathlib.Analysis.Real.Pi.Bounds
import Mathlib.Analysis.SpecificLimits.Normed
import Mathlib.Analysis.Complex.Polynomial.Basic
import Mathlib.FieldTheory.IsAlgClosed.Basic
import Mathlib.Tactic.FieldSimp
import Mathlib.Tactic.Positivity

/-! Helper lemmas for the tilt filter. -/

namespace Shipgrav
open Spec Real

/-- Roots of the bilinear denominator lie inside the unit circle. -/
theorem roots_inside (b c d : ℝ) (hb : 0 < b) (hc : 0 < c) (hd : 0 < d) (z : ℂ)
    (hz : (c + b + d : ℂ) * z ^ 2 + 2 * (d - c) * z + (c - b + d) = 0) : ‖z‖ < 1 := by
  obtain ⟨x, y⟩ := z
  have hre := congrArg Complex.re hz
  have him := congrArg Complex.im hz
  simp [pow_two] at hre him
  have key : x ^ 2 + y ^ 2 < 1 := by
    by_cases hy : y = 0
    · subst hy
      by_contra hge
      have h1 : 1 ≤ x ^ 2 := by nlinarith
      have h2 : c * (x - 1) ^ 2 + b * (x ^ 2 - 1) + d * (x + 1) ^ 2 = 0 := by linear_combination hre
      have h3 : 0 ≤ b * (x ^ 2 - 1) := mul_nonneg hb.le (by linarith)
      have h4 : 0 ≤ c * (x - 1) ^ 2 := by positivity
      have h5 : 0 ≤ d * (x + 1) ^ 2 := by positivity
      have h6 : (x - 1) ^ 2 = 0 := by
        have : c * (x - 1) ^ 2 = 0 := by linarith
        exact (mul_eq_zero.mp this).resolve_left hc.ne'
      have h7 : (x + 1) ^ 2 = 0 := by
        have : d * (x + 1) ^ 2 = 0 := by linarith
        exact (mul_eq_zero.mp this).resolve_left hd.ne'
      nlinarith
    · have hx : (c + b + d) * x + (d - c) = 0 := by
        have : y * ((c + b + d) * x + (d - c)) = 0 := by linear_combination him / 2
        exact (mul_eq_zero.mp this).resolve_left hy
      have hA : 0 < c + b + d := by positivity
      have h1 : (c + b + d) * (x ^ 2 + y ^ 2) = c - b + d := by linear_combination (2 * x) * hx - hre
      nlinarith
  have : ‖(⟨x, y⟩ : ℂ)‖ ^ 2 < 1 := by
    rw [Complex.sq_norm, Complex.normSq_apply]
    simp only
    nlinarith
  nlinarith [norm_nonneg (⟨x, y⟩ : ℂ)]

/-- A monic quadratic over the complex numbers splits. -/
theorem quad_splits (a1 a2 : ℝ) : ∃ p q : ℂ, p + q = -a1 ∧ p * q = a2 := by
  obtain ⟨s, hs⟩ := IsAlgClosed.exists_pow_nat_eq ((a1 : ℂ) ^ 2 - 4 * a2) (n := 2) (by norm_num)
  exact ⟨(-a1 + s) / 2, (-a1 - s) / 2, by ring, by linear_combination -hs / 4⟩

theorem quad_root (a1 a2 : ℝ) (p q : ℂ) (h1 : p + q = -a1) (h2 : p * q = a2) :
    p ^ 2 + a1 * p + a2 = 0 ∧ q ^ 2 + a1 * q + a2 = 0 := by
  have : (a1 : ℂ) = -(p + q) := by rw [h1]; ring
  rw [this, ← h2]
  exact ⟨by ring, by ring⟩

/-- First-order recursion with a contracting coefficient stays bounded. -/
theorem first_order_bound (p : ℂ) (hp : ‖p‖ < 1) (v y : ℕ → ℂ) (V : ℝ) (h0 : ‖y 0‖ ≤ V) (hv : ∀ n, ‖v n‖ ≤ V)
    (hrec : ∀ n, y (n + 1) = v n + p * y n) (n : ℕ) : ‖y n‖ ≤ V / (1 - ‖p‖) := by
  have hpos : 0 < 1 - ‖p‖ := by linarith
  have hV : 0 ≤ V := (norm_nonneg _).trans h0
  induction n with
  | zero =>
    refine h0.trans ?_
    rw [le_div_iff₀ hpos]
    nlinarith [norm_nonneg p]
  | succ n ih =>
    rw [hrec]
    calc ‖v n + p * y n‖ ≤ ‖v n‖ + ‖p‖ * ‖y n‖ := by rw [← norm_mul]; exact norm_add_le _ _
      _ ≤ V + ‖p‖ * (V / (1 - ‖p‖)) := add_le_add (hv n) (mul_le_mul_of_nonneg_left ih (norm_nonneg p))
      _ = V / (1 - ‖p‖) := by field_simp; ring

/-- Second-order recursion with both roots inside the unit circle stays bounded. -/
theorem second_order_bound (a1 a2 : ℝ) (p q : ℂ) (h1 : p + q = -a1) (h2 : p * q = a2) (hp : ‖p‖ < 1) (hq : ‖q‖ < 1)
    (u y : ℕ → ℝ) (U : ℝ) (hu : ∀ n, |u n| ≤ U) (hy0 : y 0 = u 0) (hy1 : y 1 = u 1 - a1 * y 0)
    (hrec : ∀ n, y (n + 2) = u (n + 2) - a1 * y (n + 1) - a2 * y n) (n : ℕ) :
    |y n| ≤ U / (1 - ‖q‖) / (1 - ‖p‖) := by
  have hpos : 0 < 1 - ‖q‖ := by linarith
  have hU : 0 ≤ U := (abs_nonneg _).trans (hu 0)
  have hun : ∀ n, ‖(u n : ℂ)‖ ≤ U := fun n => by rw [Complex.norm_real]; exact hu n
  have ha1 : (a1 : ℂ) = -(p + q) := by rw [h1]; ring
  have hv : ∀ n, ‖(y (n + 1) : ℂ) - p * y n‖ ≤ U / (1 - ‖q‖) := by
    intro n
    have := first_order_bound q hq (fun n => (u (n + 1) : ℂ))
      (fun n => match n with | 0 => (y 0 : ℂ) | n + 1 => (y (n + 1) : ℂ) - p * y n) U
      (by simpa [hy0] using hun 0) (fun n => hun _) (fun n => ?_) (n + 1)
    · exact this
    · cases n with
      | zero =>
        simp only [hy1]
        push_cast
        rw [ha1]; ring
      | succ n =>
        simp only [hrec]
        push_cast
        rw [ha1, ← h2]; ring
  have hle : U ≤ U / (1 - ‖q‖) := by
    rw [le_div_iff₀ hpos]
    nlinarith [norm_nonneg q]
  have := first_order_bound p hp (fun n => (y (n + 1) : ℂ) - p * y n) (fun n => (y n : ℂ)) (U / (1 - ‖q‖))
    (by rw [hy0]; exact (hun 0).trans hle) hv (fun n => by ring) n
  rwa [Complex.norm_real] at this

/-- Contracting first-order recursion driven by a geometric sequence. -/
theorem second_order_decay (a1 a2 : ℝ) (p q : ℂ) (h1 : p + q = -a1) (h2 : p * q = a2) (hp : ‖p‖ < 1) (hq : ‖q‖ < 1)
    (e : ℕ → ℝ) (hrec : ∀ n, e (n + 2) = -a1 * e (n + 1) - a2 * e n) : Filter.Tendsto e Filter.atTop (nhds 0) := by
  have ha1 : (a1 : ℂ) = -(p + q) := by rw [h1]; ring
  obtain ⟨r, hr0, hr1, hpr, hqr⟩ : ∃ r : ℝ, 0 < r ∧ r < 1 ∧ ‖p‖ ≤ r ∧ ‖q‖ ≤ r := by
    refine ⟨max (max ‖p‖ ‖q‖) (1 / 2), ?_, ?_, ?_, ?_⟩
    · exact lt_of_lt_of_le (by norm_num) (le_max_right _ _)
    · simp only [max_lt_iff]; exact ⟨⟨hp, hq⟩, by norm_num⟩
    · exact (le_max_left _ _).trans (le_max_left _ _)
    · exact (le_max_right _ _).trans (le_max_left _ _)
  obtain ⟨V, hV⟩ : ∃ V : ℝ, V = ‖(e 1 : ℂ) - p * e 0‖ := ⟨_, rfl⟩
  have hV0 : 0 ≤ V := hV ▸ norm_nonneg _
  have hv : ∀ n, ‖(e (n + 1) : ℂ) - p * e n‖ ≤ V * r ^ n := by
    intro n
    induction n with
    | zero => simp [hV]
    | succ n ih =>
      have : (e (n + 1 + 1) : ℂ) - p * e (n + 1) = q * ((e (n + 1) : ℂ) - p * e n) := by
        rw [hrec]; push_cast; rw [ha1, ← h2]; ring
      rw [this, norm_mul, pow_succ]
      calc ‖q‖ * ‖(e (n + 1) : ℂ) - p * e n‖ ≤ r * (V * r ^ n) := mul_le_mul hqr ih (norm_nonneg _) hr0.le
        _ = V * (r ^ n * r) := by ring
  have hb : ∀ n, |e n| ≤ (|e 0| + V * n / r) * r ^ n := by
    intro n
    induction n with
    | zero => simp
    | succ n ih =>
      have h3 : |e (n + 1)| ≤ ‖(e (n + 1) : ℂ) - p * e n‖ + ‖p‖ * |e n| := by
        have : (e (n + 1) : ℂ) = ((e (n + 1) : ℂ) - p * e n) + p * e n := by ring
        calc |e (n + 1)| = ‖(e (n + 1) : ℂ)‖ := by rw [Complex.norm_real]; rfl
          _ = ‖((e (n + 1) : ℂ) - p * e n) + p * e n‖ := by rw [← this]
          _ ≤ _ := by
            refine (norm_add_le _ _).trans ?_
            rw [norm_mul p, Complex.norm_real]; rfl
      calc |e (n + 1)| ≤ V * r ^ n + r * ((|e 0| + V * n / r) * r ^ n) :=
            h3.trans (add_le_add (hv n) (mul_le_mul hpr ih (abs_nonneg _) hr0.le))
        _ = (|e 0| + V * ((n + 1 : ℕ) : ℝ) / r) * r ^ (n + 1) := by
            push_cast; field_simp; ring
  have ht : Filter.Tendsto (fun n : ℕ => (|e 0| + V * n / r) * r ^ n) Filter.atTop (nhds 0) := by
    have t1 := (tendsto_pow_atTop_nhds_zero_of_lt_one hr0.le hr1).const_mul |e 0|
    have t2 := (tendsto_self_mul_const_pow_of_lt_one hr0.le hr1).const_mul (V / r)
    have := t1.add t2
    simp only [mul_zero, add_zero] at this
    refine this.congr (fun n => ?_)
    ring
  exact squeeze_zero_norm (fun n => by rw [Real.norm_eq_abs]; exact hb n) ht

/-- State of the filter before sample `k`. -/
private noncomputable def st1 (f : Biquad) (x y : ℕ → ℝ) : ℕ → ℝ
  | 0 => 0
  | k + 1 => f.b2 * x k - f.a2 * y k

private noncomputable def st0 (f : Biquad) (x y : ℕ → ℝ) : ℕ → ℝ
  | 0 => 0
  | k + 1 => f.b1 * x k - f.a1 * y k + st1 f x y k

private theorem samples_cons {α : Type} (x : ℕ → α) (k n : ℕ) :
    samples (fun i => x (k + i)) (n + 1) = x k :: samples (fun i => x (k + 1 + i)) n := by
  unfold samples
  rw [List.range_succ_eq_map, List.map_cons, List.map_map]
  simp only [Nat.add_zero, List.cons.injEq, true_and]
  apply List.map_congr_left
  intro i _
  simp only [Function.comp_apply, Nat.succ_eq_add_one]
  congr 1; omega

theorem lfilter2_samples (f : Biquad) (x y : ℕ → ℝ) (h : Answers f.b0 f.b1 f.b2 f.a1 f.a2 x y) (n : ℕ) :
    lfilter2 f (samples x n) = samples y n := by
  have hy : ∀ k, y k = f.b0 * x k + st0 f x y k := by
    intro k
    match k with
    | 0 => simp [st0, h.1]
    | 1 => rw [h.2.1]; simp only [st0, st1]; ring
    | k + 2 => rw [h.2.2]; simp only [st0, st1]; ring
  have hgo : ∀ n k, lfilterGo f (st0 f x y k) (st1 f x y k) (samples (fun i => x (k + i)) n) = samples (fun i => y (k + i)) n := by
    intro n
    induction n with
    | zero => intro k; rfl
    | succ n ih =>
      intro k
      rw [samples_cons x, samples_cons y]
      unfold lfilterGo
      simp only
      rw [← hy k]
      exact congrArg _ (ih (k + 1))
  have := hgo n 0
  simpa [lfilter2, st0, st1] using this

/-- The answer to a drive. -/
noncomputable def answer (f : Biquad) (x : ℕ → ℝ) : ℕ → ℝ
  | 0 => f.b0 * x 0
  | 1 => f.b0 * x 1 + f.b1 * x 0 - f.a1 * (f.b0 * x 0)
  | n + 2 => f.b0 * x (n + 2) + f.b1 * x (n + 1) + f.b2 * x n - f.a1 * answer f x (n + 1) - f.a2 * answer f x n

theorem answer_answers (f : Biquad) (x : ℕ → ℝ) : Answers f.b0 f.b1 f.b2 f.a1 f.a2 x (answer f x) :=
  ⟨by rw [answer], by rw [answer, answer], fun n => by rw [answer]⟩

end Shipgrav
