import Verif.Props.EotvosFloat
import Verif.Props.SmoothTrack
import Verif.Lemmas.TiltCoeffs

/-! Property C173: derivatives of recorded values in double precision. -/

namespace Shipgrav
open Spec Real

/-- **C173.** The first derivative of a record in double precision.  If the recorded values are within `η` of a function with three
continuous derivatives, entry `k` is within the truncation error `K / (6 samp²)` of C152, plus `samp · η` for the errors of the record, plus
`2⁻⁵⁰` times `samp` and the largest value for rounding, of the derivative of that function at sample `k + 1`. -/
theorem C173_first (lm : EotLibm) (f : ℝ → ℝ) (hf : ContDiff ℝ 3 f) (y : ℕ → ℚ) (n : ℕ) (samp : ℚ) (hs : 0 < samp) (η F : ℝ)
    (hy : ∀ i, |(y i : ℝ) - f (i / samp)| ≤ η) (hF : ∀ i, |(y i : ℝ)| ≤ F) :
    ∃ d, centerDiffF lm (samples y n) 1 samp = samples d (n - 2) ∧ ∀ (k : ℕ) (K : ℝ),
      (∀ s : ℝ, |s - (k + 1) / samp| ≤ 1 / samp → |iteratedDeriv 3 f s| ≤ K) →
      |(d k : ℝ) - deriv f ((k + 1) / samp)| ≤ K / (6 * samp ^ 2) + samp * η + samp * F / 2 ^ 50 := by
  refine ⟨_, centerDiffF_one lm y n samp, fun k K hK => ?_⟩
  have hsR : (0 : ℝ) < samp := by exact_mod_cast hs
  have t := rate_close f hf samp K hsR (k + 1) (by omega) (by push_cast; exact hK)
  unfold rate at t
  rw [Nat.add_sub_cancel] at t
  push_cast at t
  have r := (near_toDouble ((near_toDouble (near_self (y (k + 2) - y k))).mul (near_toDouble (near_self (samp / 2))))).err (by positivity) (by norm_num)
  push_cast at r
  have a0 := hy k
  have a2 := hy (k + 2)
  push_cast at a2
  have b0 := hF k
  have b2 := hF (k + 2)
  have e2 : ((k : ℝ) + 1 + 1) / samp = (k + 2) / samp := by ring
  rw [e2] at t
  generalize f ((k + 2) / samp) = f2 at *
  generalize f (k / samp) = f0 at *
  generalize deriv f ((k + 1) / samp) = f' at *
  generalize (y (k + 2) : ℝ) = y2 at *
  generalize (y k : ℝ) = y0 at *
  have m : |(y2 - y0) * ((samp : ℝ) / 2)| ≤ samp * F := by
    rw [abs_mul, abs_of_pos (show (0 : ℝ) < (samp : ℝ) / 2 by positivity)]
    have := abs_sub y2 y0
    have h : |y2 - y0| ≤ 2 * F := by linarith
    calc _ ≤ 2 * F * ((samp : ℝ) / 2) := mul_le_mul_of_nonneg_right h (by positivity)
      _ = _ := by ring
  have m2 : |((y2 - f2) - (y0 - f0)) * ((samp : ℝ) / 2)| ≤ samp * η := by
    rw [abs_mul, abs_of_pos (show (0 : ℝ) < (samp : ℝ) / 2 by positivity)]
    have := abs_sub (y2 - f2) (y0 - f0)
    have h : |(y2 - f2) - (y0 - f0)| ≤ 2 * η := by linarith
    calc _ ≤ 2 * η * ((samp : ℝ) / 2) := mul_le_mul_of_nonneg_right h (by positivity)
      _ = _ := by ring
  have r' := r.trans (mul_le_mul_of_nonneg_left m (by positivity))
  have hF0 : 0 ≤ samp * F := (abs_nonneg _).trans m
  have num : (101 / 100 * (0 + 1 / 2 ^ 52 + (0 + 1 / 2 ^ 52) + 1 / 2 ^ 52) : ℝ) ≤ 1 / 2 ^ 50 := by norm_num
  have r'' := r'.trans (mul_le_mul_of_nonneg_right num hF0)
  generalize (toDouble (toDouble (y (k + 2) - y k) * toDouble (samp / 2)) : ℝ) = E at *
  have e : E - f' = (E - (y2 - y0) * ((samp : ℝ) / 2)) + ((y2 - f2) - (y0 - f0)) * ((samp : ℝ) / 2) + ((f2 - f0) / 2 * samp - f') := by ring
  rw [e]
  have c := abs_add_three (E - (y2 - y0) * ((samp : ℝ) / 2)) (((y2 - f2) - (y0 - f0)) * ((samp : ℝ) / 2)) ((f2 - f0) / 2 * samp - f')
  have : samp * F / 2 ^ 50 = 1 / 2 ^ 50 * (samp * F) := by ring
  linarith

/-- **C173.** The second derivative of a record in double precision, likewise, for four continuous derivatives. -/
theorem C173_second (lm : EotLibm) (hq : GoodSqr lm.sqr) (f : ℝ → ℝ) (hf : ContDiff ℝ 4 f) (y : ℕ → ℚ) (n : ℕ) (samp : ℚ) (hs : 0 < samp) (η F : ℝ)
    (hy : ∀ i, |(y i : ℝ) - f (i / samp)| ≤ η) (hF : ∀ i, |(y i : ℝ)| ≤ F) :
    ∃ d, centerDiffF lm (samples y n) 2 samp = samples d (n - 2) ∧ ∀ (k : ℕ) (K : ℝ),
      (∀ s : ℝ, |s - (k + 1) / samp| ≤ 1 / samp → |iteratedDeriv 4 f s| ≤ K) →
      |(d k : ℝ) - deriv (deriv f) ((k + 1) / samp)| ≤ K / (12 * samp ^ 2) + 4 * samp ^ 2 * η + samp ^ 2 * F / 2 ^ 46 := by
  refine ⟨_, centerDiffF_two lm y n samp, fun k K hK => ?_⟩
  have hsR : (0 : ℝ) < samp := by exact_mod_cast hs
  have t := accel_close f hf samp K hsR (k + 1) (by omega) (by push_cast; exact hK)
  unfold accel at t
  rw [Nat.add_sub_cancel, iteratedDeriv_succ, iteratedDeriv_one] at t
  push_cast at t
  have hF0 : 0 ≤ F := (abs_nonneg _).trans (hF 0)
  have a0 := hy k
  have a1 := hy (k + 1)
  have a2 := hy (k + 2)
  push_cast at a1 a2
  have b0 := hF k
  have b1 := hF (k + 1)
  have b2 := hF (k + 2)
  have e2 : ((k : ℝ) + 1 + 1) / samp = (k + 2) / samp := by ring
  rw [e2] at t
  have rA := toDouble_err (2 * y (k + 1))
  generalize toDouble (2 * y (k + 1)) = A at *
  have rB := toDouble_err (y k - A)
  generalize toDouble (y k - A) = B at *
  have rC := toDouble_err (B + y (k + 2))
  generalize toDouble (B + y (k + 2)) = C at *
  have rS := hq samp
  generalize lm.sqr samp = S at *
  have rE := toDouble_err (C * S)
  generalize toDouble (C * S) = E at *
  push_cast at rA rB rC rE
  generalize f ((k + 2) / samp) = f2 at *
  generalize f ((k + 1) / samp) = f1 at *
  generalize f (k / samp) = f0 at *
  generalize deriv (deriv f) ((k + 1) / samp) = f' at *
  generalize (y (k + 2) : ℝ) = y2 at *
  generalize (y (k + 1) : ℝ) = y1 at *
  generalize (y k : ℝ) = y0 at *
  generalize (A : ℝ) = A at *
  generalize (B : ℝ) = B at *
  generalize (C : ℝ) = C at *
  generalize (S : ℝ) = S at *
  generalize (E : ℝ) = E at *
  obtain ⟨u, hu⟩ : ∃ u : ℝ, u = 1 / 2 ^ 52 := ⟨_, rfl⟩
  have hu0 : 0 ≤ u := by rw [hu]; positivity
  have hu1 : u ≤ 1 / 100 := by rw [hu]; norm_num
  obtain ⟨q, hqq⟩ : ∃ q : ℝ, q = (samp : ℝ) ^ 2 := ⟨_, rfl⟩
  have hq0 : 0 < q := by rw [hqq]; positivity
  have rS' : |S - q| ≤ u * q := by rw [hqq, hu]; exact rS.trans (le_of_eq (by ring))
  rw [← hu] at rA rB rC rE
  rw [← hqq] at t ⊢
  have uF : 0 ≤ u * F := by positivity
  have uF1 : u * F ≤ 1 / 100 * F := mul_le_mul_of_nonneg_right hu1 hF0
  have key : ∀ {z w : ℝ}, |z| ≤ w → u * |z| ≤ u * w := fun h => mul_le_mul_of_nonneg_left h hu0
  have kA : |A - 2 * y1| ≤ 2 * (u * F) := by
    refine rA.trans ((key (show |2 * y1| ≤ 2 * F by rw [abs_mul, abs_two]; linarith)).trans (le_of_eq (by ring)))
  have kB : |B - (y0 - A)| ≤ 4 * (u * F) := by
    refine rB.trans ((key (show |y0 - A| ≤ 4 * F from ?_)).trans (le_of_eq (by ring)))
    rw [abs_le] at *
    constructor <;> linarith
  have kC : |C - (B + y2)| ≤ 5 * (u * F) := by
    refine rC.trans ((key (show |B + y2| ≤ 5 * F from ?_)).trans (le_of_eq (by ring)))
    rw [abs_le] at *
    constructor <;> linarith
  have kD : |C - (y0 - 2 * y1 + y2)| ≤ 11 * (u * F) := by
    rw [abs_le] at *
    constructor <;> linarith
  have kd : |y0 - 2 * y1 + y2| ≤ 4 * F := by
    rw [abs_le] at *
    constructor <;> linarith
  have kCabs : |C| ≤ 5 * F := by
    rw [abs_le] at *
    constructor <;> linarith
  have uq : u * q ≤ 1 / 100 * q := mul_le_mul_of_nonneg_right hu1 hq0.le
  have kS : |S| ≤ 2 * q := by
    rw [abs_le] at *
    constructor <;> linarith
  have p1 : |C * S| ≤ 5 * F * (2 * q) := by rw [abs_mul]; exact mul_le_mul kCabs kS (abs_nonneg _) (by positivity)
  have p2 : |(C - (y0 - 2 * y1 + y2)) * S| ≤ 11 * (u * F) * (2 * q) := by rw [abs_mul]; exact mul_le_mul kD kS (abs_nonneg _) (by positivity)
  have p3 : |(y0 - 2 * y1 + y2) * (S - q)| ≤ 4 * F * (u * q) := by rw [abs_mul]; exact mul_le_mul kd rS' (abs_nonneg _) (by positivity)
  have p4 : |E - C * S| ≤ u * (5 * F * (2 * q)) := rE.trans (key p1)
  have p5 : |((y2 - f2) - 2 * (y1 - f1) + (y0 - f0)) * q| ≤ 4 * η * q := by
    rw [abs_mul, abs_of_pos hq0]
    refine mul_le_mul_of_nonneg_right ?_ hq0.le
    rw [abs_le] at *
    constructor <;> linarith
  have e : E - f' = (E - C * S) + (C - (y0 - 2 * y1 + y2)) * S + (y0 - 2 * y1 + y2) * (S - q) + ((y2 - f2) - 2 * (y1 - f1) + (y0 - f0)) * q +
      ((f2 - 2 * f1 + f0) * q - f') := by ring
  rw [e]
  have c1 := abs_add_le ((E - C * S) + (C - (y0 - 2 * y1 + y2)) * S + (y0 - 2 * y1 + y2) * (S - q) + ((y2 - f2) - 2 * (y1 - f1) + (y0 - f0)) * q)
      ((f2 - 2 * f1 + f0) * q - f')
  have c2 := abs_add_le ((E - C * S) + (C - (y0 - 2 * y1 + y2)) * S + (y0 - 2 * y1 + y2) * (S - q)) (((y2 - f2) - 2 * (y1 - f1) + (y0 - f0)) * q)
  have c3 := abs_add_three (E - C * S) ((C - (y0 - 2 * y1 + y2)) * S) ((y0 - 2 * y1 + y2) * (S - q))
  have fin : u * (5 * F * (2 * q)) + 11 * (u * F) * (2 * q) + 4 * F * (u * q) ≤ q * F / 2 ^ 46 := by
    have : u * (5 * F * (2 * q)) + 11 * (u * F) * (2 * q) + 4 * F * (u * q) = 36 * u * (q * F) := by ring
    rw [this, div_eq_inv_mul]
    refine mul_le_mul_of_nonneg_right ?_ (by positivity)
    rw [hu]; norm_num
  linarith

/-! ### Hypotheses met -/

private theorem sin_third (s : ℝ) : |iteratedDeriv 3 sin s| ≤ 1 := by
  rw [iteratedDeriv_succ, iteratedDeriv_succ, iteratedDeriv_one, Real.deriv_sin, Real.deriv_cos']
  have : deriv (fun x => -sin x) s = -cos s := ((Real.hasDerivAt_sin s).neg).deriv
  rw [this, abs_neg]
  exact abs_cos_le_one s

/-- Heave of 1 m at one radian a second, recorded ten times a second up to a millimetre: the vertical velocity is right up to 12 mm/s. -/
example (lm : EotLibm) (y : ℕ → ℚ) (hy : ∀ i, |(y i : ℝ) - sin (i / 10)| ≤ 1 / 1000) :
    ∃ d, centerDiffF lm (samples y 864000) 1 10 = samples d 863998 ∧ ∀ k : ℕ, |(d k : ℝ) - cos ((k + 1) / 10)| ≤ 12 / 1000 := by
  obtain ⟨d, hd, h⟩ := C173_first lm sin Real.contDiff_sin y 864000 10 (by norm_num) (1 / 1000) 2 (by push_cast; exact hy)
    (by
      intro i
      have := abs_add_le ((y i : ℝ) - sin (i / 10)) (sin (i / 10))
      rw [sub_add_cancel] at this
      have := hy i
      have := abs_sin_le_one ((i : ℝ) / 10)
      linarith)
  refine ⟨d, hd, fun k => ?_⟩
  have := h k 1 (fun s _ => sin_third s)
  rw [Real.deriv_sin] at this
  push_cast at this
  refine this.trans ?_
  norm_num

/-- The same for the vertical acceleration of a level that is recorded a millimetre too high. -/
example (lm : EotLibm) (hq : GoodSqr lm.sqr) :
    ∃ d, centerDiffF lm (samples (fun _ => 1001 / 1000) 864000) 2 10 = samples d 863998 ∧ ∀ k, |(d k : ℝ)| ≤ 41 / 100 := by
  obtain ⟨d, hd, h⟩ := C173_second lm hq (fun _ => 1) contDiff_const (fun _ => 1001 / 1000) 864000 10 (by norm_num) (1 / 1000) (1001 / 1000)
    (by intro i; norm_num) (by intro i; norm_num)
  refine ⟨d, hd, fun k => ?_⟩
  have := h k 0 (by intro s _; rw [iteratedDeriv_const]; simp)
  have e : deriv (fun _ : ℝ => (1 : ℝ)) = fun _ => 0 := by funext z; simp
  rw [e, deriv_const, sub_zero] at this
  push_cast at this
  refine this.trans ?_
  norm_num

end Shipgrav
