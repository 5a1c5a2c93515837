import Verif.Lemmas.EotvosFloat
import Verif.Model.TideFloat
import Mathlib.Analysis.SpecialFunctions.Trigonometric.InverseDeriv

/-! Ranges of exact values together with errors of computed values, through the operations of the tide prediction. -/

namespace Shipgrav
open Spec Real

/-- The exact value `x` lies between `l` and `h`, and the computed value `q` is within `e` of it. -/
def Iv (l h e : ℚ) (x : ℝ) (q : ℚ) : Prop := (l : ℝ) ≤ x ∧ x ≤ (h : ℝ) ∧ |(q : ℝ) - x| ≤ (e : ℝ)

/-- The largest size in a range. -/
def mag (l h : ℚ) : ℚ := max |l| |h|

theorem Iv.abs {l h e : ℚ} {x : ℝ} {q : ℚ} (v : Iv l h e x q) : |x| ≤ (mag l h : ℝ) := by
  unfold mag
  push_cast
  rw [abs_le]
  have h1 := v.1
  have h2 := v.2.1
  have := neg_abs_le (l : ℝ)
  have := le_abs_self (h : ℝ)
  have := le_max_left |(l : ℝ)| |(h : ℝ)|
  have := le_max_right |(l : ℝ)| |(h : ℝ)|
  constructor <;> linarith

theorem Iv.err_nonneg {l h e : ℚ} {x : ℝ} {q : ℚ} (v : Iv l h e x q) : (0 : ℝ) ≤ e := (abs_nonneg _).trans v.2.2

theorem Iv.abs_comp {l h e : ℚ} {x : ℝ} {q : ℚ} (v : Iv l h e x q) : |(q : ℝ)| ≤ (mag l h : ℝ) + e := by
  have : (q : ℝ) = x + (q - x) := by ring
  rw [this]
  exact (abs_add_le _ _).trans (add_le_add v.abs v.2.2)

theorem Iv.mag_nonneg {l h e : ℚ} {x : ℝ} {q : ℚ} (v : Iv l h e x q) : (0 : ℝ) ≤ (mag l h : ℝ) := (abs_nonneg _).trans v.abs

/-- A better range for the exact value. -/
theorem Iv.range {l h e l' h' : ℚ} {x : ℝ} {q : ℚ} (v : Iv l h e x q) (h1 : (l' : ℝ) ≤ x) (h2 : x ≤ (h' : ℝ)) : Iv l' h' e x q := ⟨h1, h2, v.2.2⟩

theorem Iv.weaken {l h e l' h' e' : ℚ} {x : ℝ} {q : ℚ} (v : Iv l h e x q) (c : l' ≤ l ∧ h ≤ h' ∧ e ≤ e') : Iv l' h' e' x q := by
  refine ⟨?_, ?_, ?_⟩
  · exact le_trans (by exact_mod_cast c.1) v.1
  · exact v.2.1.trans (by exact_mod_cast c.2.1)
  · exact v.2.2.trans (by exact_mod_cast c.2.2)

/-- Rounding. -/
theorem iv_round {x : ℝ} {q : ℚ} {m e0 e : ℚ} (hm : |x| ≤ (m : ℝ)) (h0 : |(q : ℝ) - x| ≤ (e0 : ℝ)) (c : e0 + vQ * (m + e0) ≤ e) :
    |(toDouble q : ℝ) - x| ≤ (e : ℝ) := by
  have h := rnd_err (δ := 1 / 2 ^ 52) le_rfl q x h0 hm
  have hc : ((e0 + vQ * (m + e0) : ℚ) : ℝ) ≤ (e : ℝ) := by exact_mod_cast c
  unfold vQ at hc
  push_cast at hc
  exact h.trans hc

/-- A literal. -/
theorem iv_lit (c : ℚ) {e : ℚ} (hc : |toDouble c - c| ≤ e) : Iv c c e (c : ℝ) (toDouble c) := by
  refine ⟨le_rfl, le_rfl, ?_⟩
  have : ((|toDouble c - c| : ℚ) : ℝ) ≤ (e : ℝ) := by exact_mod_cast hc
  push_cast at this
  exact this

/-- An input. -/
theorem iv_self (q : ℚ) {l h : ℚ} (h1 : l ≤ q) (h2 : q ≤ h) : Iv l h 0 (q : ℝ) q :=
  ⟨by exact_mod_cast h1, by exact_mod_cast h2, by simp⟩

theorem iv_neg {lx hx ex : ℚ} {x : ℝ} {p : ℚ} (v : Iv lx hx ex x p) : Iv (-hx) (-lx) ex (-x) (-p) := by
  have h1 := v.1
  have h2 := v.2.1
  refine ⟨by push_cast; linarith, by push_cast; linarith, ?_⟩
  have : ((-p : ℚ) : ℝ) - -x = -(p - x) := by push_cast; ring
  rw [this, abs_neg]
  exact v.2.2

/-- Condition of the bounds of a sum. -/
def AddOK (lx hx ex ly hy ey l h e : ℚ) : Prop := l ≤ lx + ly ∧ hx + hy ≤ h ∧ ex + ey + vQ * (mag (lx + ly) (hx + hy) + (ex + ey)) ≤ e

instance (lx hx ex ly hy ey l h e : ℚ) : Decidable (AddOK lx hx ex ly hy ey l h e) := by unfold AddOK; infer_instance

theorem iv_add {lx hx ex ly hy ey l h e : ℚ} {x y : ℝ} {p q : ℚ} (v : Iv lx hx ex x p) (w : Iv ly hy ey y q) (c : AddOK lx hx ex ly hy ey l h e) :
    Iv l h e (x + y) (toDouble (p + q)) := by
  have h1 := v.1
  have h2 := v.2.1
  have h3 := w.1
  have h4 := w.2.1
  have k : Iv (lx + ly) (hx + hy) (ex + ey) (x + y) (p + q) := by
    refine ⟨by push_cast; linarith, by push_cast; linarith, ?_⟩
    push_cast
    have : (p : ℝ) + q - (x + y) = (p - x) + (q - y) := by ring
    rw [this]
    exact (abs_add_le _ _).trans (add_le_add v.2.2 w.2.2)
  refine ⟨?_, ?_, iv_round k.abs k.2.2 c.2.2⟩
  · exact le_trans (by exact_mod_cast c.1) k.1
  · exact k.2.1.trans (by exact_mod_cast c.2.1)

/-- Condition of the bounds of a difference. -/
def SubOK (lx hx ex ly hy ey l h e : ℚ) : Prop := AddOK lx hx ex (-hy) (-ly) ey l h e

instance (lx hx ex ly hy ey l h e : ℚ) : Decidable (SubOK lx hx ex ly hy ey l h e) := by unfold SubOK; infer_instance

theorem iv_sub {lx hx ex ly hy ey l h e : ℚ} {x y : ℝ} {p q : ℚ} (v : Iv lx hx ex x p) (w : Iv ly hy ey y q) (c : SubOK lx hx ex ly hy ey l h e) :
    Iv l h e (x - y) (toDouble (p - q)) := by
  have := iv_add v (iv_neg w) c
  rwa [← sub_eq_add_neg, ← sub_eq_add_neg] at this

private theorem lin_le {a l h x H : ℝ} (h1 : l ≤ x) (h2 : x ≤ h) (c1 : a * l ≤ H) (c2 : a * h ≤ H) : a * x ≤ H := by
  rcases le_total 0 a with ha | ha
  · exact (mul_le_mul_of_nonneg_left h2 ha).trans c2
  · exact (mul_le_mul_of_nonpos_left h1 ha).trans c1

private theorem bil_le {lx hx ly hy x y H : ℝ} (h1 : lx ≤ x) (h2 : x ≤ hx) (h3 : ly ≤ y) (h4 : y ≤ hy) (c1 : lx * ly ≤ H) (c2 : lx * hy ≤ H)
    (c3 : hx * ly ≤ H) (c4 : hx * hy ≤ H) : x * y ≤ H := by
  rw [mul_comm]
  apply lin_le h1 h2
  · rw [mul_comm]; exact lin_le h3 h4 c1 c2
  · rw [mul_comm]; exact lin_le h3 h4 c3 c4

private theorem bil_ge {lx hx ly hy x y H : ℝ} (h1 : lx ≤ x) (h2 : x ≤ hx) (h3 : ly ≤ y) (h4 : y ≤ hy) (c1 : H ≤ lx * ly) (c2 : H ≤ lx * hy)
    (c3 : H ≤ hx * ly) (c4 : H ≤ hx * hy) : H ≤ x * y := by
  have := bil_le (x := -x) (lx := -hx) (hx := -lx) (H := -H) (by linarith) (by linarith) h3 h4 (by linarith) (by linarith) (by linarith) (by linarith)
  linarith

/-- Condition of the bounds of a product. -/
def MulOK (lx hx ex ly hy ey l h e : ℚ) : Prop :=
  (l ≤ lx * ly ∧ l ≤ lx * hy ∧ l ≤ hx * ly ∧ l ≤ hx * hy) ∧ (lx * ly ≤ h ∧ lx * hy ≤ h ∧ hx * ly ≤ h ∧ hx * hy ≤ h) ∧
    mag lx hx * ey + ex * (mag ly hy + ey) + vQ * (mag l h + (mag lx hx * ey + ex * (mag ly hy + ey))) ≤ e

instance (lx hx ex ly hy ey l h e : ℚ) : Decidable (MulOK lx hx ex ly hy ey l h e) := by unfold MulOK; infer_instance

theorem iv_mul {lx hx ex ly hy ey l h e : ℚ} {x y : ℝ} {p q : ℚ} (v : Iv lx hx ex x p) (w : Iv ly hy ey y q) (c : MulOK lx hx ex ly hy ey l h e) :
    Iv l h e (x * y) (toDouble (p * q)) := by
  obtain ⟨⟨a1, a2, a3, a4⟩, ⟨b1, b2, b3, b4⟩, c⟩ := c
  have k : Iv l h (mag lx hx * ey + ex * (mag ly hy + ey)) (x * y) (p * q) := by
    refine ⟨?_, ?_, ?_⟩
    · exact bil_ge v.1 v.2.1 w.1 w.2.1 (by exact_mod_cast a1) (by exact_mod_cast a2) (by exact_mod_cast a3) (by exact_mod_cast a4)
    · exact bil_le v.1 v.2.1 w.1 w.2.1 (by exact_mod_cast b1) (by exact_mod_cast b2) (by exact_mod_cast b3) (by exact_mod_cast b4)
    · push_cast
      have : (p : ℝ) * q - x * y = x * (q - y) + (p - x) * q := by ring
      rw [this]
      refine (abs_add_le _ _).trans ?_
      rw [abs_mul, abs_mul]
      exact add_le_add (mul_le_mul v.abs w.2.2 (abs_nonneg _) v.mag_nonneg) (mul_le_mul v.2.2 w.abs_comp (abs_nonneg _) v.err_nonneg)
  exact ⟨k.1, k.2.1, iv_round k.abs k.2.2 c⟩

/-- Condition of the bounds of a quotient by a positive number. -/
def DivOK (lx hx ex ly hy ey l h e : ℚ) : Prop :=
  (ey < ly ∧ 0 < ly) ∧ (l * ly ≤ lx ∧ l * hy ≤ lx) ∧ (hx ≤ h * ly ∧ hx ≤ h * hy) ∧
    (ex + mag lx hx / ly * ey) / (ly - ey) + vQ * (mag l h + (ex + mag lx hx / ly * ey) / (ly - ey)) ≤ e

instance (lx hx ex ly hy ey l h e : ℚ) : Decidable (DivOK lx hx ex ly hy ey l h e) := by unfold DivOK; infer_instance

theorem iv_div {lx hx ex ly hy ey l h e : ℚ} {x y : ℝ} {p q : ℚ} (v : Iv lx hx ex x p) (w : Iv ly hy ey y q) (c : DivOK lx hx ex ly hy ey l h e) :
    Iv l h e (x / y) (toDouble (p / q)) := by
  obtain ⟨⟨c1, c2⟩, ⟨a1, a2⟩, ⟨b1, b2⟩, c⟩ := c
  have c1' : (ey : ℝ) < ly := by exact_mod_cast c1
  have c2' : (0 : ℝ) < ly := by exact_mod_cast c2
  have hy0 : 0 < y := lt_of_lt_of_le c2' w.1
  have hq : (ly : ℝ) - ey ≤ q := by
    have h1 := (abs_le.1 w.2.2).1
    have h2 := w.1
    linarith
  have hq0 : (0 : ℝ) < q := by linarith
  have k : Iv l h ((ex + mag lx hx / ly * ey) / (ly - ey)) (x / y) (p / q) := by
    refine ⟨?_, ?_, ?_⟩
    · rw [le_div_iff₀ hy0]
      exact (lin_le w.1 w.2.1 (by exact_mod_cast a1) (by exact_mod_cast a2)).trans v.1
    · rw [div_le_iff₀ hy0]
      refine v.2.1.trans ?_
      have := lin_le (a := -(h : ℝ)) (H := -(hx : ℝ)) w.1 w.2.1 (by rw [neg_mul, neg_le_neg_iff]; exact_mod_cast b1)
        (by rw [neg_mul, neg_le_neg_iff]; exact_mod_cast b2)
      linarith
    · push_cast
      have e1 : (p : ℝ) / q - x / y = ((p - x) - x / y * (q - y)) / q := by
        field_simp
        ring
      rw [e1, abs_div, abs_of_pos hq0]
      have hn : |(p : ℝ) - x - x / y * (q - y)| ≤ ex + mag lx hx / ly * ey := by
        rw [sub_eq_add_neg]
        refine (abs_add_le _ _).trans ?_
        rw [abs_neg, abs_mul, abs_div, abs_of_pos hy0]
        apply add_le_add v.2.2
        apply mul_le_mul _ w.2.2 (abs_nonneg _) (div_nonneg v.mag_nonneg c2'.le)
        exact div_le_div₀ v.mag_nonneg v.abs c2' w.1
      have n0 : (0 : ℝ) ≤ ex + mag lx hx / ly * ey := (abs_nonneg _).trans hn
      exact div_le_div₀ n0 hn (by linarith) hq
  exact ⟨k.1, k.2.1, iv_round k.abs k.2.2 c⟩

/-! ### Functions of the library -/

theorem sin_sub_le' (x y : ℝ) : |sin x - sin y| ≤ |x - y| := by
  have h := Real.lipschitzWith_sin.dist_le_mul x y
  simpa [Real.dist_eq] using h

theorem cos_sub_le' (x y : ℝ) : |cos x - cos y| ≤ |x - y| := by
  have h := Real.lipschitzWith_cos.dist_le_mul x y
  simpa [Real.dist_eq] using h

private theorem lib_err {f : ℝ → ℝ} {x : ℝ} {q r : ℚ} {e0 e k : ℚ} (hf : |f q - f x| ≤ k * |(q : ℝ) - x|) (hk : 0 ≤ k) (hq : |(q : ℝ) - x| ≤ (e0 : ℝ))
    (hr : |(r : ℝ) - f q| ≤ 1 / 2 ^ 51) (c : k * e0 + 2 * vQ ≤ e) : |(r : ℝ) - f x| ≤ (e : ℝ) := by
  have hc : ((k * e0 + 2 * vQ : ℚ) : ℝ) ≤ (e : ℝ) := by exact_mod_cast c
  have hk' : (0 : ℝ) ≤ k := by exact_mod_cast hk
  unfold vQ at hc
  push_cast at hc
  have : (r : ℝ) - f x = (r - f q) + (f q - f x) := by ring
  rw [this]
  refine (abs_add_le _ _).trans ?_
  have := mul_le_mul_of_nonneg_left hq hk'
  linarith

/-- Condition of the bounds of a sine or cosine. -/
def TrigOK (lx hx ex e : ℚ) : Prop := mag lx hx + ex ≤ 100000 ∧ 1 * ex + 2 * vQ ≤ e

instance (lx hx ex e : ℚ) : Decidable (TrigOK lx hx ex e) := by unfold TrigOK; infer_instance

theorem iv_sin {lx hx ex e : ℚ} {x : ℝ} {q : ℚ} {sn : ℚ → ℚ} (g : ∀ q : ℚ, |(q : ℝ)| ≤ 100000 → |(sn q : ℝ) - sin q| ≤ 1 / 2 ^ 51)
    (v : Iv lx hx ex x q) (c : TrigOK lx hx ex e) : Iv (-1) 1 e (sin x) (sn q) := by
  refine ⟨by push_cast; exact neg_one_le_sin x, by push_cast; exact sin_le_one x, ?_⟩
  have hq : |(q : ℝ)| ≤ 100000 := v.abs_comp.trans (by exact_mod_cast c.1)
  exact lib_err (k := 1) (by rw [Rat.cast_one, one_mul]; exact sin_sub_le' _ _) (by norm_num) v.2.2 (g q hq) c.2

theorem iv_cos {lx hx ex e : ℚ} {x : ℝ} {q : ℚ} {cs : ℚ → ℚ} (g : ∀ q : ℚ, |(q : ℝ)| ≤ 100000 → |(cs q : ℝ) - cos q| ≤ 1 / 2 ^ 51)
    (v : Iv lx hx ex x q) (c : TrigOK lx hx ex e) : Iv (-1) 1 e (cos x) (cs q) := by
  refine ⟨by push_cast; exact neg_one_le_cos x, by push_cast; exact cos_le_one x, ?_⟩
  have hq : |(q : ℝ)| ≤ 100000 := v.abs_comp.trans (by exact_mod_cast c.1)
  exact lib_err (k := 1) (by rw [Rat.cast_one, one_mul]; exact cos_sub_le' _ _) (by norm_num) v.2.2 (g q hq) c.2

theorem arcsin_sub_le {x y : ℝ} (hx : |x| ≤ 0.96) (hy : |y| ≤ 0.96) : |arcsin x - arcsin y| ≤ 4 * |x - y| := by
  have hne : ∀ z ∈ Set.Icc (-(0.96 : ℝ)) 0.96, z ≠ -1 ∧ z ≠ 1 := by
    intro z hz
    constructor
    · intro h; rw [h] at hz; norm_num at hz
    · intro h; rw [h] at hz; norm_num at hz
  have h := Convex.norm_image_sub_le_of_norm_deriv_le (f := arcsin) (C := 4) (s := Set.Icc (-(0.96 : ℝ)) 0.96) (x := y) (y := x)
    (fun z hz => Real.differentiableAt_arcsin.2 (hne z hz)) (fun z hz => by
      rw [Real.deriv_arcsin, Real.norm_eq_abs, abs_of_nonneg (by positivity)]
      have h1 : (1 / 4 : ℝ) ≤ √(1 - z ^ 2) := by
        apply Real.le_sqrt_of_sq_le
        have := hz.1
        have := hz.2
        nlinarith
      rw [div_le_iff₀ (by linarith)]
      linarith) (convex_Icc _ _) (abs_le.1 hy) (abs_le.1 hx)
  simpa [Real.norm_eq_abs] using h

theorem arcsin_sub_le' {x y : ℝ} (hx : |x| ≤ 0.6) (hy : |y| ≤ 0.6) : |arcsin x - arcsin y| ≤ 5 / 4 * |x - y| := by
  have hne : ∀ z ∈ Set.Icc (-(0.6 : ℝ)) 0.6, z ≠ -1 ∧ z ≠ 1 := by
    intro z hz
    constructor
    · intro h; rw [h] at hz; norm_num at hz
    · intro h; rw [h] at hz; norm_num at hz
  have h := Convex.norm_image_sub_le_of_norm_deriv_le (f := arcsin) (C := 5 / 4) (s := Set.Icc (-(0.6 : ℝ)) 0.6) (x := y) (y := x)
    (fun z hz => Real.differentiableAt_arcsin.2 (hne z hz)) (fun z hz => by
      rw [Real.deriv_arcsin, Real.norm_eq_abs, abs_of_nonneg (by positivity)]
      have h1 : (4 / 5 : ℝ) ≤ √(1 - z ^ 2) := by
        apply Real.le_sqrt_of_sq_le
        have := hz.1
        have := hz.2
        nlinarith
      rw [div_le_iff₀ (by linarith)]
      linarith) (convex_Icc _ _) (abs_le.1 hy) (abs_le.1 hx)
  simpa [Real.norm_eq_abs] using h

/-- Condition of the bounds of an arcus sine of a number up to 0.6 in size. -/
def AsinOK (lx hx ex h e : ℚ) : Prop := mag lx hx + ex ≤ 0.6 ∧ 0 ≤ ex ∧ 5 / 4 * ex + 2 * vQ ≤ e ∧ 5 / 4 * mag lx hx ≤ h

instance (lx hx ex h e : ℚ) : Decidable (AsinOK lx hx ex h e) := by unfold AsinOK; infer_instance

theorem iv_arcsin {lx hx ex h e : ℚ} {x : ℝ} {q : ℚ} {f : ℚ → ℚ} (g : ∀ q : ℚ, |(q : ℝ)| ≤ 1 → |(f q : ℝ) - arcsin q| ≤ 1 / 2 ^ 51)
    (v : Iv lx hx ex x q) (c : AsinOK lx hx ex h e) : Iv (-h) h e (arcsin x) (f q) := by
  have c1 : ((mag lx hx + ex : ℚ) : ℝ) ≤ ((0.6 : ℚ) : ℝ) := by exact_mod_cast c.1
  push_cast at c1
  have hq : |(q : ℝ)| ≤ 0.6 := v.abs_comp.trans (by norm_num at c1 ⊢; linarith)
  have hxb : |x| ≤ 0.6 := v.abs.trans (by have := v.err_nonneg; norm_num at c1 ⊢; linarith)
  have hb : |arcsin x| ≤ (h : ℝ) := by
    have h1 := arcsin_sub_le' hxb (y := 0) (by rw [abs_zero]; norm_num)
    rw [arcsin_zero, sub_zero, sub_zero] at h1
    have h2 : ((5 / 4 * mag lx hx : ℚ) : ℝ) ≤ h := by exact_mod_cast c.2.2.2
    push_cast at h2
    exact h1.trans ((mul_le_mul_of_nonneg_left v.abs (by norm_num)).trans h2)
  refine ⟨by push_cast; exact (abs_le.1 hb).1, (abs_le.1 hb).2, ?_⟩
  exact lib_err (k := 5 / 4) (by push_cast; exact arcsin_sub_le' hq hxb) (by norm_num) v.2.2 (g q (hq.trans (by norm_num))) c.2.2.1

theorem cos_sub_le_mul (x y : ℝ) {B : ℝ} (hx : |x| ≤ B) (hy : |y| ≤ B) : |cos x - cos y| ≤ B * |x - y| := by
  have := Real.cos_sub_cos x y
  rw [this, abs_mul, abs_mul, abs_neg, abs_two]
  have b1 : |sin ((x - y) / 2)| ≤ |(x - y) / 2| := Real.abs_sin_le_abs
  have b2 : |sin ((x + y) / 2)| ≤ B := by
    refine Real.abs_sin_le_abs.trans ?_
    rw [abs_div, abs_two]
    have := abs_add_le x y
    linarith
  rw [abs_div, abs_two] at b1
  have := mul_le_mul b2 b1 (abs_nonneg _) ((abs_nonneg _).trans hx)
  linarith

/-- Condition of the bounds of the sine and cosine of a small angle. -/
def SmallOK (lx hx ex h e : ℚ) : Prop := mag lx hx ≤ h ∧ mag lx hx + ex ≤ 1 ∧ ex + 2 * vQ ≤ e

instance (lx hx ex h e : ℚ) : Decidable (SmallOK lx hx ex h e) := by unfold SmallOK; infer_instance

theorem iv_sin_small {lx hx ex h e : ℚ} {x : ℝ} {q : ℚ} {sn : ℚ → ℚ} (g : ∀ q : ℚ, |(q : ℝ)| ≤ 100000 → |(sn q : ℝ) - sin q| ≤ 1 / 2 ^ 51)
    (v : Iv lx hx ex x q) (c : SmallOK lx hx ex h e) : Iv (-h) h e (sin x) (sn q) := by
  have hb : |sin x| ≤ (h : ℝ) := Real.abs_sin_le_abs.trans (v.abs.trans (by exact_mod_cast c.1))
  refine ⟨by push_cast; exact (abs_le.1 hb).1, (abs_le.1 hb).2, ?_⟩
  have hq : |(q : ℝ)| ≤ 100000 := by
    have : ((mag lx hx + ex : ℚ) : ℝ) ≤ ((1 : ℚ) : ℝ) := by exact_mod_cast c.2.1
    push_cast at this
    refine v.abs_comp.trans (this.trans (by norm_num))
  exact lib_err (k := 1) (by rw [Rat.cast_one, one_mul]; exact sin_sub_le' _ _) (by norm_num) v.2.2 (g q hq) (by rw [one_mul]; exact c.2.2)

/-- Condition of the bounds of the cosine of a small angle. -/
def SmallCosOK (lx hx ex e : ℚ) : Prop := 0 ≤ mag lx hx + ex ∧ mag lx hx + ex ≤ 1 ∧ (mag lx hx + ex) * ex + 2 * vQ ≤ e

instance (lx hx ex e : ℚ) : Decidable (SmallCosOK lx hx ex e) := by unfold SmallCosOK; infer_instance

theorem iv_cos_small {lx hx ex e : ℚ} {x : ℝ} {q : ℚ} {cs : ℚ → ℚ} (g : ∀ q : ℚ, |(q : ℝ)| ≤ 100000 → |(cs q : ℝ) - cos q| ≤ 1 / 2 ^ 51)
    (v : Iv lx hx ex x q) (c : SmallCosOK lx hx ex e) : Iv (-1) 1 e (cos x) (cs q) := by
  refine ⟨by push_cast; exact neg_one_le_cos x, by push_cast; exact cos_le_one x, ?_⟩
  have h1 : ((mag lx hx + ex : ℚ) : ℝ) ≤ ((1 : ℚ) : ℝ) := by exact_mod_cast c.2.1
  have hq : |(q : ℝ)| ≤ ((mag lx hx + ex : ℚ) : ℝ) := by push_cast; exact v.abs_comp
  have hxb : |x| ≤ ((mag lx hx + ex : ℚ) : ℝ) := by
    push_cast
    have := v.abs
    have := v.err_nonneg
    linarith
  have hq2 : |(q : ℝ)| ≤ 100000 := hq.trans (h1.trans (by norm_num))
  exact lib_err (k := mag lx hx + ex) (cos_sub_le_mul _ _ hq hxb) c.1 v.2.2 (g q hq2) c.2.2

/-- Condition of the bounds of an arcus cosine. -/
def ArcOK (lx hx ex e : ℚ) : Prop := mag lx hx + ex ≤ 0.96 ∧ 0 ≤ ex ∧ 4 * ex + 2 * vQ ≤ e

instance (lx hx ex e : ℚ) : Decidable (ArcOK lx hx ex e) := by unfold ArcOK; infer_instance

theorem iv_arccos {lx hx ex e : ℚ} {x : ℝ} {q : ℚ} {f : ℚ → ℚ} (g : ∀ q : ℚ, |(q : ℝ)| ≤ 1 → |(f q : ℝ) - arccos q| ≤ 1 / 2 ^ 51)
    (v : Iv lx hx ex x q) (c : ArcOK lx hx ex e) : Iv 0 4 e (arccos x) (f q) := by
  have hπ := Real.pi_lt_four
  refine ⟨by push_cast; exact arccos_nonneg x, by push_cast; linarith [arccos_le_pi x], ?_⟩
  have c1 : ((mag lx hx + ex : ℚ) : ℝ) ≤ ((0.96 : ℚ) : ℝ) := by exact_mod_cast c.1
  push_cast at c1
  have hq : |(q : ℝ)| ≤ 0.96 := v.abs_comp.trans (by norm_num at c1 ⊢; linarith)
  have hx : |x| ≤ 0.96 := v.abs.trans (by have := v.err_nonneg; norm_num at c1 ⊢; linarith)
  refine lib_err (k := 4) ?_ (by norm_num) v.2.2 (g q (hq.trans (by norm_num))) c.2.2
  push_cast
  unfold arccos
  have : π / 2 - arcsin (q : ℝ) - (π / 2 - arcsin x) = -(arcsin q - arcsin x) := by ring
  rw [this, abs_neg]
  exact arcsin_sub_le hq hx

/-- Condition of the bounds of a square. -/
def SqrOK (lx hx ex h e : ℚ) : Prop := mag lx hx ^ 2 ≤ h ∧ ex * (2 * mag lx hx + ex) + vQ * (mag lx hx + ex) ^ 2 ≤ e

instance (lx hx ex h e : ℚ) : Decidable (SqrOK lx hx ex h e) := by unfold SqrOK; infer_instance

theorem iv_sqr {lx hx ex h e : ℚ} {x : ℝ} {q : ℚ} {f : ℚ → ℚ} (g : GoodSqr f) (v : Iv lx hx ex x q) (c : SqrOK lx hx ex h e) :
    Iv 0 h e (x ^ 2) (f q) := by
  have m0 := v.mag_nonneg
  have ha := v.abs
  have hc := v.abs_comp
  refine ⟨by push_cast; positivity, ?_, ?_⟩
  · refine le_trans ?_ (by exact_mod_cast c.1 : ((mag lx hx : ℝ) ^ 2) ≤ h)
    exact sq_le_sq' (by linarith [(abs_le.1 ha).1]) (abs_le.1 ha).2
  · have hc2 : ((ex * (2 * mag lx hx + ex) + vQ * (mag lx hx + ex) ^ 2 : ℚ) : ℝ) ≤ (e : ℝ) := by exact_mod_cast c.2
    refine le_trans ?_ hc2
    unfold vQ
    push_cast
    have e1 : (f q : ℝ) - x ^ 2 = (q - x) * (q + x) + (f q - (q : ℝ) ^ 2) := by ring
    rw [e1]
    refine (abs_add_le _ _).trans ?_
    apply add_le_add
    · rw [abs_mul]
      apply mul_le_mul v.2.2 _ (abs_nonneg _) v.err_nonneg
      refine (abs_add_le _ _).trans ?_
      linarith
    · refine (g q).trans ?_
      rw [div_eq_mul_one_div, mul_comm]
      apply mul_le_mul_of_nonneg_left _ (by positivity)
      exact sq_le_sq' (by linarith [(abs_le.1 hc).1]) (abs_le.1 hc).2

/-- Condition of the bounds of a cube. -/
def CubeOK (lx hx ex h e : ℚ) : Prop := mag lx hx ^ 3 ≤ h ∧ ex * (3 * (mag lx hx + ex) ^ 2) + vQ * (mag lx hx + ex) ^ 3 ≤ e

instance (lx hx ex h e : ℚ) : Decidable (CubeOK lx hx ex h e) := by unfold CubeOK; infer_instance

theorem iv_cube {lx hx ex h e : ℚ} {x : ℝ} {q : ℚ} {f : ℚ → ℚ} (g : ∀ q : ℚ, |(f q : ℝ) - (q : ℝ) ^ 3| ≤ |(q : ℝ)| ^ 3 / 2 ^ 52) (v : Iv lx hx ex x q)
    (c : CubeOK lx hx ex h e) : Iv (-h) h e (x ^ 3) (f q) := by
  have m0 := v.mag_nonneg
  have e0 := v.err_nonneg
  have ha := v.abs
  have hc := v.abs_comp
  have h3 : |x ^ 3| ≤ (h : ℝ) := by
    rw [abs_pow]
    refine le_trans (pow_le_pow_left₀ (abs_nonneg _) ha 3) ?_
    exact_mod_cast c.1
  refine ⟨by push_cast; exact (abs_le.1 h3).1, (abs_le.1 h3).2, ?_⟩
  have hc2 : ((ex * (3 * (mag lx hx + ex) ^ 2) + vQ * (mag lx hx + ex) ^ 3 : ℚ) : ℝ) ≤ (e : ℝ) := by exact_mod_cast c.2
  refine le_trans ?_ hc2
  unfold vQ
  push_cast
  have e1 : (f q : ℝ) - x ^ 3 = (q - x) * ((q : ℝ) ^ 2 + q * x + x ^ 2) + (f q - (q : ℝ) ^ 3) := by ring
  rw [e1]
  refine (abs_add_le _ _).trans ?_
  have hx' : |x| ≤ (mag lx hx : ℝ) + ex := by linarith
  apply add_le_add
  · rw [abs_mul]
    apply mul_le_mul v.2.2 _ (abs_nonneg _) e0
    refine (abs_add_three _ _ _).trans ?_
    rw [abs_mul, abs_pow, abs_pow]
    have b1 := pow_le_pow_left₀ (abs_nonneg _) hc 2
    have b2 := pow_le_pow_left₀ (abs_nonneg _) hx' 2
    have b3 := mul_le_mul hc hx' (abs_nonneg _) (by linarith)
    rw [← sq] at b3
    linarith
  · refine (g q).trans ?_
    rw [div_eq_mul_one_div, mul_comm]
    exact mul_le_mul_of_nonneg_left (pow_le_pow_left₀ (abs_nonneg _) hc 3) (by positivity)

/-- Condition of the bounds of a square root between 1/2 and 1. -/
def SqrtOK (lx hx ex e : ℚ) : Prop := 1 / 2 ≤ lx ∧ hx ≤ 1 ∧ ex ≤ 1 / 4 ∧ ex + vQ * (1 + ex) ≤ e

instance (lx hx ex e : ℚ) : Decidable (SqrtOK lx hx ex e) := by unfold SqrtOK; infer_instance

theorem iv_sqrt {lx hx ex e : ℚ} {x : ℝ} {q : ℚ} {f : ℚ → ℚ} (g : GoodSqrt f) (v : Iv lx hx ex x q) (c : SqrtOK lx hx ex e) : Iv lx 1 e (√x) (f q) := by
  obtain ⟨c1, c2, c3, c4⟩ := c
  have c1' : ((1 / 2 : ℚ) : ℝ) ≤ lx := by exact_mod_cast c1
  have c2' : (hx : ℝ) ≤ 1 := by exact_mod_cast c2
  have c3' : (ex : ℝ) ≤ ((1 / 4 : ℚ) : ℝ) := by exact_mod_cast c3
  push_cast at c1' c3'
  have h1 := v.1
  have h2 := v.2.1
  have hq := abs_le.1 v.2.2
  have hx0 : (0 : ℝ) ≤ x := by linarith
  have hq0 : (1 / 4 : ℝ) ≤ q := by linarith [hq.1]
  have s1 : x ≤ √x := Real.le_sqrt_of_sq_le (by nlinarith)
  have s2 : √x ≤ 1 := by rw [Real.sqrt_le_left (by norm_num)]; linarith
  refine ⟨by linarith, by push_cast; exact s2, ?_⟩
  have hc4 : ((ex + vQ * (1 + ex) : ℚ) : ℝ) ≤ (e : ℝ) := by exact_mod_cast c4
  refine le_trans ?_ hc4
  unfold vQ
  push_cast
  have r1 : (1 / 2 : ℝ) ≤ √x := by linarith
  have r2 : (1 / 2 : ℝ) ≤ √(q : ℝ) := Real.le_sqrt_of_sq_le (by norm_num; linarith)
  have d1 : |√(q : ℝ) - √x| ≤ |(q : ℝ) - x| := by
    have : (q : ℝ) - x = (√(q : ℝ) - √x) * (√(q : ℝ) + √x) := by
      have a1 := Real.mul_self_sqrt hx0
      have a2 := Real.mul_self_sqrt (by linarith : (0 : ℝ) ≤ q)
      nlinarith
    rw [this, abs_mul]
    apply le_mul_of_one_le_right (abs_nonneg _)
    exact le_trans (by linarith) (le_abs_self _)
  have d2 := g q (by exact_mod_cast (by linarith : (0 : ℝ) ≤ q))
  have d3 : √(q : ℝ) ≤ 1 + ex := by
    rw [Real.sqrt_le_left (by linarith [v.err_nonneg])]
    nlinarith [v.err_nonneg, hq.2]
  have e1 : (f q : ℝ) - √x = (√(q : ℝ) - √x) + (f q - √(q : ℝ)) := by ring
  rw [e1]
  refine (abs_add_le _ _).trans (add_le_add (d1.trans v.2.2) (d2.trans ?_))
  rw [div_eq_mul_one_div, mul_comm]
  exact mul_le_mul_of_nonneg_left d3 (by positivity)

/-- Condition of the bounds of an angle turned into radians. -/
def RadOK (lx hx ex h e : ℚ) : Prop := mag lx hx * (3.15 / 180) ≤ h ∧ ex * (3.15 / 180) + 4 * vQ * ((mag lx hx + ex) * (3.15 / 180)) ≤ e

instance (lx hx ex h e : ℚ) : Decidable (RadOK lx hx ex h e) := by unfold RadOK; infer_instance

theorem deg2radF_rel (q : ℚ) : |(deg2radF q : ℝ) - radians q| ≤ 4 * (1 / 2 ^ 52) * |radians (q : ℝ)| := by
  have n1 := near_toDouble (near_pi.div (near_self 180))
  have n2 := near_toDouble ((near_self q).mul n1)
  have e := n2.err (by positivity) (by norm_num)
  have e2 : (q : ℝ) * (π / ((180 : ℚ) : ℝ)) = radians q := by unfold radians; norm_num
  rw [e2] at e
  refine e.trans (mul_le_mul_of_nonneg_right ?_ (abs_nonneg _))
  norm_num

theorem iv_rad {lx hx ex h e : ℚ} {x : ℝ} {q : ℚ} (v : Iv lx hx ex x q) (c : RadOK lx hx ex h e) : Iv (-h) h e (radians x) (deg2radF q) := by
  have hπ := Real.pi_lt_d2
  have hp := Real.pi_pos
  have hd : (0 : ℝ) ≤ π / 180 := by positivity
  have hd2 : π / 180 ≤ 3.15 / 180 := by linarith
  have hr : ∀ y : ℝ, |radians y| = |y| * (π / 180) := fun y => by unfold radians; rw [abs_mul, abs_of_nonneg hd]
  have m0 := v.mag_nonneg
  have e0 := v.err_nonneg
  have c1 : ((mag lx hx * (3.15 / 180) : ℚ) : ℝ) ≤ h := by exact_mod_cast c.1
  have c2 : ((ex * (3.15 / 180) + 4 * vQ * ((mag lx hx + ex) * (3.15 / 180)) : ℚ) : ℝ) ≤ e := by exact_mod_cast c.2
  unfold vQ at c2
  push_cast at c1 c2
  have hb : |radians x| ≤ (h : ℝ) := by
    rw [hr]
    exact (mul_le_mul v.abs hd2 hd m0).trans c1
  refine ⟨by push_cast; exact (abs_le.1 hb).1, (abs_le.1 hb).2, le_trans ?_ c2⟩
  have e1 : (deg2radF q : ℝ) - radians x = radians (q - x) + (deg2radF q - radians q) := by unfold radians; ring
  rw [e1]
  refine (abs_add_le _ _).trans (add_le_add ?_ ?_)
  · rw [hr]
    exact mul_le_mul v.2.2 hd2 hd e0
  · refine (deg2radF_rel q).trans ?_
    apply mul_le_mul_of_nonneg_left _ (by positivity)
    rw [hr]
    exact mul_le_mul v.abs_comp hd2 hd (by linarith)

end Shipgrav
