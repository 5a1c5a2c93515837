import Verif.Lemmas.LatCorrFloat
import Verif.Model.EotvosFloat
import Verif.Spec.FloatLibm
import Mathlib.Analysis.SpecialFunctions.Trigonometric.Bounds
import Mathlib.Analysis.SpecialFunctions.Trigonometric.ArctanDeriv
import Mathlib.Analysis.Calculus.MeanValue

/-! The Eötvös correction in double precision: bounds of size and error are carried through the formula. -/

namespace Shipgrav
open Spec Real

/-- Upper bounds for the size of an exact value and for the error of the computed one. -/
abbrev Bound := ℚ × ℚ

/-- Half a unit in the last place, doubled. -/
def vQ : ℚ := 1 / 2 ^ 52

/-- Rounding a result of size `m` whose error is `e` so far. -/
def rB (m e : ℚ) : Bound := (m, e + vQ * (m + e))

/-- The arithmetic of bounds. -/
def boundArith : Arith Bound where
  lit q := rB |q| 0
  add x y := rB (x.1 + y.1) (x.2 + y.2)
  sub x y := rB (x.1 + y.1) (x.2 + y.2)
  mul x y := rB (x.1 * y.1) (x.1 * y.2 + x.2 * (y.1 + y.2))
  neg x := x
  sin x := (min 1 x.1, x.2 + 2 * vQ)
  cos x := (1, x.2 + 2 * vQ)
  arctan x := (x.1, x.2 + 2 * vQ)

/-- `b` bounds the exact value `x` and the error of the computed value `q`. -/
def Sim (b : Bound) (x : ℝ) (q : ℚ) : Prop := |x| ≤ (b.1 : ℝ) ∧ |(q : ℝ) - x| ≤ (b.2 : ℝ)

theorem abs_le_of_sim {b : Bound} {x : ℝ} {q : ℚ} (h : Sim b x q) (hb : b.1 + b.2 ≤ 4) : |(q : ℝ)| ≤ 4 := by
  have : (q : ℝ) = x + (q - x) := by ring
  rw [this]
  refine (abs_add_le _ _).trans ((add_le_add h.1 h.2).trans ?_)
  exact_mod_cast hb

theorem sim_round {m e : ℚ} {x : ℝ} {q : ℚ} (h : Sim (m, e) x q) : Sim (rB m e) x (toDouble q) := by
  refine ⟨h.1, ?_⟩
  have := rnd_err (δ := 1 / 2 ^ 52) le_rfl q x h.2 h.1
  unfold rB vQ
  push_cast
  exact this

theorem sim_lit (q : ℚ) : Sim (boundArith.lit q) (q : ℝ) (toDouble q) :=
  sim_round ⟨by push_cast; exact le_rfl, by simp⟩

theorem sim_add {b c : Bound} {x y : ℝ} {p q : ℚ} (h : Sim b x p) (h' : Sim c y q) : Sim (boundArith.add b c) (x + y) (toDouble (p + q)) := by
  apply sim_round
  have h1 := h.1
  have h2 := h.2
  have h3 := h'.1
  have h4 := h'.2
  constructor
  · push_cast
    exact (abs_add_le _ _).trans (add_le_add h1 h3)
  · push_cast
    have : (p : ℝ) + q - (x + y) = (p - x) + (q - y) := by ring
    rw [this]
    exact (abs_add_le _ _).trans (add_le_add h2 h4)

theorem sim_neg {b : Bound} {x : ℝ} {p : ℚ} (h : Sim b x p) : Sim (boundArith.neg b) (-x) (-p) := by
  refine ⟨by rw [abs_neg]; exact h.1, ?_⟩
  have : ((-p : ℚ) : ℝ) - -x = -(p - x) := by push_cast; ring
  rw [this, abs_neg]
  exact h.2

theorem sim_sub {b c : Bound} {x y : ℝ} {p q : ℚ} (h : Sim b x p) (h' : Sim c y q) : Sim (boundArith.sub b c) (x - y) (toDouble (p - q)) := by
  have := sim_add h (sim_neg h')
  rw [← sub_eq_add_neg, ← sub_eq_add_neg] at this
  exact this

theorem sim_mul {b c : Bound} {x y : ℝ} {p q : ℚ} (h : Sim b x p) (h' : Sim c y q) : Sim (boundArith.mul b c) (x * y) (toDouble (p * q)) := by
  apply sim_round
  have h1 := h.1
  have h2 := h.2
  have h3 := h'.1
  have h4 := h'.2
  have n1 : (0 : ℝ) ≤ b.1 := (abs_nonneg _).trans h1
  have n2 : (0 : ℝ) ≤ b.2 := (abs_nonneg _).trans h2
  constructor
  · push_cast
    rw [abs_mul]
    exact mul_le_mul h1 h3 (abs_nonneg _) n1
  · push_cast
    have : (p : ℝ) * q - x * y = x * (q - y) + (p - x) * q := by ring
    rw [this]
    refine (abs_add_le _ _).trans ?_
    rw [abs_mul, abs_mul]
    apply add_le_add (mul_le_mul h1 h4 (abs_nonneg _) n1)
    apply mul_le_mul h2 _ (abs_nonneg _) n2
    have : (q : ℝ) = y + (q - y) := by ring
    rw [this]
    exact (abs_add_le _ _).trans (add_le_add h3 h4)

private theorem sin_sub_le (x y : ℝ) : |sin x - sin y| ≤ |x - y| := by
  have h := Real.lipschitzWith_sin.dist_le_mul x y
  simpa [Real.dist_eq] using h

private theorem cos_sub_le (x y : ℝ) : |cos x - cos y| ≤ |x - y| := by
  have h := Real.lipschitzWith_cos.dist_le_mul x y
  simpa [Real.dist_eq] using h

private theorem arctan_sub_le (x y : ℝ) : |arctan x - arctan y| ≤ |x - y| := by
  have h := Convex.norm_image_sub_le_of_norm_deriv_le (f := arctan) (C := 1) (s := Set.univ) (x := y) (y := x)
    (fun z _ => Real.differentiableAt_arctan z) (fun z _ => by
      rw [Real.deriv_arctan, Real.norm_eq_abs, abs_of_pos (by positivity), div_le_one (by positivity)]
      nlinarith [sq_nonneg z]) convex_univ trivial trivial
  simpa [Real.norm_eq_abs] using h

private theorem lib_err {f : ℝ → ℝ} {x : ℝ} {q r : ℚ} {e : ℚ} (hf : |f q - f x| ≤ |(q : ℝ) - x|) (hq : |(q : ℝ) - x| ≤ (e : ℝ)) (hr : |(r : ℝ) - f q| ≤ 1 / 2 ^ 51) :
    |(r : ℝ) - f x| ≤ ((e + 2 * vQ : ℚ) : ℝ) := by
  have : (r : ℝ) - f x = (r - f q) + (f q - f x) := by ring
  rw [this]
  refine (abs_add_le _ _).trans ?_
  unfold vQ
  push_cast
  linarith

theorem sim_sin {b : Bound} {x : ℝ} {q : ℚ} {lm : EotLibm} (g : GoodTrig lm.sin lm.cos lm.arctan) (h : Sim b x q) (hb : b.1 + b.2 ≤ 4) :
    Sim (boundArith.sin b) (sin x) (lm.sin q) := by
  have hq := abs_le_of_sim h hb
  refine ⟨?_, lib_err (sin_sub_le _ _) h.2 (g.1 q hq)⟩
  show |sin x| ≤ ((min 1 b.1 : ℚ) : ℝ)
  push_cast
  exact le_min (abs_sin_le_one x) (Real.abs_sin_le_abs.trans h.1)

theorem sim_cos {b : Bound} {x : ℝ} {q : ℚ} {lm : EotLibm} (g : GoodTrig lm.sin lm.cos lm.arctan) (h : Sim b x q) (hb : b.1 + b.2 ≤ 4) :
    Sim (boundArith.cos b) (cos x) (lm.cos q) := by
  have hq := abs_le_of_sim h hb
  refine ⟨?_, lib_err (cos_sub_le _ _) h.2 (g.2.1 q hq)⟩
  show |cos x| ≤ ((1 : ℚ) : ℝ)
  push_cast
  exact abs_cos_le_one x

theorem sim_arctan {b : Bound} {x : ℝ} {q : ℚ} {lm : EotLibm} (g : GoodTrig lm.sin lm.cos lm.arctan) (h : Sim b x q) (hb : b.1 + b.2 ≤ 4) :
    Sim (boundArith.arctan b) (arctan x) (lm.arctan q) := by
  have hq := abs_le_of_sim h hb
  refine ⟨?_, lib_err (arctan_sub_le _ _) h.2 (g.2.2 q hq)⟩
  have := arctan_sub_le x 0
  rw [arctan_zero, sub_zero, sub_zero] at this
  exact this.trans h.1

/-- The bounds hold for the whole formula. -/
theorem sim_row {lm : EotLibm} (g : GoodTrig lm.sin lm.cos lm.arctan) {Ba Be Blat Bht Bd1 Bd2 Bl1 Bl2 Bh1 Bh2 : Bound}
    {a e lat ht d1 d2 l1 l2 h1 h2 : ℝ} {a' e' lat' ht' d1' d2' l1' l2' h1' h2' : ℚ}
    (ha : Sim Ba a a') (he : Sim Be e e') (hlat : Sim Blat lat lat') (hht : Sim Bht ht ht') (hd1 : Sim Bd1 d1 d1') (hd2 : Sim Bd2 d2 d2')
    (hl1 : Sim Bl1 l1 l1') (_hl2 : Sim Bl2 l2 l2') (hh1 : Sim Bh1 h1 h1') (hh2 : Sim Bh2 h2 h2')
    (k1 : Blat.1 + Blat.2 ≤ 4) (k2 : (boundArith.mul (boundArith.lit 2) Blat).1 + (boundArith.mul (boundArith.lit 2) Blat).2 ≤ 4)
    (k3 : (boundArith.mul Be (boundArith.sin (boundArith.mul (boundArith.lit 2) Blat))).1 + (boundArith.mul Be (boundArith.sin (boundArith.mul (boundArith.lit 2) Blat))).2 ≤ 4)
    (k4 : (boundArith.arctan (boundArith.mul Be (boundArith.sin (boundArith.mul (boundArith.lit 2) Blat)))).1 +
      (boundArith.arctan (boundArith.mul Be (boundArith.sin (boundArith.mul (boundArith.lit 2) Blat)))).2 ≤ 4) :
    Sim (eotvosRowG boundArith Ba Be Blat Bht Bd1 Bd2 Bl1 Bl2 Bh1 Bh2) (eotvosRowG exactArith a e lat ht d1 d2 l1 l2 h1 h2)
      (eotvosRowG (doubleArith lm) a' e' lat' ht' d1' d2' l1' l2' h1' h2') := by
  have zero := sim_lit 0
  have one := sim_lit 1
  have two := sim_lit 2
  have four := sim_lit 4
  have We := sim_lit 0.00007292115
  have mg := sim_lit 100000
  have slat := sim_sin g hlat k1
  have clat := sim_cos g hlat k1
  have tl := sim_mul two hlat
  have s2 := sim_sin g tl k2
  have c2 := sim_cos g tl k2
  have rp := sim_mul ha (sim_sub one (sim_mul (sim_mul he slat) slat))
  have drp := sim_mul (sim_mul (sim_mul (sim_neg ha) hd1) he) s2
  have ddrp := sim_sub (sim_mul (sim_mul (sim_mul (sim_neg ha) hd2) he) s2) (sim_mul (sim_mul (sim_mul (sim_mul (sim_mul two ha) hd1) hd1) he) c2)
  have D := sim_arctan g (sim_mul he s2) k3
  have sD := sim_sin g D k4
  have cD := sim_cos g D k4
  have dD := sim_mul (sim_mul (sim_mul two hd1) he) c2
  have ddD := sim_sub (sim_mul (sim_mul (sim_mul two hd2) he) c2) (sim_mul (sim_mul (sim_mul (sim_mul four hd1) hd1) he) s2)
  have rx := sim_mul (sim_neg rp) sD
  have rz := sim_sub (sim_mul (sim_neg rp) cD) hht
  have rdx := sim_sub (sim_mul (sim_neg drp) sD) (sim_mul (sim_mul rp dD) cD)
  have ck := sim_sub (sim_add (sim_add (sim_mul (sim_neg ddrp) cD) (sim_mul (sim_mul (sim_mul two drp) dD) sD))
    (sim_mul rp (sim_add (sim_mul ddD sD) (sim_mul (sim_mul dD dD) cD)))) hh2
  have lw := sim_add hl1 We
  have wx := sim_mul lw clat
  have wy := sim_neg hd1
  have wz := sim_mul (sim_neg lw) slat
  have wdx := sim_sub (sim_mul hl1 clat) (sim_mul (sim_mul lw hd1) slat)
  have wdy := sim_neg hd2
  have t1 := sim_sub (sim_mul (sim_mul two wx) zero) (sim_mul (sim_mul two wy) rdx)
  have t2 := sim_sub (sim_mul wdx zero) (sim_mul wdy rx)
  have u1 := sim_sub (sim_mul wy rz) (sim_mul wz zero)
  have u2 := sim_sub (sim_mul wz rx) (sim_mul wx rz)
  have t3 := sim_sub (sim_mul wx u2) (sim_mul wy u1)
  have vx := sim_mul We clat
  have vz := sim_mul (sim_neg We) slat
  have v1 := sim_sub (sim_mul zero rz) (sim_mul vz zero)
  have v2 := sim_sub (sim_mul vz rx) (sim_mul vx rz)
  have t4 := sim_sub (sim_mul vx v2) (sim_mul zero v1)
  exact sim_mul (sim_sub (sim_add (sim_add (sim_add ck t1) t2) t3) t4) mg

end Shipgrav
