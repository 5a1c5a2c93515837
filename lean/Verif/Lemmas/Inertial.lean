import Mathlib.Analysis.SpecialFunctions.Trigonometric.Deriv
import Mathlib.Analysis.SpecialFunctions.Trigonometric.ArctanDeriv
import Mathlib.Tactic.LinearCombination
import Verif.Spec.Inertial

/-! Derivatives of the coordinates of a platform in space. -/

namespace Shipgrav
open Spec Real

/-- Second derivative of a product with a function of a turning angle, through first and second derivatives everywhere. -/
theorem deriv2_of {F F1 : ℝ → ℝ} {F2 t : ℝ} (h1 : ∀ s, HasDerivAt F (F1 s) s) (h2 : HasDerivAt F1 F2 t) : deriv (deriv F) t = F2 := by
  have : deriv F = F1 := funext fun s => (h1 s).deriv
  rw [this, h2.deriv]

section
variable {R R1 R2 T T1 T2 : ℝ → ℝ} (hR : ∀ s, HasDerivAt R (R1 s) s) (hR1 : ∀ s, HasDerivAt R1 (R2 s) s)
  (hT : ∀ s, HasDerivAt T (T1 s) s) (hT1 : ∀ s, HasDerivAt T1 (T2 s) s)
include hR hT

theorem turn_cos (s : ℝ) : HasDerivAt (fun s => R s * cos (T s)) (R1 s * cos (T s) - R s * T1 s * sin (T s)) s :=
  HasDerivAt.congr_deriv ((hR s).mul (hT s).cos) (by ring)

theorem turn_sin (s : ℝ) : HasDerivAt (fun s => R s * sin (T s)) (R1 s * sin (T s) + R s * T1 s * cos (T s)) s :=
  HasDerivAt.congr_deriv ((hR s).mul (hT s).sin) (by ring)

include hR1 hT1

theorem turn_cos1 (s : ℝ) : HasDerivAt (fun s => R1 s * cos (T s) - R s * T1 s * sin (T s))
    ((R2 s - R s * T1 s ^ 2) * cos (T s) - (2 * R1 s * T1 s + R s * T2 s) * sin (T s)) s := by
  refine HasDerivAt.congr_deriv (((hR1 s).mul (hT s).cos).sub (((hR s).mul (hT1 s)).mul (hT s).sin)) ?_
  simp only [Pi.mul_apply]
  ring

theorem turn_sin1 (s : ℝ) : HasDerivAt (fun s => R1 s * sin (T s) + R s * T1 s * cos (T s))
    ((R2 s - R s * T1 s ^ 2) * sin (T s) + (2 * R1 s * T1 s + R s * T2 s) * cos (T s)) s := by
  refine HasDerivAt.congr_deriv (((hR1 s).mul (hT s).sin).add (((hR s).mul (hT1 s)).mul (hT s).cos)) ?_
  simp only [Pi.mul_apply]
  ring

theorem turning_cos (t : ℝ) : deriv (deriv fun s => R s * cos (T s)) t =
    (R2 t - R t * T1 t ^ 2) * cos (T t) - (2 * R1 t * T1 t + R t * T2 t) * sin (T t) :=
  deriv2_of (turn_cos hR hT) (turn_cos1 hR hR1 hT hT1 t)

theorem turning_sin (t : ℝ) : deriv (deriv fun s => R s * sin (T s)) t =
    (R2 t - R t * T1 t ^ 2) * sin (T t) + (2 * R1 t * T1 t + R t * T2 t) * cos (T t) :=
  deriv2_of (turn_sin hR hT) (turn_sin1 hR hR1 hT hT1 t)

end

/-- Downward acceleration from the motion in the meridian plane. -/
theorem down_eq (a f : ℝ) (φ lam h : ℝ → ℝ) {R1 R2 L1 L2 : ℝ → ℝ}
    (hR : ∀ s, HasDerivAt (fun s => axisDistance a f (φ s) (h s)) (R1 s) s) (hR1 : ∀ s, HasDerivAt R1 (R2 s) s)
    (hL : ∀ s, HasDerivAt lam (L1 s) s) (hL1 : ∀ s, HasDerivAt L1 (L2 s) s) (t : ℝ) :
    downAcceleration a f φ lam h t =
      (axisDistance a f (φ t) (h t) * (L1 t + earthRate) ^ 2 - R2 t) * cos (φ t) -
        deriv (deriv fun s => planeDistance a f (φ s) (h s)) t * sin (φ t) := by
  have hT : ∀ s, HasDerivAt (turned lam) (L1 s + earthRate) s := by
    intro s
    unfold turned
    exact ((hL s).add ((hasDerivAt_id s).const_mul earthRate)).congr_deriv (by simp)
  have hT1 : ∀ s, HasDerivAt (fun s => L1 s + earthRate) (L2 s) s := fun s => (hL1 s).add_const _
  unfold downAcceleration
  rw [turning_cos hR hR1 hT hT1, turning_sin hR hR1 hT hT1]
  have hsc := sin_sq_add_cos_sq (turned lam t)
  linear_combination (axisDistance a f (φ t) (h t) * (L1 t + earthRate) ^ 2 - R2 t) * cos (φ t) * hsc

/-- At rest only the rotation of the earth is left. -/
theorem down_rest (a f φ lam h t : ℝ) :
    downAcceleration a f (fun _ => φ) (fun _ => lam) (fun _ => h) t = axisDistance a f φ h * earthRate ^ 2 * cos φ := by
  rw [down_eq (R1 := fun _ => 0) (R2 := fun _ => 0) (L1 := fun _ => 0) (L2 := fun _ => 0) a f _ _ _ (fun s => hasDerivAt_const _ _)
    (fun s => hasDerivAt_const _ _) (fun s => hasDerivAt_const _ _) (fun s => hasDerivAt_const _ _)]
  simp

/-- Rates of the deviation of the normal. -/
noncomputable def dev1 (f φ φ1 : ℝ) : ℝ := 2 * f * cos (2 * φ) * φ1 / (1 + (f * sin (2 * φ)) ^ 2)
noncomputable def dev2 (f φ φ1 φ2 : ℝ) : ℝ :=
  2 * f * (cos (2 * φ) * φ2 - 2 * sin (2 * φ) * φ1 ^ 2) / (1 + (f * sin (2 * φ)) ^ 2) -
    2 * (f * sin (2 * φ)) * (2 * f * cos (2 * φ) * φ1) ^ 2 / (1 + (f * sin (2 * φ)) ^ 2) ^ 2

section
variable {φ φ1 φ2 : ℝ → ℝ} (h0 : ∀ s, HasDerivAt φ (φ1 s) s) (h1 : ∀ s, HasDerivAt φ1 (φ2 s) s)
include h0

private theorem two_phi (s : ℝ) : HasDerivAt (fun s => 2 * φ s) (2 * φ1 s) s := (h0 s).const_mul 2

theorem hasDeriv_dev (f s : ℝ) : HasDerivAt (fun s => deviation f (φ s)) (dev1 f (φ s) (φ1 s)) s := by
  unfold deviation
  refine HasDerivAt.congr_deriv ((two_phi h0 s).sin.const_mul f).arctan ?_
  unfold dev1
  ring

theorem hasDeriv_radius (a f s : ℝ) : HasDerivAt (fun s => radius a f (φ s)) (-a * f * sin (2 * φ s) * φ1 s) s := by
  unfold radius
  refine HasDerivAt.congr_deriv ((((h0 s).sin.pow 2).const_mul f).const_sub 1 |>.const_mul a) ?_
  rw [sin_two_mul]
  simp
  ring

include h1

theorem hasDeriv_dev1 (f s : ℝ) : HasDerivAt (fun s => dev1 f (φ s) (φ1 s)) (dev2 f (φ s) (φ1 s) (φ2 s)) s := by
  unfold dev1
  have hn : HasDerivAt (fun s => 2 * f * cos (2 * φ s) * φ1 s)
      (2 * f * (-sin (2 * φ s) * (2 * φ1 s)) * φ1 s + 2 * f * cos (2 * φ s) * φ2 s) s :=
    ((two_phi h0 s).cos.const_mul (2 * f)).mul (h1 s)
  have hd : HasDerivAt (fun s => 1 + (f * sin (2 * φ s)) ^ 2) (2 * (f * sin (2 * φ s)) * (f * (cos (2 * φ s) * (2 * φ1 s)))) s := by
    exact HasDerivAt.congr_deriv ((((two_phi h0 s).sin.const_mul f).pow 2).const_add 1) (by simp)
  have hne : 1 + (f * sin (2 * φ s)) ^ 2 ≠ 0 := by positivity
  refine HasDerivAt.congr_deriv (hn.div hd hne) ?_
  unfold dev2
  field_simp
  ring

theorem hasDeriv_radius1 (a f s : ℝ) : HasDerivAt (fun s => -a * f * sin (2 * φ s) * φ1 s)
    (-a * f * (sin (2 * φ s) * φ2 s + 2 * cos (2 * φ s) * φ1 s ^ 2)) s := by
  refine HasDerivAt.congr_deriv (((two_phi h0 s).sin.const_mul (-a * f)).mul (h1 s)) ?_
  ring

theorem excess_eq (a f : ℝ) (lam h L1 L2 H1 H2 : ℝ → ℝ)
    (hL : ∀ s, HasDerivAt lam (L1 s) s) (hL1 : ∀ s, HasDerivAt L1 (L2 s) s)
    (hh : ∀ s, HasDerivAt h (H1 s) s) (hh1 : ∀ s, HasDerivAt H1 (H2 s) s) (t : ℝ) :
    excessAcceleration a f φ lam h t =
      ((L1 t + earthRate) ^ 2 - earthRate ^ 2) * cos (φ t) * axisDistance a f (φ t) (h t) +
      (let r := radius a f (φ t)
       let r1 := -a * f * sin (2 * φ t) * φ1 t
       let r2 := -a * f * (sin (2 * φ t) * φ2 t + 2 * cos (2 * φ t) * φ1 t ^ 2)
       let D := deviation f (φ t)
       let D1 := dev1 f (φ t) (φ1 t)
       let D2 := dev2 f (φ t) (φ1 t) (φ2 t)
       (r * (φ1 t - D1) ^ 2 - r2) * cos D - (2 * r1 * (φ1 t - D1) + r * (φ2 t - D2)) * sin D - H2 t + h t * φ1 t ^ 2) := by
  have hψ : ∀ s, HasDerivAt (fun s => φ s - deviation f (φ s)) (φ1 s - dev1 f (φ s) (φ1 s)) s := fun s => (h0 s).sub (hasDeriv_dev h0 f s)
  have hψ1 : ∀ s, HasDerivAt (fun s => φ1 s - dev1 f (φ s) (φ1 s)) (φ2 s - dev2 f (φ s) (φ1 s) (φ2 s)) s :=
    fun s => (h1 s).sub (hasDeriv_dev1 h0 h1 f s)
  have hr := hasDeriv_radius h0 a f
  have hr1 := hasDeriv_radius1 h0 h1 a f
  have hR : ∀ s, HasDerivAt (fun s => axisDistance a f (φ s) (h s)) _ s := fun s => (turn_cos hr hψ s).add (turn_cos hh h0 s)
  have hR1 := fun s => (turn_cos1 hr hr1 hψ hψ1 s).add (turn_cos1 hh hh1 h0 h1 s)
  have hP : ∀ s, HasDerivAt (fun s => planeDistance a f (φ s) (h s)) _ s := fun s => (turn_sin hr hψ s).add (turn_sin hh h0 s)
  have hP1 := fun s => (turn_sin1 hr hr1 hψ hψ1 s).add (turn_sin1 hh hh1 h0 h1 s)
  unfold excessAcceleration
  rw [down_rest, down_eq a f φ lam h hR hR1 hL hL1 t, deriv2_of hP (hP1 t)]
  simp only
  have e1 : cos (φ t - deviation f (φ t)) * cos (φ t) + sin (φ t - deviation f (φ t)) * sin (φ t) = cos (deviation f (φ t)) := by
    rw [← cos_sub, sub_sub_cancel_left, cos_neg]
  have e2 : sin (φ t - deviation f (φ t)) * cos (φ t) - cos (φ t - deviation f (φ t)) * sin (φ t) = -sin (deviation f (φ t)) := by
    rw [← sin_sub, sub_sub_cancel_left, sin_neg]
  have e3 := sin_sq_add_cos_sq (φ t)
  generalize radius a f (φ t) = r at *
  generalize -a * f * sin (2 * φ t) * φ1 t = r1 at *
  generalize -a * f * (sin (2 * φ t) * φ2 t + 2 * cos (2 * φ t) * φ1 t ^ 2) = r2 at *
  generalize dev1 f (φ t) (φ1 t) = D1 at *
  generalize dev2 f (φ t) (φ1 t) (φ2 t) = D2 at *
  linear_combination (-(r2 - r * (φ1 t - D1) ^ 2)) * e1 + (2 * r1 * (φ1 t - D1) + r * (φ2 t - D2)) * e2 - (H2 t - h t * φ1 t ^ 2) * e3

end

end Shipgrav
