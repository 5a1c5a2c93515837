import Verif.Spec.LevelEllipsoid
import Mathlib.Analysis.Calculus.Deriv.Add
import Mathlib.Analysis.Calculus.Deriv.Mul
import Mathlib.Analysis.Calculus.Deriv.Pow
import Mathlib.Analysis.Calculus.Deriv.Inv
import Mathlib.Analysis.SpecialFunctions.Sqrt
import Mathlib.Tactic.FieldSimp
import Mathlib.Tactic.LinearCombination

/-! Ellipsoidal coordinate `u`: half axis of the confocal ellipsoid through a point. -/

namespace Shipgrav
open Spec Real Filter Topology

/-- `r² - c`. -/
noncomputable def confM (c x y z : ℝ) : ℝ := x ^ 2 + y ^ 2 + z ^ 2 - c
/-- `√((r² - c)² + 4 c z²)`. -/
noncomputable def confS (c x y z : ℝ) : ℝ := √(confM c x y z ^ 2 + 4 * c * z ^ 2)
/-- The half axis. -/
noncomputable def confU (c x y z : ℝ) : ℝ := √((confM c x y z + confS c x y z) / 2)

section
variable {c x y z : ℝ}

theorem confS_sq (hc : 0 < c) : confS c x y z ^ 2 = confM c x y z ^ 2 + 4 * c * z ^ 2 := sq_sqrt (by positivity)

theorem confM_le (hc : 0 < c) : |confM c x y z| ≤ confS c x y z := by
  unfold confS
  rw [← sqrt_sq_eq_abs]
  exact sqrt_le_sqrt (by nlinarith [mul_nonneg hc.le (sq_nonneg z)])

theorem confU_sq (hc : 0 < c) : confU c x y z ^ 2 = (confM c x y z + confS c x y z) / 2 :=
  sq_sqrt (by have := neg_abs_le (confM c x y z); have := confM_le (x := x) (y := y) (z := z) hc; linarith)

/-- The point lies on the confocal ellipsoid with half axis `u`. -/
theorem confU_rel (hc : 0 < c) : (confU c x y z ^ 2) ^ 2 = confM c x y z * confU c x y z ^ 2 + c * z ^ 2 := by
  rw [confU_sq hc]
  linear_combination (1 / 4) * confS_sq (c := c) (x := x) (y := y) (z := z) hc

theorem confS_eq (hc : 0 < c) : confS c x y z = 2 * confU c x y z ^ 2 - confM c x y z := by
  rw [confU_sq hc]; ring

theorem confU_sq_le_confS (hc : 0 < c) : confU c x y z ^ 2 ≤ confS c x y z := by
  rw [confU_sq hc]
  have := le_abs_self (confM c x y z)
  have := confM_le (x := x) (y := y) (z := z) hc
  linarith

theorem confS_pos (hc : 0 < c) (hu : 0 < confU c x y z) : 0 < confS c x y z :=
  lt_of_lt_of_le (by positivity) (confU_sq_le_confS hc)

theorem confS_ratio (hc : 0 < c) (hu : 0 < confU c x y z) : confS c x y z = confU c x y z ^ 2 + c * z ^ 2 / confU c x y z ^ 2 := by
  have := confU_rel (x := x) (y := y) (z := z) hc
  rw [confS_eq hc]
  field_simp
  linear_combination this

/-- The point in terms of `u`. -/
theorem conf_axis (hc : 0 < c) (hu : 0 < confU c x y z) :
    x ^ 2 + y ^ 2 = (confU c x y z ^ 2 + c) * (1 - z ^ 2 / confU c x y z ^ 2) := by
  have := confU_rel (x := x) (y := y) (z := z) hc
  unfold confM at this
  field_simp
  linear_combination -this

/-- Where the coordinate has a given value. -/
theorem confU_unique (hc : 0 < c) {b : ℝ} (hb : 0 < b) (h : (x ^ 2 + y ^ 2) / (b ^ 2 + c) + z ^ 2 / b ^ 2 = 1) : confU c x y z = b := by
  have hw := confU_rel (x := x) (y := y) (z := z) hc
  have hS := confM_le (x := x) (y := y) (z := z) hc
  have hu := confU_sq (x := x) (y := y) (z := z) hc
  have h0 : 0 ≤ confU c x y z := sqrt_nonneg _
  rw [div_add_div _ _ (by positivity) (by positivity), div_eq_one_iff_eq (by positivity)] at h
  have h1 : (confU c x y z ^ 2 - b ^ 2) * (confU c x y z ^ 2 + b ^ 2 - confM c x y z) = 0 := by
    unfold confM at *
    linear_combination hw + h
  have h2 : 0 < confU c x y z ^ 2 + b ^ 2 - confM c x y z := by
    have := le_abs_self (confM c x y z)
    rw [hu]
    nlinarith
  have h3 := (mul_eq_zero.1 h1).resolve_right h2.ne'
  exact (pow_left_inj₀ h0 hb.le two_ne_zero).1 (by linarith)

/-- Outside the ellipsoid the coordinate is at least its half axis. -/
theorem confU_ge (hc : 0 < c) {b : ℝ} (hb : 0 < b) (h : 1 ≤ (x ^ 2 + y ^ 2) / (b ^ 2 + c) + z ^ 2 / b ^ 2) : b ≤ confU c x y z := by
  have hw := confU_rel (x := x) (y := y) (z := z) hc
  have hS := confM_le (x := x) (y := y) (z := z) hc
  have hu := confU_sq (x := x) (y := y) (z := z) hc
  have h0 : 0 ≤ confU c x y z := sqrt_nonneg _
  rw [div_add_div _ _ (by positivity) (by positivity), one_le_div (by positivity)] at h
  have h1 : 0 ≤ (confU c x y z ^ 2 - b ^ 2) * (confU c x y z ^ 2 + b ^ 2 - confM c x y z) := by
    unfold confM at *
    nlinarith
  have h2 : 0 < confU c x y z ^ 2 + b ^ 2 - confM c x y z := by
    have := le_abs_self (confM c x y z)
    rw [hu]
    nlinarith
  have h3 : 0 ≤ confU c x y z ^ 2 - b ^ 2 := nonneg_of_mul_nonneg_left h1 h2
  exact (pow_le_pow_iff_left₀ hb.le h0 two_ne_zero).1 (by linarith)

private theorem arg_pos (hc : 0 < c) (hu : 0 < confU c x y z) : 0 < confM c x y z ^ 2 + 4 * c * z ^ 2 := by
  rw [← confS_sq hc]; have := confS_pos hc hu; positivity

private theorem half_pos' (hc : 0 < c) (hu : 0 < confU c x y z) : 0 < (confM c x y z + confS c x y z) / 2 := by
  rw [← confU_sq hc]; positivity

/-- Derivatives along `x`. -/
theorem hasDeriv_confM_x (s : ℝ) : HasDerivAt (fun s => confM c s y z) (2 * s) s := by
  unfold confM
  refine HasDerivAt.congr_deriv ((((hasDerivAt_pow 2 s).add_const (y ^ 2)).add_const (z ^ 2)).sub_const c) (by simp)

theorem hasDeriv_confS_x (hc : 0 < c) (hu : 0 < confU c x y z) : HasDerivAt (fun s => confS c s y z) (2 * confM c x y z * x / confS c x y z) x := by
  have h := (((hasDeriv_confM_x (c := c) (y := y) (z := z) x).pow 2).add_const (4 * c * z ^ 2)).sqrt (arg_pos hc hu).ne'
  refine HasDerivAt.congr_deriv h ?_
  have := confS_pos hc hu
  unfold confS at *
  simp
  field_simp

theorem hasDeriv_confU_x (hc : 0 < c) (hu : 0 < confU c x y z) : HasDerivAt (fun s => confU c s y z) (x * confU c x y z / confS c x y z) x := by
  have h := (((hasDeriv_confM_x (c := c) (y := y) (z := z) x).add (hasDeriv_confS_x hc hu)).div_const 2).sqrt (half_pos' hc hu).ne'
  refine HasDerivAt.congr_deriv h ?_
  have h1 := confS_pos hc hu
  have h2 := confU_sq (x := x) (y := y) (z := z) hc
  show _ / (2 * confU c x y z) = _
  field_simp
  rw [h2]
  ring

/-- Derivatives along `z`. -/
theorem hasDeriv_confM_z (s : ℝ) : HasDerivAt (fun s => confM c x y s) (2 * s) s := by
  unfold confM
  refine HasDerivAt.congr_deriv (((hasDerivAt_pow 2 s).const_add (x ^ 2 + y ^ 2)).sub_const c) (by simp)

theorem hasDeriv_confS_z (hc : 0 < c) (hu : 0 < confU c x y z) :
    HasDerivAt (fun s => confS c x y s) ((2 * confM c x y z * z + 4 * c * z) / confS c x y z) z := by
  have h := (((hasDeriv_confM_z (c := c) (x := x) (y := y) z).pow 2).add ((hasDerivAt_pow 2 z).const_mul (4 * c))).sqrt (arg_pos hc hu).ne'
  refine HasDerivAt.congr_deriv h ?_
  have := confS_pos hc hu
  unfold confS at *
  simp
  field_simp

theorem hasDeriv_confU_z (hc : 0 < c) (hu : 0 < confU c x y z) :
    HasDerivAt (fun s => confU c x y s) (z * (confU c x y z ^ 2 + c) / (confU c x y z * confS c x y z)) z := by
  have h := (((hasDeriv_confM_z (c := c) (x := x) (y := y) z).add (hasDeriv_confS_z hc hu)).div_const 2).sqrt (half_pos' hc hu).ne'
  refine HasDerivAt.congr_deriv h ?_
  have h1 := confS_pos hc hu
  have h2 := confU_sq (x := x) (y := y) (z := z) hc
  show _ / (2 * confU c x y z) = _
  field_simp
  rw [h2]
  ring

end

/-- The two coordinates in the plane of the equator can be exchanged. -/
theorem conf_swap (c x y z : ℝ) : confM c x y z = confM c y x z ∧ confS c x y z = confS c y x z ∧ confU c x y z = confU c y x z := by
  have h : confM c x y z = confM c y x z := by unfold confM; ring
  refine ⟨h, ?_, ?_⟩
  · unfold confS; rw [h]
  · unfold confU confS; rw [h]

theorem deriv_two {F F1 : ℝ → ℝ} {F2 x : ℝ} (h : ∀ᶠ s in 𝓝 x, HasDerivAt F (F1 s) s) (h2 : HasDerivAt F1 F2 x) : deriv (deriv F) x = F2 := by
  have : deriv F =ᶠ[𝓝 x] F1 := h.mono fun s hs => hs.deriv
  rw [this.deriv_eq, h2.deriv]

section
variable {c x y z : ℝ} {f g f1 f2 g1 g2 : ℝ → ℝ}

private theorem second_x (hc : 0 < c) (hu : 0 < confU c x y z) (k : ℝ) (hf : ∀ u, 0 < u → HasDerivAt f (f1 u) u)
    (hf1 : ∀ u, 0 < u → HasDerivAt f1 (f2 u) u) (hg : ∀ u, 0 < u → HasDerivAt g (g1 u) u) (hg1 : ∀ u, 0 < u → HasDerivAt g1 (g2 u) u) :
    deriv (deriv fun s => f (confU c s y z) * k + g (confU c s y z)) x =
      (f2 (confU c x y z) * k + g2 (confU c x y z)) * (x * confU c x y z / confS c x y z) ^ 2 +
      (f1 (confU c x y z) * k + g1 (confU c x y z)) *
        ((confU c x y z + x * (x * confU c x y z / confS c x y z)) / confS c x y z -
          x * confU c x y z * (2 * confM c x y z * x / confS c x y z) / confS c x y z ^ 2) := by
  have hn : ∀ᶠ s in 𝓝 x, 0 < confU c s y z := (hasDeriv_confU_x hc hu).continuousAt.eventually (lt_mem_nhds hu)
  have hd : ∀ s, 0 < confU c s y z → HasDerivAt (fun s => f (confU c s y z) * k + g (confU c s y z))
      ((f1 (confU c s y z) * k + g1 (confU c s y z)) * (s * confU c s y z / confS c s y z)) s := by
    intro s hs
    have h1 := hasDeriv_confU_x hc hs
    refine HasDerivAt.congr_deriv ((((hf _ hs).comp s h1).mul_const k).add ((hg _ hs).comp s h1)) ?_
    ring
  refine deriv_two (hn.mono fun s hs => hd s hs) ?_
  have h1 := hasDeriv_confU_x hc hu
  have hS := hasDeriv_confS_x hc hu
  have hq : HasDerivAt (fun s => s * confU c s y z / confS c s y z) _ x := ((hasDerivAt_id x).mul h1).div hS (confS_pos hc hu).ne'
  refine HasDerivAt.congr_deriv (((((hf1 _ hu).comp x h1).mul_const k).add ((hg1 _ hu).comp x h1)).mul hq) ?_
  have := confS_pos hc hu
  simp only [id_eq, Function.comp_apply, Pi.add_apply, Pi.mul_apply]
  field_simp

private theorem second_z (hc : 0 < c) (hu : 0 < confU c x y z) (hf : ∀ u, 0 < u → HasDerivAt f (f1 u) u)
    (hf1 : ∀ u, 0 < u → HasDerivAt f1 (f2 u) u) (hg : ∀ u, 0 < u → HasDerivAt g (g1 u) u) (hg1 : ∀ u, 0 < u → HasDerivAt g1 (g2 u) u) :
    let u := confU c x y z
    let S := confS c x y z
    let d := z * (u ^ 2 + c) / (u * S)
    deriv (deriv fun s => f (confU c x y s) * s ^ 2 + g (confU c x y s)) z =
      (f2 u * z ^ 2 + g2 u) * d ^ 2 + 4 * z * f1 u * d + 2 * f u +
      (f1 u * z ^ 2 + g1 u) * (((u ^ 2 + c) + z * (2 * u * d)) / (u * S) -
        z * (u ^ 2 + c) * (d * S + u * ((2 * confM c x y z * z + 4 * c * z) / S)) / (u * S) ^ 2) := by
  intro u S d
  have hn : ∀ᶠ s in 𝓝 z, 0 < confU c x y s := (hasDeriv_confU_z hc hu).continuousAt.eventually (lt_mem_nhds hu)
  have hd : ∀ s, 0 < confU c x y s → HasDerivAt (fun s => f (confU c x y s) * s ^ 2 + g (confU c x y s))
      ((f1 (confU c x y s) * s ^ 2 + g1 (confU c x y s)) * (s * (confU c x y s ^ 2 + c) / (confU c x y s * confS c x y s)) +
        f (confU c x y s) * (2 * s)) s := by
    intro s hs
    have h1 := hasDeriv_confU_z hc hs
    refine HasDerivAt.congr_deriv ((((hf _ hs).comp s h1).mul (hasDerivAt_pow 2 s)).add ((hg _ hs).comp s h1)) ?_
    simp only [Function.comp_apply]
    norm_num
    ring
  refine deriv_two (hn.mono fun s hs => hd s hs) ?_
  have h1 := hasDeriv_confU_z hc hu
  have hS := hasDeriv_confS_z hc hu
  have hS0 := confS_pos hc hu
  have hq : HasDerivAt (fun s => s * (confU c x y s ^ 2 + c) / (confU c x y s * confS c x y s)) _ z :=
    ((hasDerivAt_id z).mul ((h1.pow 2).add_const c)).div (h1.mul hS) (mul_pos hu hS0).ne'
  refine HasDerivAt.congr_deriv ((((((hf1 _ hu).comp z h1).mul (hasDerivAt_pow 2 z)).add ((hg1 _ hu).comp z h1)).mul hq).add
    (((hf _ hu).comp z h1).mul ((hasDerivAt_id z).const_mul 2))) ?_
  simp only [id_eq, Function.comp_apply, Pi.add_apply, Pi.mul_apply, Pi.pow_apply, u, S, d]
  generalize confU c x y z = U at *
  generalize confS c x y z = T at *
  field_simp
  norm_num
  ring

private theorem grad_sq (u z c S X : ℝ) (hu : 0 < u) (hc : 0 < c) (hS : S = u ^ 2 + c * z ^ 2 / u ^ 2) (hX : X = (u ^ 2 + c) * (1 - z ^ 2 / u ^ 2)) :
    X * (u / S) ^ 2 + (z * (u ^ 2 + c) / (u * S)) ^ 2 = (u ^ 2 + c) / S := by
  have hS1 : S = (u ^ 4 + c * z ^ 2) / u ^ 2 := by rw [hS]; field_simp
  have h0 : 0 < u ^ 4 + c * z ^ 2 := by positivity
  rw [hX, hS1]
  field_simp
  ring

private theorem lap_u (u z c S X : ℝ) (hu : 0 < u) (hc : 0 < c) (hS : S = u ^ 2 + c * z ^ 2 / u ^ 2) (hX : X = (u ^ 2 + c) * (1 - z ^ 2 / u ^ 2)) :
    2 * (u / S) + X * (u / S / S) - X * (u * (2 * (2 * u ^ 2 - S) / S) / S ^ 2) +
      (((u ^ 2 + c) + z * (2 * u * (z * (u ^ 2 + c) / (u * S)))) / (u * S) -
        z * (u ^ 2 + c) * ((z * (u ^ 2 + c) / (u * S)) * S + u * ((2 * (2 * u ^ 2 - S) * z + 4 * c * z) / S)) / (u * S) ^ 2) = 2 * u / S := by
  have hS1 : S = (u ^ 4 + c * z ^ 2) / u ^ 2 := by rw [hS]; field_simp
  have h0 : 0 < u ^ 4 + c * z ^ 2 := by positivity
  rw [hX, hS1]
  field_simp
  ring

/-- Laplace operator in the ellipsoidal coordinate. -/
theorem laplacian_conf (p : Space) (hc : 0 < c) (hu : 0 < confU c p.1 p.2.1 p.2.2) (hf : ∀ u, 0 < u → HasDerivAt f (f1 u) u)
    (hf1 : ∀ u, 0 < u → HasDerivAt f1 (f2 u) u) (hg : ∀ u, 0 < u → HasDerivAt g (g1 u) u) (hg1 : ∀ u, 0 < u → HasDerivAt g1 (g2 u) u)
    (e0 : ∀ u, 0 < u → g2 u * (u ^ 2 + c) + 2 * u * g1 u + 2 * f u * u ^ 2 = 0)
    (e2 : ∀ u, 0 < u → f2 u * (u ^ 2 + c) + 2 * u * f1 u + 4 * f1 u * (u ^ 2 + c) / u + 2 * f u * c / u ^ 2 = 0) :
    laplacian (fun p => f (confU c p.1 p.2.1 p.2.2) * p.2.2 ^ 2 + g (confU c p.1 p.2.1 p.2.2)) p = 0 := by
  obtain ⟨x, y, z⟩ := p
  simp only at hu
  unfold laplacian
  simp only
  have sw : ∀ s, confU c x s z = confU c s x z := fun s => (conf_swap c x s z).2.2
  rw [second_x hc hu _ hf hf1 hg hg1, second_z hc hu hf hf1 hg hg1]
  simp only [sw]
  rw [second_x hc (by rw [← sw]; exact hu) _ hf hf1 hg hg1, ← (conf_swap c x y z).1, ← (conf_swap c x y z).2.1, ← (conf_swap c x y z).2.2]
  have hS := confS_ratio hc hu
  have hS0 := confS_pos hc hu
  have hM : confM c x y z = 2 * confU c x y z ^ 2 - confS c x y z := by rw [confS_eq hc]; ring
  have hx := conf_axis hc hu
  have E0 := e0 _ hu
  have E2 := e2 _ hu
  rw [hM]
  generalize confU c x y z = u at *
  generalize f2 u = F2 at *
  generalize f1 u = F1 at *
  generalize f u = F at *
  generalize g2 u = G2 at *
  generalize g1 u = G1 at *
  generalize confS c x y z = S at *
  have hg := grad_sq u z c S _ hu hc hS hx
  have hl := lap_u u z c S _ hu hc hS hx
  have hfin : (F2 * z ^ 2 + G2) * ((u ^ 2 + c) / S) + (F1 * z ^ 2 + G1) * (2 * u / S) + 4 * z * F1 * (z * (u ^ 2 + c) / (u * S)) + 2 * F = 0 := by
    rw [show 2 * F = 2 * F * (u ^ 2 + c * z ^ 2 / u ^ 2) / S by rw [← hS]; field_simp]
    field_simp at E2 ⊢
    linear_combination (u ^ 2) * E0 + z ^ 2 * E2
  rw [← hg, ← hl] at hfin
  linear_combination hfin

end

end Shipgrav
