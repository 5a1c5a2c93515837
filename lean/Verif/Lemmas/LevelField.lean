import Verif.Lemmas.Confocal
import Verif.Lemmas.Arctan
import Verif.Lemmas.MaxPrinciple
import Mathlib.Analysis.SpecialFunctions.Trigonometric.ArctanDeriv
import Mathlib.Analysis.SpecialFunctions.Sqrt

/-! The field of the level ellipsoid in closed form. -/

namespace Shipgrav
open Spec Real Filter Topology

/-- `arctan (E / u)`. -/
noncomputable def levT (E u : ℝ) : ℝ := arctan (E / u)
/-- `q(u)`. -/
noncomputable def levQ (E u : ℝ) : ℝ := ((1 + 3 * u ^ 2 / E ^ 2) * levT E u - 3 * u / E) / 2
/-- `dq/du`. -/
noncomputable def levQ1 (E u : ℝ) : ℝ := 3 * u / E ^ 2 * levT E u - ((E ^ 2 + 3 * u ^ 2) / (E * (u ^ 2 + E ^ 2)) + 3 / E) / 2
noncomputable def levQ2 (E u : ℝ) : ℝ := (6 * levQ E u - 2 * u * levQ1 E u) / (u ^ 2 + E ^ 2)

variable {E u : ℝ}

theorem hasDeriv_levT (hE : 0 < E) (hu : 0 < u) : HasDerivAt (levT E) (-E / (u ^ 2 + E ^ 2)) u := by
  unfold levT
  have h1 : HasDerivAt (fun u : ℝ => E / u) (-E / u ^ 2) u := by
    refine HasDerivAt.congr_deriv ((hasDerivAt_inv hu.ne').const_mul E) ?_
    field_simp
  refine HasDerivAt.congr_deriv h1.arctan ?_
  field_simp

theorem hasDeriv_levQ (hE : 0 < E) (hu : 0 < u) : HasDerivAt (levQ E) (levQ1 E u) u := by
  have h1 : HasDerivAt (fun u : ℝ => 1 + 3 * u ^ 2 / E ^ 2) (6 * u / E ^ 2) u := by
    refine HasDerivAt.congr_deriv ((((hasDerivAt_pow 2 u).const_mul 3).div_const (E ^ 2)).const_add 1) ?_
    norm_num
    ring
  have h2 : HasDerivAt (fun u : ℝ => 3 * u / E) (3 / E) u := by
    refine HasDerivAt.congr_deriv (((hasDerivAt_id u).const_mul 3).div_const E) ?_
    ring
  unfold levQ
  refine HasDerivAt.congr_deriv (((h1.mul (hasDeriv_levT hE hu)).sub h2).div_const 2) ?_
  unfold levQ1
  field_simp
  ring

theorem hasDeriv_levQ1 (hE : 0 < E) (hu : 0 < u) : HasDerivAt (levQ1 E) (levQ2 E u) u := by
  have h1 : HasDerivAt (fun u : ℝ => 3 * u / E ^ 2) (3 / E ^ 2) u := by
    refine HasDerivAt.congr_deriv (((hasDerivAt_id u).const_mul 3).div_const (E ^ 2)) ?_
    ring
  have h2 : HasDerivAt (fun u : ℝ => E ^ 2 + 3 * u ^ 2) (6 * u) u := by
    refine HasDerivAt.congr_deriv (((hasDerivAt_pow 2 u).const_mul 3).const_add (E ^ 2)) ?_
    norm_num
    ring
  have h3 : HasDerivAt (fun u : ℝ => E * (u ^ 2 + E ^ 2)) (E * (2 * u)) u := by
    refine HasDerivAt.congr_deriv (((hasDerivAt_pow 2 u).add_const (E ^ 2)).const_mul E) ?_
    norm_num
  have h0 : E * (u ^ 2 + E ^ 2) ≠ 0 := by positivity
  unfold levQ1
  refine HasDerivAt.congr_deriv ((h1.mul (hasDeriv_levT hE hu)).sub (((h2.div h3 h0).add_const (3 / E)).div_const 2)) ?_
  unfold levQ2 levQ levQ1
  field_simp
  ring

theorem levQ_pos (hE : 0 < E) (hu : 0 < u) : 0 < levQ E u := by
  have h := arctan_gt_ratio (E / u) (by positivity)
  unfold levQ levT
  generalize arctan (E / u) = A at *
  rw [div_lt_iff₀ (by positivity)] at h
  field_simp at h ⊢
  linarith

/-- The factor of `q(u)`. -/
noncomputable def levK (a b ω E : ℝ) : ℝ := ω ^ 2 * a ^ 2 / (2 * levQ E b)

/-- Factor of `z²` in the potential of attraction. -/
noncomputable def levF (k E u : ℝ) : ℝ := k * levQ E u / u ^ 2
noncomputable def levF1 (k E u : ℝ) : ℝ := k * (levQ1 E u / u ^ 2 - 2 * levQ E u / u ^ 3)
noncomputable def levF2 (k E u : ℝ) : ℝ := k * (levQ2 E u / u ^ 2 - 4 * levQ1 E u / u ^ 3 + 6 * levQ E u / u ^ 4)
/-- The part that depends on `u` only. -/
noncomputable def levG (GM k E u : ℝ) : ℝ := GM / E * levT E u - k * levQ E u / 3
noncomputable def levG1 (GM k E u : ℝ) : ℝ := -GM / (u ^ 2 + E ^ 2) - k * levQ1 E u / 3
noncomputable def levG2 (GM k E u : ℝ) : ℝ := 2 * GM * u / (u ^ 2 + E ^ 2) ^ 2 - k * levQ2 E u / 3

theorem hasDeriv_levF (k : ℝ) (hE : 0 < E) (hu : 0 < u) : HasDerivAt (levF k E) (levF1 k E u) u := by
  unfold levF
  refine HasDerivAt.congr_deriv (((hasDeriv_levQ hE hu).const_mul k).div (hasDerivAt_pow 2 u) (by positivity)) ?_
  unfold levF1
  field_simp
  norm_num
  ring

theorem hasDeriv_levF1 (k : ℝ) (hE : 0 < E) (hu : 0 < u) : HasDerivAt (levF1 k E) (levF2 k E u) u := by
  unfold levF1
  refine HasDerivAt.congr_deriv ((((hasDeriv_levQ1 hE hu).div (hasDerivAt_pow 2 u) (by positivity)).sub
    (((hasDeriv_levQ hE hu).const_mul 2).div (hasDerivAt_pow 3 u) (by positivity))).const_mul k) ?_
  unfold levF2
  field_simp
  norm_num
  ring

theorem hasDeriv_levG (GM k : ℝ) (hE : 0 < E) (hu : 0 < u) : HasDerivAt (levG GM k E) (levG1 GM k E u) u := by
  unfold levG
  refine HasDerivAt.congr_deriv (((hasDeriv_levT hE hu).const_mul (GM / E)).sub (((hasDeriv_levQ hE hu).const_mul k).div_const 3)) ?_
  unfold levG1
  field_simp

theorem hasDeriv_levG1 (GM k : ℝ) (hE : 0 < E) (hu : 0 < u) : HasDerivAt (levG1 GM k E) (levG2 GM k E u) u := by
  have h1 : HasDerivAt (fun u : ℝ => -GM / (u ^ 2 + E ^ 2)) (2 * GM * u / (u ^ 2 + E ^ 2) ^ 2) u := by
    have h := (hasDerivAt_const u (-GM)).div ((hasDerivAt_pow 2 u).add_const (E ^ 2)) (by positivity)
    refine HasDerivAt.congr_deriv h ?_
    norm_num
    ring
  unfold levG1
  exact h1.sub (((hasDeriv_levQ1 hE hu).const_mul k).div_const 3)

/-- Potential of attraction. -/
noncomputable def levV (GM k E : ℝ) (p : Space) : ℝ :=
  levF k E (confU (E ^ 2) p.1 p.2.1 p.2.2) * p.2.2 ^ 2 + levG GM k E (confU (E ^ 2) p.1 p.2.1 p.2.2)

theorem levV_harmonic (GM k : ℝ) (hE : 0 < E) (p : Space) (hu : 0 < confU (E ^ 2) p.1 p.2.1 p.2.2) : laplacian (levV GM k E) p = 0 := by
  unfold levV
  refine laplacian_conf p (by positivity) hu (fun u h => hasDeriv_levF k hE h) (fun u h => hasDeriv_levF1 k hE h)
    (fun u h => hasDeriv_levG GM k hE h) (fun u h => hasDeriv_levG1 GM k hE h) (fun u h => ?_) (fun u h => ?_)
  · unfold levG2 levG1 levF levQ2
    field_simp
    ring
  · unfold levF2 levF1 levF levQ2
    field_simp
    ring

end Shipgrav
