import Verif.Lemmas.LevelExists
import Mathlib.Analysis.Calculus.Deriv.Prod

/-! Gravity on the level ellipsoid: the formula of Somigliana. -/

namespace Shipgrav
open Spec Real Filter Topology

variable {E GM k : ℝ}

private theorem part_x (hE : 0 < E) (p : Space) (hu : 0 < confU (E ^ 2) p.1 p.2.1 p.2.2) :
    HasDerivAt (fun s => levV GM k E (s, p.2.1, p.2.2))
      ((levF1 k E (confU (E ^ 2) p.1 p.2.1 p.2.2) * p.2.2 ^ 2 + levG1 GM k E (confU (E ^ 2) p.1 p.2.1 p.2.2)) *
        (p.1 * confU (E ^ 2) p.1 p.2.1 p.2.2 / confS (E ^ 2) p.1 p.2.1 p.2.2)) p.1 := by
  have h1 := hasDeriv_confU_x (by positivity : 0 < E ^ 2) hu
  have hf : HasDerivAt (fun s => levF k E (confU (E ^ 2) s p.2.1 p.2.2)) _ p.1 := HasDerivAt.comp (h₂ := levF k E) (h := fun s => confU (E ^ 2) s p.2.1 p.2.2) p.1 (hasDeriv_levF k hE hu) h1
  have hg : HasDerivAt (fun s => levG GM k E (confU (E ^ 2) s p.2.1 p.2.2)) _ p.1 := HasDerivAt.comp (h₂ := levG GM k E) (h := fun s => confU (E ^ 2) s p.2.1 p.2.2) p.1 (hasDeriv_levG GM k hE hu) h1
  unfold levV
  refine HasDerivAt.congr_deriv ((hf.mul_const (p.2.2 ^ 2)).add hg) ?_
  ring

private theorem part_y (hE : 0 < E) (p : Space) (hu : 0 < confU (E ^ 2) p.1 p.2.1 p.2.2) :
    HasDerivAt (fun s => levV GM k E (p.1, s, p.2.2))
      ((levF1 k E (confU (E ^ 2) p.1 p.2.1 p.2.2) * p.2.2 ^ 2 + levG1 GM k E (confU (E ^ 2) p.1 p.2.1 p.2.2)) *
        (p.2.1 * confU (E ^ 2) p.1 p.2.1 p.2.2 / confS (E ^ 2) p.1 p.2.1 p.2.2)) p.2.1 := by
  obtain ⟨x, y, z⟩ := p
  simp only at *
  have sw := conf_swap (E ^ 2) x y z
  have := part_x (GM := GM) (k := k) hE (y, x, z) (by simp only; rw [← sw.2.2]; exact hu)
  simp only at this
  rw [← sw.2.2, ← sw.2.1] at this
  refine this.congr_of_eventuallyEq (Eventually.of_forall fun s => ?_)
  unfold levV
  simp only
  rw [(conf_swap (E ^ 2) x s z).2.2]

private theorem part_z (hE : 0 < E) (p : Space) (hu : 0 < confU (E ^ 2) p.1 p.2.1 p.2.2) :
    HasDerivAt (fun s => levV GM k E (p.1, p.2.1, s))
      ((levF1 k E (confU (E ^ 2) p.1 p.2.1 p.2.2) * p.2.2 ^ 2 + levG1 GM k E (confU (E ^ 2) p.1 p.2.1 p.2.2)) *
        (p.2.2 * (confU (E ^ 2) p.1 p.2.1 p.2.2 ^ 2 + E ^ 2) / (confU (E ^ 2) p.1 p.2.1 p.2.2 * confS (E ^ 2) p.1 p.2.1 p.2.2)) +
        levF k E (confU (E ^ 2) p.1 p.2.1 p.2.2) * (2 * p.2.2)) p.2.2 := by
  have h1 := hasDeriv_confU_z (by positivity : 0 < E ^ 2) hu
  have hf : HasDerivAt (fun s => levF k E (confU (E ^ 2) p.1 p.2.1 s)) _ p.2.2 := HasDerivAt.comp (h₂ := levF k E) (h := fun s => confU (E ^ 2) p.1 p.2.1 s) p.2.2 (hasDeriv_levF k hE hu) h1
  have hg : HasDerivAt (fun s => levG GM k E (confU (E ^ 2) p.1 p.2.1 s)) _ p.2.2 := HasDerivAt.comp (h₂ := levG GM k E) (h := fun s => confU (E ^ 2) p.1 p.2.1 s) p.2.2 (hasDeriv_levG GM k hE hu) h1
  unfold levV
  refine HasDerivAt.congr_deriv ((hf.mul (hasDerivAt_pow 2 p.2.2)).add hg) ?_
  norm_num
  ring

/-- Derivative along a line from the partial derivatives. -/
theorem line_deriv {V : Space → ℝ} {p n : Space} {dx dy dz : ℝ} (hV : DifferentiableAt ℝ V p)
    (hx : HasDerivAt (fun s => V (s, p.2.1, p.2.2)) dx p.1) (hy : HasDerivAt (fun s => V (p.1, s, p.2.2)) dy p.2.1)
    (hz : HasDerivAt (fun s => V (p.1, p.2.1, s)) dz p.2.2) :
    HasDerivAt (fun t : ℝ => V (p + t • n)) (dx * n.1 + dy * n.2.1 + dz * n.2.2) 0 := by
  have hL := hV.hasFDerivAt
  have cx : HasDerivAt (fun s : ℝ => ((s, p.2.1, p.2.2) : Space)) (1, 0, 0) p.1 := (hasDerivAt_id p.1).prodMk (hasDerivAt_const _ _)
  have cy : HasDerivAt (fun s : ℝ => ((p.1, s, p.2.2) : Space)) (0, 1, 0) p.2.1 :=
    HasDerivAt.prodMk (hasDerivAt_const _ _) ((hasDerivAt_id p.2.1).prodMk (hasDerivAt_const _ _))
  have cz : HasDerivAt (fun s : ℝ => ((p.1, p.2.1, s) : Space)) (0, 0, 1) p.2.2 :=
    HasDerivAt.prodMk (hasDerivAt_const _ _) (HasDerivAt.prodMk (hasDerivAt_const _ _) (hasDerivAt_id p.2.2))
  have ex : fderiv ℝ V p (1, 0, 0) = dx := (hL.comp_hasDerivAt (f := fun s : ℝ => ((s, p.2.1, p.2.2) : Space)) p.1 cx).unique hx
  have ey : fderiv ℝ V p (0, 1, 0) = dy := (hL.comp_hasDerivAt (f := fun s : ℝ => ((p.1, s, p.2.2) : Space)) p.2.1 cy).unique hy
  have ez : fderiv ℝ V p (0, 0, 1) = dz := (hL.comp_hasDerivAt (f := fun s : ℝ => ((p.1, p.2.1, s) : Space)) p.2.2 cz).unique hz
  have cl : HasDerivAt (fun t : ℝ => p + t • n) n 0 := by
    have := ((hasDerivAt_id (0 : ℝ)).smul_const n).const_add p
    simpa using this
  have hL' : HasFDerivAt V (fderiv ℝ V p) (p + (0 : ℝ) • n) := by simpa using hL
  refine HasDerivAt.congr_deriv (hL'.comp_hasDerivAt (f := fun t : ℝ => p + t • n) 0 cl) ?_
  have : n = n.1 • (1, 0, 0) + n.2.1 • (0, 1, 0) + n.2.2 • (0, 0, 1) := by
    obtain ⟨n1, n2, n3⟩ := n
    simp
  conv_lhs => rw [this]
  rw [map_add, map_add, map_smul, map_smul, map_smul, ex, ey, ez]
  simp only [smul_eq_mul]
  ring

/-- Gravity on the equator and at the poles. -/
noncomputable def levEquator (a b GM ω : ℝ) : ℝ :=
  let E := √(a ^ 2 - b ^ 2)
  GM / (a * b) + a * levK a b ω E * levQ1 E b / (3 * b) - ω ^ 2 * a
noncomputable def levPole (a b GM ω : ℝ) : ℝ :=
  let E := √(a ^ 2 - b ^ 2)
  GM / a ^ 2 - 2 / 3 * levK a b ω E * levQ1 E b

theorem surface_form {a b : ℝ} (hb : 0 < b) (hab : b < a) (φ lam : ℝ) : ellipsoidForm a b (surfacePoint a b φ lam) = 1 := by
  have ha : 0 < a := lt_trans hb hab
  have hR : 0 < a ^ 2 * cos φ ^ 2 + b ^ 2 * sin φ ^ 2 := by
    have h1 : b ^ 2 * (cos φ ^ 2 + sin φ ^ 2) ≤ a ^ 2 * cos φ ^ 2 + b ^ 2 * sin φ ^ 2 := by
      have : b ^ 2 ≤ a ^ 2 := by nlinarith
      nlinarith [sq_nonneg (cos φ)]
    rw [cos_sq_add_sin_sq, mul_one] at h1
    exact lt_of_lt_of_le (by positivity) h1
  have hs := sq_sqrt hR.le
  have hs0 := sqrt_pos.2 hR
  unfold ellipsoidForm surfacePoint
  simp only
  generalize √(a ^ 2 * cos φ ^ 2 + b ^ 2 * sin φ ^ 2) = R at *
  have h1 := cos_sq_add_sin_sq lam
  field_simp
  linear_combination a ^ 2 * cos φ ^ 2 * h1 - hs

/-- The formula of Somigliana. -/
theorem somigliana {a b : ℝ} (GM ω : ℝ) (hb : 0 < b) (hab : b < a) (φ lam : ℝ) :
    HasDerivAt (fun t : ℝ => levW a b GM ω (surfacePoint a b φ lam + t • upward φ lam))
      (-((a * levEquator a b GM ω * cos φ ^ 2 + b * levPole a b GM ω * sin φ ^ 2) / √(a ^ 2 * cos φ ^ 2 + b ^ 2 * sin φ ^ 2))) 0 := by
  have ha : 0 < a := lt_trans hb hab
  obtain ⟨hE, hE2⟩ := focal hb hab
  have hform := surface_form hb hab φ lam
  have hU := levU_eq hb hab _ hform
  have hU0 : 0 < confU (√(a ^ 2 - b ^ 2) ^ 2) (surfacePoint a b φ lam).1 (surfacePoint a b φ lam).2.1 (surfacePoint a b φ lam).2.2 := by rw [hU]; exact hb
  have hS := confS_ratio (by positivity : 0 < √(a ^ 2 - b ^ 2) ^ 2) hU0
  rw [hU] at hS
  have hd : DifferentiableAt ℝ (levW a b GM ω) (surfacePoint a b φ lam) :=
    (levW_contDiff hb hab _ hform.ge).differentiableAt (by norm_num)
  have hx := part_x (GM := GM) (k := levK a b ω (√(a ^ 2 - b ^ 2))) hE _ hU0
  have hy := part_y (GM := GM) (k := levK a b ω (√(a ^ 2 - b ^ 2))) hE _ hU0
  have hz := part_z (GM := GM) (k := levK a b ω (√(a ^ 2 - b ^ 2))) hE _ hU0
  rw [hU] at hx hy hz
  have cen : ∀ q s : ℝ, HasDerivAt (fun s : ℝ => ω ^ 2 * (s ^ 2 + q) / 2) (ω ^ 2 * s) s := fun q s => by
    refine HasDerivAt.congr_deriv ((((hasDerivAt_pow 2 s).add_const q).const_mul (ω ^ 2)).div_const 2) ?_
    norm_num
    ring
  have cen' : ∀ q s : ℝ, HasDerivAt (fun s : ℝ => ω ^ 2 * (q + s ^ 2) / 2) (ω ^ 2 * s) s := fun q s => by
    refine HasDerivAt.congr_deriv ((((hasDerivAt_pow 2 s).const_add q).const_mul (ω ^ 2)).div_const 2) ?_
    norm_num
    ring
  have hl := line_deriv (V := levW a b GM ω) (n := upward φ lam) hd (hx.add (cen ((surfacePoint a b φ lam).2.1 ^ 2) (surfacePoint a b φ lam).1))
    (hy.add (cen' ((surfacePoint a b φ lam).1 ^ 2) (surfacePoint a b φ lam).2.1)) (hz.add_const (ω ^ 2 * ((surfacePoint a b φ lam).1 ^ 2 + (surfacePoint a b φ lam).2.1 ^ 2) / 2))
  refine HasDerivAt.congr_deriv hl ?_
  clear hl hx hy hz hd hU hU0 cen cen' hform
  have hq := levQ_pos hE hb
  have hR : 0 < a ^ 2 * cos φ ^ 2 + b ^ 2 * sin φ ^ 2 := by
    have h1 : b ^ 2 * (cos φ ^ 2 + sin φ ^ 2) ≤ a ^ 2 * cos φ ^ 2 + b ^ 2 * sin φ ^ 2 := by
      have : b ^ 2 ≤ a ^ 2 := by nlinarith
      nlinarith [sq_nonneg (cos φ)]
    rw [cos_sq_add_sin_sq, mul_one] at h1
    exact lt_of_lt_of_le (by positivity) h1
  have hs := sq_sqrt hR.le
  have hs0 := sqrt_pos.2 hR
  unfold levEquator levPole levF1 levG1 levF levK
  simp only
  unfold surfacePoint upward at *
  simp only at *
  generalize √(a ^ 2 - b ^ 2) = E at *
  generalize √(a ^ 2 * cos φ ^ 2 + b ^ 2 * sin φ ^ 2) = R at *
  have h1 := cos_sq_add_sin_sq lam
  have h2 := cos_sq_add_sin_sq φ
  generalize confS (E ^ 2) _ _ _ = S at *
  generalize levQ E b = q at *
  generalize levQ1 E b = q1 at *
  have hS2 : S = a ^ 2 * b ^ 2 / R ^ 2 := by
    rw [hS]
    field_simp
    have : E ^ 2 = a ^ 2 - b ^ 2 := by linarith
    rw [this]
    linear_combination hs + a ^ 2 * h2
  rw [hS2, hE2]
  generalize cos φ = C at *
  generalize sin φ = Z at *
  generalize cos lam = D at *
  generalize sin lam = Y at *
  obtain ⟨G, hG⟩ : ∃ G, G = ω ^ 2 * a ^ 2 / (2 * q) * (q1 / b ^ 2 - 2 * q / b ^ 3) * (b ^ 2 / a ^ 2 * (a ^ 2 / R) * Z) ^ 2 +
    (-GM / a ^ 2 - ω ^ 2 * a ^ 2 / (2 * q) * q1 / 3) := ⟨_, rfl⟩
  rw [← hG]
  have e1 : G * (a ^ 2 / R * C * D * b / (a ^ 2 * b ^ 2 / R ^ 2)) * (C * D) + G * (a ^ 2 / R * C * Y * b / (a ^ 2 * b ^ 2 / R ^ 2)) * (C * Y) =
      G * R / b * C ^ 2 := by
    rw [show G * (a ^ 2 / R * C * D * b / (a ^ 2 * b ^ 2 / R ^ 2)) * (C * D) + G * (a ^ 2 / R * C * Y * b / (a ^ 2 * b ^ 2 / R ^ 2)) * (C * Y) =
      G * (a ^ 2 / R * b / (a ^ 2 * b ^ 2 / R ^ 2)) * C ^ 2 * (D ^ 2 + Y ^ 2) by ring, h1]
    field_simp
  have e2 : ω ^ 2 * (a ^ 2 / R * C * D) * (C * D) + ω ^ 2 * (a ^ 2 / R * C * Y) * (C * Y) = ω ^ 2 * a ^ 2 / R * C ^ 2 := by
    rw [show ω ^ 2 * (a ^ 2 / R * C * D) * (C * D) + ω ^ 2 * (a ^ 2 / R * C * Y) * (C * Y) = ω ^ 2 * a ^ 2 / R * C ^ 2 * (D ^ 2 + Y ^ 2) by ring, h1, mul_one]
  have e3 : G * (b ^ 2 / a ^ 2 * (a ^ 2 / R) * Z * a ^ 2 / (b * (a ^ 2 * b ^ 2 / R ^ 2))) * Z = G * R / b * Z ^ 2 := by
    field_simp
  have e4 : ω ^ 2 * a ^ 2 / (2 * q) * q / b ^ 2 * (2 * (b ^ 2 / a ^ 2 * (a ^ 2 / R) * Z)) * Z = ω ^ 2 * a ^ 2 / R * Z ^ 2 := by
    field_simp
  have hG2 : G * R ^ 2 = (ω ^ 2 * a ^ 2 / (2 * q) * q1 * b ^ 2 - ω ^ 2 * a ^ 2 * b) * Z ^ 2 +
    (-GM / a ^ 2 - ω ^ 2 * a ^ 2 / (2 * q) * q1 / 3) * R ^ 2 := by rw [hG]; field_simp
  rw [hs] at hG2
  have efin : G * R / b + ω ^ 2 * a ^ 2 / R = -((a * (GM / (a * b) + a * (ω ^ 2 * a ^ 2 / (2 * q)) * q1 / (3 * b) - ω ^ 2 * a) * C ^ 2 +
      b * (GM / a ^ 2 - 2 / 3 * (ω ^ 2 * a ^ 2 / (2 * q)) * q1) * Z ^ 2) / R) := by
    rw [eq_neg_iff_add_eq_zero, div_add_div _ _ hb.ne' hs0.ne', div_add_div _ _ (by positivity) hs0.ne', div_eq_zero_iff]
    left
    have : G * R * R = G * R ^ 2 := by ring
    rw [this, hs, hG2]
    field_simp
    linear_combination -6 * R * ω ^ 2 * a ^ 4 * q * b * h2
  linear_combination e1 + e2 + e3 + e4 + efin + (G * R / b + ω ^ 2 * a ^ 2 / R) * h2

end Shipgrav
