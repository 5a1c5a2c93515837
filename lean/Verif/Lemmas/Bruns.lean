import Verif.Lemmas.LevelGravity

/-! Change of gravity with height above the level ellipsoid: Bruns' formula. -/

namespace Shipgrav
open Spec Real Filter Topology

private theorem shift {f : ℝ → ℝ} {f' x y : ℝ} (h : HasDerivAt f f' x) (e : x = y) : HasDerivAt f f' y := e ▸ h

/-- Derivative of `u` along a line in the plane of a meridian. -/
private theorem line_U {c r z C Z : ℝ} (hc : 0 < c) (t : ℝ) (hu : 0 < confU c (r + t * C) 0 (z + t * Z)) :
    HasDerivAt (fun t => confU c (r + t * C) 0 (z + t * Z))
      (((r + t * C) * confU c (r + t * C) 0 (z + t * Z) / confS c (r + t * C) 0 (z + t * Z)) * C +
        ((z + t * Z) * (confU c (r + t * C) 0 (z + t * Z) ^ 2 + c) / (confU c (r + t * C) 0 (z + t * Z) * confS c (r + t * C) 0 (z + t * Z))) * Z) t := by
  have hd : DifferentiableAt ℝ (fun p : Space => confU c p.1 p.2.1 p.2.2) (r + t * C, 0, z + t * Z) :=
    (contDiff_confU hc (r + t * C, 0, z + t * Z) hu).differentiableAt (by norm_num)
  have hx := hasDeriv_confU_x hc hu
  have hz := hasDeriv_confU_z hc hu
  have hy : HasDerivAt (fun s => confU c (r + t * C) s (z + t * Z)) (0 * confU c (r + t * C) 0 (z + t * Z) / confS c (r + t * C) 0 (z + t * Z)) 0 := by
    have sw := conf_swap c (r + t * C) 0 (z + t * Z)
    have h := hasDeriv_confU_x (x := 0) (y := r + t * C) (z := z + t * Z) hc (by rw [← sw.2.2]; exact hu)
    rw [← sw.2.2, ← sw.2.1] at h
    refine h.congr_of_eventuallyEq (Eventually.of_forall fun s => ?_)
    exact (conf_swap c (r + t * C) s (z + t * Z)).2.2
  have hl := line_deriv (V := fun p : Space => confU c p.1 p.2.1 p.2.2) (p := (r + t * C, 0, z + t * Z)) (n := (C, 0, Z)) hd hx hy hz
  have hs : HasDerivAt (fun s : ℝ => s - t) 1 t := (hasDerivAt_id t).sub_const t
  obtain ⟨o, ho⟩ : ∃ o, o = t - t := ⟨_, rfl⟩
  have ho' : (0 : ℝ) = o := by rw [ho, sub_self]
  have hl' := shift hl ho'
  rw [ho] at hl'
  refine HasDerivAt.congr_deriv ((HasDerivAt.comp (h := fun s : ℝ => s - t) t hl' hs).congr_of_eventuallyEq (Eventually.of_forall fun s => ?_)) ?_
  · simp only [Function.comp, Prod.fst_add, Prod.snd_add, Prod.smul_mk, smul_eq_mul]
    rw [show r + t * C + (s - t) * C = r + s * C by ring, show z + t * Z + (s - t) * Z = z + s * Z by ring, show (0 : ℝ) + (s - t) * 0 = 0 by ring]
  · simp only
    ring

/-- Rate of `u` on the line. -/
noncomputable def lineU1 (E C Z r z u : ℝ) : ℝ := u * (r * C * u ^ 2 + z * Z * (u ^ 2 + E ^ 2)) / (u ^ 4 + E ^ 2 * z ^ 2)

private theorem line_U' {E r z C Z : ℝ} (hE : 0 < E) (t : ℝ) (hu : 0 < confU (E ^ 2) (r + t * C) 0 (z + t * Z)) :
    HasDerivAt (fun t => confU (E ^ 2) (r + t * C) 0 (z + t * Z)) (lineU1 E C Z (r + t * C) (z + t * Z) (confU (E ^ 2) (r + t * C) 0 (z + t * Z))) t := by
  refine HasDerivAt.congr_deriv (line_U (by positivity) t hu) ?_
  rw [confS_ratio (by positivity) hu]
  unfold lineU1
  generalize confU (E ^ 2) (r + t * C) 0 (z + t * Z) = u at *
  have : 0 < u ^ 4 + E ^ 2 * (z + t * Z) ^ 2 := by positivity
  have h2 : u ^ 2 + E ^ 2 * (z + t * Z) ^ 2 / u ^ 2 = (u ^ 4 + E ^ 2 * (z + t * Z) ^ 2) / u ^ 2 := by field_simp
  rw [h2]
  generalize u ^ 4 + E ^ 2 * (z + t * Z) ^ 2 = D at *
  field_simp

/-- The derivative of the potential on the line. -/
noncomputable def lineW1 (GM ω k E C Z r z u : ℝ) : ℝ :=
  (levF1 k E u * z ^ 2 + levG1 GM k E u) * lineU1 E C Z r z u + 2 * levF k E u * z * Z + ω ^ 2 * r * C

private theorem line_affine (r C t : ℝ) : HasDerivAt (fun t => r + t * C) C t := by
  have := ((hasDerivAt_id t).mul_const C).const_add r
  simpa using this

theorem line_W {E r z C Z : ℝ} (GM ω k : ℝ) (hE : 0 < E) (t : ℝ) (hu : 0 < confU (E ^ 2) (r + t * C) 0 (z + t * Z)) :
    HasDerivAt (fun t => levF k E (confU (E ^ 2) (r + t * C) 0 (z + t * Z)) * (z + t * Z) ^ 2 + levG GM k E (confU (E ^ 2) (r + t * C) 0 (z + t * Z)) +
        ω ^ 2 * (r + t * C) ^ 2 / 2)
      (lineW1 GM ω k E C Z (r + t * C) (z + t * Z) (confU (E ^ 2) (r + t * C) 0 (z + t * Z))) t := by
  have h1 := line_U' hE t hu
  have hf : HasDerivAt (fun t => levF k E (confU (E ^ 2) (r + t * C) 0 (z + t * Z))) _ t := HasDerivAt.comp (h₂ := levF k E) (h := fun t => confU (E ^ 2) (r + t * C) 0 (z + t * Z)) t (hasDeriv_levF k hE hu) h1
  have hg : HasDerivAt (fun t => levG GM k E (confU (E ^ 2) (r + t * C) 0 (z + t * Z))) _ t := HasDerivAt.comp (h₂ := levG GM k E) (h := fun t => confU (E ^ 2) (r + t * C) 0 (z + t * Z)) t (hasDeriv_levG GM k hE hu) h1
  have hz := (line_affine z Z t).pow 2
  have hr := (((line_affine r C t).pow 2).const_mul (ω ^ 2)).div_const 2
  refine HasDerivAt.congr_deriv (((hf.mul hz).add hg).add hr) ?_
  unfold lineW1
  norm_num
  ring

/-- Second derivative of the potential on the line. -/
noncomputable def lineU2 (E C Z r z u v : ℝ) : ℝ :=
  ((v * (r * C * u ^ 2 + z * Z * (u ^ 2 + E ^ 2)) + u * (C * C * u ^ 2 + r * C * (2 * u * v) + (Z * Z * (u ^ 2 + E ^ 2) + z * Z * (2 * u * v)))) *
    (u ^ 4 + E ^ 2 * z ^ 2) - u * (r * C * u ^ 2 + z * Z * (u ^ 2 + E ^ 2)) * (4 * u ^ 3 * v + E ^ 2 * (2 * z * Z))) / (u ^ 4 + E ^ 2 * z ^ 2) ^ 2

private theorem line_V {E r z C Z : ℝ} (hE : 0 < E) (t : ℝ) (hu : 0 < confU (E ^ 2) (r + t * C) 0 (z + t * Z)) :
    HasDerivAt (fun t => lineU1 E C Z (r + t * C) (z + t * Z) (confU (E ^ 2) (r + t * C) 0 (z + t * Z)))
      (lineU2 E C Z (r + t * C) (z + t * Z) (confU (E ^ 2) (r + t * C) 0 (z + t * Z)) (lineU1 E C Z (r + t * C) (z + t * Z) (confU (E ^ 2) (r + t * C) 0 (z + t * Z)))) t := by
  have h1 := line_U' hE t hu
  have hz := line_affine z Z t
  have hr := line_affine r C t
  have h2 := h1.pow 2
  have h4 := h1.pow 4
  have hn := h1.mul (((hr.mul_const C).mul h2).add ((hz.mul_const Z).mul (h2.add_const (E ^ 2))))
  have hd := h4.add ((hz.pow 2).const_mul (E ^ 2))
  have hp : confU (E ^ 2) (r + t * C) 0 (z + t * Z) ^ 4 + E ^ 2 * (z + t * Z) ^ 2 ≠ 0 := by positivity
  have h := hn.div hd hp
  change HasDerivAt (fun t => lineU1 E C Z (r + t * C) (z + t * Z) (confU (E ^ 2) (r + t * C) 0 (z + t * Z))) _ t at h
  refine HasDerivAt.congr_deriv h ?_
  simp only [Pi.mul_apply, Pi.pow_apply, Pi.add_apply]
  generalize confU (E ^ 2) (r + t * C) 0 (z + t * Z) = u at *
  unfold lineU2
  norm_num

/-- Second derivative of the potential on the line. -/
theorem line_W2 {E r z C Z : ℝ} (GM ω k : ℝ) (hE : 0 < E) (t : ℝ) (hu : 0 < confU (E ^ 2) (r + t * C) 0 (z + t * Z)) (u v : ℝ)
    (eu : u = confU (E ^ 2) (r + t * C) 0 (z + t * Z)) (ev : v = lineU1 E C Z (r + t * C) (z + t * Z) u) :
    HasDerivAt (fun t => lineW1 GM ω k E C Z (r + t * C) (z + t * Z) (confU (E ^ 2) (r + t * C) 0 (z + t * Z)))
      ((levF2 k E u * v * (z + t * Z) ^ 2 + levF1 k E u * (2 * (z + t * Z) * Z) + levG2 GM k E u * v) * v +
        (levF1 k E u * (z + t * Z) ^ 2 + levG1 GM k E u) * lineU2 E C Z (r + t * C) (z + t * Z) u v +
        2 * (levF1 k E u * v * (z + t * Z) * Z + levF k E u * Z * Z) + ω ^ 2 * C * C) t := by
  have h1 := line_U' hE t hu
  have hz := line_affine z Z t
  have hr := line_affine r C t
  have hV := line_V hE t hu
  have hf : HasDerivAt (fun t => levF k E (confU (E ^ 2) (r + t * C) 0 (z + t * Z))) _ t := HasDerivAt.comp (h₂ := levF k E) (h := fun t => confU (E ^ 2) (r + t * C) 0 (z + t * Z)) t (hasDeriv_levF k hE hu) h1
  have hf1 : HasDerivAt (fun t => levF1 k E (confU (E ^ 2) (r + t * C) 0 (z + t * Z))) _ t := HasDerivAt.comp (h₂ := levF1 k E) (h := fun t => confU (E ^ 2) (r + t * C) 0 (z + t * Z)) t (hasDeriv_levF1 k hE hu) h1
  have hg1 : HasDerivAt (fun t => levG1 GM k E (confU (E ^ 2) (r + t * C) 0 (z + t * Z))) _ t := HasDerivAt.comp (h₂ := levG1 GM k E) (h := fun t => confU (E ^ 2) (r + t * C) 0 (z + t * Z)) t (hasDeriv_levG1 GM k hE hu) h1
  have h := ((((hf1.mul (hz.pow 2)).add hg1).mul hV).add (((hf.const_mul 2).mul hz).mul_const Z)).add ((hr.const_mul (ω ^ 2)).mul_const C)
  change HasDerivAt (fun t => lineW1 GM ω k E C Z (r + t * C) (z + t * Z) (confU (E ^ 2) (r + t * C) 0 (z + t * Z))) _ t at h
  refine HasDerivAt.congr_deriv h ?_
  simp only [Pi.mul_apply, Pi.pow_apply, Pi.add_apply]
  rw [← eu, ← ev]
  norm_num
  ring

private theorem bruns_u {a b C Z R E : ℝ} (ha : 0 < a) (hb : 0 < b) (hR0 : 0 < R) (hE : E ^ 2 = a ^ 2 - b ^ 2)
    (hR : R ^ 2 = a ^ 2 * C ^ 2 + b ^ 2 * Z ^ 2) (h1 : C ^ 2 + Z ^ 2 = 1) :
    lineU1 E C Z (a ^ 2 / R * C) (b ^ 2 / a ^ 2 * (a ^ 2 / R) * Z) b = R / b ∧
    lineU2 E C Z (a ^ 2 / R * C) (b ^ 2 / a ^ 2 * (a ^ 2 / R) * Z) b (R / b) = -(R ^ 2 * E ^ 2 * C ^ 2) / (a ^ 2 * b ^ 3) := by
  have hd : b ^ 4 + E ^ 2 * (b ^ 2 / a ^ 2 * (a ^ 2 / R) * Z) ^ 2 = a ^ 2 * b ^ 4 / R ^ 2 := by
    rw [hE]
    field_simp
    rw [hR]
    linear_combination a ^ 2 * h1
  have hn : a ^ 2 / R * C * C * b ^ 2 + b ^ 2 / a ^ 2 * (a ^ 2 / R) * Z * Z * (b ^ 2 + E ^ 2) = a ^ 2 * b ^ 2 / R := by
    rw [hE]
    field_simp
    linear_combination a ^ 2 * h1
  constructor
  · unfold lineU1
    rw [hd, hn]
    field_simp
  · have hm : C * C * b ^ 2 + a ^ 2 / R * C * C * (2 * b * (R / b)) + (Z * Z * (b ^ 2 + E ^ 2) + b ^ 2 / a ^ 2 * (a ^ 2 / R) * Z * Z * (2 * b * (R / b))) =
        C ^ 2 * b ^ 2 + Z ^ 2 * a ^ 2 + 2 * R ^ 2 := by
      rw [hE, hR]
      field_simp
      ring
    have hp : 4 * b ^ 3 * (R / b) + E ^ 2 * (2 * (b ^ 2 / a ^ 2 * (a ^ 2 / R) * Z) * Z) = (4 * b ^ 2 * R ^ 2 + 2 * E ^ 2 * b ^ 2 * Z ^ 2) / R := by
      field_simp
    unfold lineU2
    rw [hd, hn, hm, hp]
    field_simp
    rw [hE, hR]
    linear_combination -a ^ 2 * h1

/-- Bruns' formula, as an identity. -/
private theorem bruns_identity {a b C Z R E q q1 : ℝ} (GM ω : ℝ) (ha : 0 < a) (hb : 0 < b) (hR0 : 0 < R) (hq : 0 < q) (hE : E ^ 2 = a ^ 2 - b ^ 2)
    (hR : R ^ 2 = a ^ 2 * C ^ 2 + b ^ 2 * Z ^ 2) (h1 : C ^ 2 + Z ^ 2 = 1) (k q2 F F1 F2 G1 G2 ge gp : ℝ) (hk : k = ω ^ 2 * a ^ 2 / (2 * q))
    (hq2 : q2 = (6 * q - 2 * b * q1) / a ^ 2) (hF : F = k * q / b ^ 2) (hF1 : F1 = k * (q1 / b ^ 2 - 2 * q / b ^ 3))
    (hF2 : F2 = k * (q2 / b ^ 2 - 4 * q1 / b ^ 3 + 6 * q / b ^ 4)) (hG1 : G1 = -GM / a ^ 2 - k * q1 / 3) (hG2 : G2 = 2 * GM * b / (a ^ 2) ^ 2 - k * q2 / 3)
    (hge : ge = GM / (a * b) + a * k * q1 / (3 * b) - ω ^ 2 * a) (hgp : gp = GM / a ^ 2 - 2 / 3 * k * q1) :
    (F2 * (R / b) * (b ^ 2 / a ^ 2 * (a ^ 2 / R) * Z) ^ 2 + F1 * (2 * (b ^ 2 / a ^ 2 * (a ^ 2 / R) * Z) * Z) + G2 * (R / b)) * (R / b) +
      (F1 * (b ^ 2 / a ^ 2 * (a ^ 2 / R) * Z) ^ 2 + G1) * (-(R ^ 2 * E ^ 2 * C ^ 2) / (a ^ 2 * b ^ 3)) +
      2 * (F1 * (R / b) * (b ^ 2 / a ^ 2 * (a ^ 2 / R) * Z) * Z + F * Z * Z) + ω ^ 2 * C * C =
    (a * ge * C ^ 2 + b * gp * Z ^ 2) / R * (R ^ 3 / (a ^ 2 * b ^ 2) + R / a ^ 2) + 2 * ω ^ 2 := by
  have e1 : (F2 * (R / b) * (b ^ 2 / a ^ 2 * (a ^ 2 / R) * Z) ^ 2 + F1 * (2 * (b ^ 2 / a ^ 2 * (a ^ 2 / R) * Z) * Z) + G2 * (R / b)) * (R / b) +
      (F1 * (b ^ 2 / a ^ 2 * (a ^ 2 / R) * Z) ^ 2 + G1) * (-(R ^ 2 * E ^ 2 * C ^ 2) / (a ^ 2 * b ^ 3)) +
      2 * (F1 * (R / b) * (b ^ 2 / a ^ 2 * (a ^ 2 / R) * Z) * Z + F * Z * Z) + ω ^ 2 * C * C =
      F2 * b ^ 2 * Z ^ 2 + 4 * F1 * b * Z ^ 2 + G2 * R ^ 2 / b ^ 2 - F1 * b * E ^ 2 * C ^ 2 * Z ^ 2 / a ^ 2 - G1 * R ^ 2 * E ^ 2 * C ^ 2 / (a ^ 2 * b ^ 3) +
        2 * F * Z ^ 2 + ω ^ 2 * C ^ 2 := by
    field_simp
    ring
  have e2 : (a * ge * C ^ 2 + b * gp * Z ^ 2) / R * (R ^ 3 / (a ^ 2 * b ^ 2) + R / a ^ 2) + 2 * ω ^ 2 =
      (a * ge * C ^ 2 + b * gp * Z ^ 2) * (R ^ 2 / (a ^ 2 * b ^ 2) + 1 / a ^ 2) + 2 * ω ^ 2 := by
    field_simp
  rw [e1, e2, hR, hE]
  have hZ : Z ^ 2 = 1 - C ^ 2 := by linarith
  rw [hZ, hF, hF1, hF2, hG1, hG2, hge, hgp, hq2, hk]
  field_simp
  ring

/-- The potential up the normal through the coordinates in the plane of the meridian. -/
theorem levW_line (a b GM ω φ lam t : ℝ) : levW a b GM ω (surfacePoint a b φ lam + t • upward φ lam) =
    (fun t => levF (levK a b ω (√(a ^ 2 - b ^ 2))) (√(a ^ 2 - b ^ 2)) (confU (√(a ^ 2 - b ^ 2) ^ 2) (a ^ 2 / √(a ^ 2 * cos φ ^ 2 + b ^ 2 * sin φ ^ 2) * cos φ + t * cos φ) 0
        (b ^ 2 / a ^ 2 * (a ^ 2 / √(a ^ 2 * cos φ ^ 2 + b ^ 2 * sin φ ^ 2)) * sin φ + t * sin φ)) *
        (b ^ 2 / a ^ 2 * (a ^ 2 / √(a ^ 2 * cos φ ^ 2 + b ^ 2 * sin φ ^ 2)) * sin φ + t * sin φ) ^ 2 +
      levG GM (levK a b ω (√(a ^ 2 - b ^ 2))) (√(a ^ 2 - b ^ 2)) (confU (√(a ^ 2 - b ^ 2) ^ 2) (a ^ 2 / √(a ^ 2 * cos φ ^ 2 + b ^ 2 * sin φ ^ 2) * cos φ + t * cos φ) 0
        (b ^ 2 / a ^ 2 * (a ^ 2 / √(a ^ 2 * cos φ ^ 2 + b ^ 2 * sin φ ^ 2)) * sin φ + t * sin φ)) +
      ω ^ 2 * (a ^ 2 / √(a ^ 2 * cos φ ^ 2 + b ^ 2 * sin φ ^ 2) * cos φ + t * cos φ) ^ 2 / 2) t := by
  have hc := cos_sq_add_sin_sq lam
  have hU : ∀ c z r : ℝ, confU c (r * cos lam) (r * sin lam) z = confU c r 0 z := fun c z r => by
    have : confM c (r * cos lam) (r * sin lam) z = confM c r 0 z := by
      unfold confM
      linear_combination r ^ 2 * hc
    unfold confU confS
    rw [this]
  unfold levW levV surfacePoint upward
  simp only [Prod.fst_add, Prod.snd_add, Prod.smul_mk, smul_eq_mul]
  generalize a ^ 2 / √(a ^ 2 * cos φ ^ 2 + b ^ 2 * sin φ ^ 2) = N
  rw [show N * cos φ * cos lam + t * (cos φ * cos lam) = (N * cos φ + t * cos φ) * cos lam by ring,
    show N * cos φ * sin lam + t * (cos φ * sin lam) = (N * cos φ + t * cos φ) * sin lam by ring, hU,
    show ((N * cos φ + t * cos φ) * cos lam) ^ 2 + ((N * cos φ + t * cos φ) * sin lam) ^ 2 = (N * cos φ + t * cos φ) ^ 2 by linear_combination (N * cos φ + t * cos φ) ^ 2 * hc]

/-- Bruns' formula for the field in closed form: `D t` is the derivative of the potential up the normal. -/
theorem bruns {a b : ℝ} (GM ω : ℝ) (hb : 0 < b) (hab : b < a) (φ lam : ℝ)
    (hout : ∀ t : ℝ, 0 ≤ t → 1 ≤ ellipsoidForm a b (surfacePoint a b φ lam + t • upward φ lam)) :
    ∃ D : ℝ → ℝ, (∀ t, 0 ≤ t → HasDerivAt (fun t : ℝ => levW a b GM ω (surfacePoint a b φ lam + t • upward φ lam)) (D t) t) ∧
      HasDerivAt D ((a * levEquator a b GM ω * cos φ ^ 2 + b * levPole a b GM ω * sin φ ^ 2) / √(a ^ 2 * cos φ ^ 2 + b ^ 2 * sin φ ^ 2) *
        (√(a ^ 2 * cos φ ^ 2 + b ^ 2 * sin φ ^ 2) ^ 3 / (a ^ 2 * b ^ 2) + √(a ^ 2 * cos φ ^ 2 + b ^ 2 * sin φ ^ 2) / a ^ 2) + 2 * ω ^ 2) 0 := by
  have ha : 0 < a := lt_trans hb hab
  obtain ⟨hE, hE2⟩ := focal hb hab
  have hform := surface_form hb hab φ lam
  have hU : ∀ c z r : ℝ, confU c (r * cos lam) (r * sin lam) z = confU c r 0 z := fun c z r => by
    have : confM c (r * cos lam) (r * sin lam) z = confM c r 0 z := by
      unfold confM
      linear_combination r ^ 2 * cos_sq_add_sin_sq lam
    unfold confU confS
    rw [this]
  have hu : ∀ t, 0 ≤ t → b ≤ confU (√(a ^ 2 - b ^ 2) ^ 2) (a ^ 2 / √(a ^ 2 * cos φ ^ 2 + b ^ 2 * sin φ ^ 2) * cos φ + t * cos φ) 0
        (b ^ 2 / a ^ 2 * (a ^ 2 / √(a ^ 2 * cos φ ^ 2 + b ^ 2 * sin φ ^ 2)) * sin φ + t * sin φ) := fun t ht => by
    have := levU_ge hb hab _ (hout t ht)
    unfold surfacePoint upward at this
    simp only [Prod.fst_add, Prod.snd_add, Prod.smul_mk, smul_eq_mul] at this
    rw [← hU]
    convert this using 2 <;> ring
  have hu0 : confU (√(a ^ 2 - b ^ 2) ^ 2) (a ^ 2 / √(a ^ 2 * cos φ ^ 2 + b ^ 2 * sin φ ^ 2) * cos φ + 0 * cos φ) 0
        (b ^ 2 / a ^ 2 * (a ^ 2 / √(a ^ 2 * cos φ ^ 2 + b ^ 2 * sin φ ^ 2)) * sin φ + 0 * sin φ) = b := by
    have := levU_eq hb hab _ hform
    unfold surfacePoint at this
    simp only at this
    rw [← hU]
    convert this using 2 <;> ring
  have hR : 0 < a ^ 2 * cos φ ^ 2 + b ^ 2 * sin φ ^ 2 := by
    have h1 : b ^ 2 * (cos φ ^ 2 + sin φ ^ 2) ≤ a ^ 2 * cos φ ^ 2 + b ^ 2 * sin φ ^ 2 := by
      have : b ^ 2 ≤ a ^ 2 := by nlinarith
      nlinarith [sq_nonneg (cos φ)]
    rw [cos_sq_add_sin_sq, mul_one] at h1
    exact lt_of_lt_of_le (by positivity) h1
  have hs := sq_sqrt hR.le
  have hs0 := sqrt_pos.2 hR
  have hq := levQ_pos hE hb
  rw [show (fun t : ℝ => levW a b GM ω (surfacePoint a b φ lam + t • upward φ lam)) = _ from funext fun t => levW_line a b GM ω φ lam t]
  refine ⟨_, fun t ht => line_W GM ω _ hE t (lt_of_lt_of_le hb (hu t ht)), ?_⟩
  have e := bruns_u ha hb hs0 (eq_sub_of_add_eq' hE2) hs (cos_sq_add_sin_sq φ)
  refine HasDerivAt.congr_deriv (line_W2 GM ω _ hE 0 (lt_of_lt_of_le hb (hu 0 le_rfl)) b (√(a ^ 2 * cos φ ^ 2 + b ^ 2 * sin φ ^ 2) / b) hu0.symm ?_) ?_
  · rw [zero_mul, zero_mul, add_zero, add_zero, e.1]
  · rw [zero_mul, zero_mul, add_zero, add_zero, e.2]
    refine bruns_identity (q := levQ (√(a ^ 2 - b ^ 2)) b) (q1 := levQ1 (√(a ^ 2 - b ^ 2)) b) GM ω ha hb hs0 hq (eq_sub_of_add_eq' hE2) hs (cos_sq_add_sin_sq φ)
      (levK a b ω (√(a ^ 2 - b ^ 2))) (levQ2 (√(a ^ 2 - b ^ 2)) b) _ _ _ _ _ _ _ rfl ?_ rfl rfl rfl ?_ ?_ rfl rfl
    · unfold levQ2
      rw [hE2]
    · unfold levG1
      rw [hE2]
    · unfold levG2
      rw [hE2]

end Shipgrav
