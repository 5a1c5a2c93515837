import Verif.Props.FreeAir
import Verif.Props.Tide

/-! How much the corrections change when the positions change: sizes and differences of pairs of values are carried through the formulas. -/

namespace Shipgrav
open Spec Real

/-- Two values of size up to `M` that differ by up to `L` times `η`. -/
structure Pt (η M L : ℝ) (x y : ℝ) : Prop where
  left : |x| ≤ M
  right : |y| ≤ M
  diff : |x - y| ≤ L * η

theorem Pt.const {η : ℝ} (c : ℝ) : Pt η |c| 0 c c := ⟨le_rfl, le_rfl, by simp⟩

theorem Pt.num {η : ℝ} (c : ℝ) (h : 0 ≤ c) : Pt η c 0 c c := ⟨(abs_of_nonneg h).le, (abs_of_nonneg h).le, by simp⟩

theorem Pt.mono {η M L M' L' x y : ℝ} (h : Pt η M L x y) (hη : 0 ≤ η) (hM : M ≤ M') (hL : L ≤ L') : Pt η M' L' x y :=
  ⟨h.left.trans hM, h.right.trans hM, h.diff.trans (mul_le_mul_of_nonneg_right hL hη)⟩

theorem Pt.neg {η M L x y : ℝ} (h : Pt η M L x y) : Pt η M L (-x) (-y) :=
  ⟨by rw [abs_neg]; exact h.left, by rw [abs_neg]; exact h.right, by rw [show -x - -y = -(x - y) by ring, abs_neg]; exact h.diff⟩

theorem Pt.add {η M L M' L' x y u v : ℝ} (h : Pt η M L x y) (k : Pt η M' L' u v) : Pt η (M + M') (L + L') (x + u) (y + v) := by
  refine ⟨(abs_add_le _ _).trans (add_le_add h.left k.left), (abs_add_le _ _).trans (add_le_add h.right k.right), ?_⟩
  rw [show x + u - (y + v) = (x - y) + (u - v) by ring, add_mul]
  exact (abs_add_le _ _).trans (add_le_add h.diff k.diff)

theorem Pt.sub {η M L M' L' x y u v : ℝ} (h : Pt η M L x y) (k : Pt η M' L' u v) : Pt η (M + M') (L + L') (x - u) (y - v) := by
  rw [sub_eq_add_neg, sub_eq_add_neg]
  exact h.add k.neg

theorem Pt.mul {η M L M' L' x y u v : ℝ} (h : Pt η M L x y) (k : Pt η M' L' u v) : Pt η (M * M') (M * L' + L * M') (x * u) (y * v) := by
  have m0 := (abs_nonneg _).trans h.left
  have m0' := (abs_nonneg _).trans k.left
  refine ⟨by rw [abs_mul]; exact mul_le_mul h.left k.left (abs_nonneg _) m0, by rw [abs_mul]; exact mul_le_mul h.right k.right (abs_nonneg _) m0, ?_⟩
  rw [show x * u - y * v = x * (u - v) + (x - y) * v by ring]
  refine (abs_add_le _ _).trans ?_
  rw [abs_mul, abs_mul, add_mul]
  apply add_le_add
  · rw [mul_assoc]
    exact mul_le_mul h.left k.diff (abs_nonneg _) m0
  · rw [show L * M' * η = L * η * M' by ring]
    exact mul_le_mul h.diff k.right (abs_nonneg _) ((abs_nonneg _).trans h.diff)

theorem Pt.sq {η M L x y : ℝ} (h : Pt η M L x y) : Pt η (M ^ 2) (2 * M * L) (x ^ 2) (y ^ 2) := by
  have := h.mul h
  rw [← pow_two, ← pow_two, ← pow_two, show M * L + L * M = 2 * M * L by ring] at this
  exact this

theorem Pt.sin {η L x y : ℝ} (h : |x - y| ≤ L * η) : Pt η 1 L (Real.sin x) (Real.sin y) := by
  refine ⟨abs_sin_le_one _, abs_sin_le_one _, ?_⟩
  have := Real.lipschitzWith_sin.dist_le_mul x y
  simp only [Real.dist_eq, NNReal.coe_one, one_mul] at this
  exact this.trans h

theorem Pt.cos {η L x y : ℝ} (h : |x - y| ≤ L * η) : Pt η 1 L (Real.cos x) (Real.cos y) := by
  refine ⟨abs_cos_le_one _, abs_cos_le_one _, ?_⟩
  have := Real.lipschitzWith_cos.dist_le_mul x y
  simp only [Real.dist_eq, NNReal.coe_one, one_mul] at this
  exact this.trans h

/-- The reciprocal of the square root of numbers not below 99/100. -/
theorem Pt.invSqrt {η M L x y : ℝ} (h : Pt η M L x y) (hx : 99 / 100 ≤ x) (hy : 99 / 100 ≤ y) : Pt η (101 / 100) (6 / 10 * L) (1 / √x) (1 / √y) := by
  have b : ∀ z : ℝ, 99 / 100 ≤ z → (994 / 1000 : ℝ) ≤ √z := fun z hz => Real.le_sqrt_of_sq_le (by norm_num; linarith)
  have bx := b x hx
  have bY := b y hy
  have m : ∀ z : ℝ, (994 / 1000 : ℝ) ≤ √z → |1 / √z| ≤ 101 / 100 := by
    intro z hz
    rw [abs_of_nonneg (by positivity), div_le_iff₀ (by linarith)]
    linarith
  refine ⟨m x bx, m y bY, ?_⟩
  have px : 0 < √x := by linarith
  have py : 0 < √y := by linarith
  have e : 1 / √x - 1 / √y = -(x - y) / (√x * √y * (√x + √y)) := by
    rw [eq_div_iff (by positivity)]
    have e1 := Real.mul_self_sqrt (show 0 ≤ x by linarith)
    have e2 := Real.mul_self_sqrt (show 0 ≤ y by linarith)
    have : (1 / √x - 1 / √y) * (√x * √y * (√x + √y)) = √y * √y - √x * √x := by field_simp; ring
    rw [this, e1, e2]
    ring
  rw [e, abs_div, abs_neg, abs_of_pos (show 0 < √x * √y * (√x + √y) by positivity), div_le_iff₀ (by positivity)]
  have k : (1.9 : ℝ) ≤ √x * √y * (√x + √y) := by
    have h1 : (994 / 1000 : ℝ) * (994 / 1000) ≤ √x * √y := mul_le_mul bx bY (by norm_num) px.le
    have h2 : (994 / 1000 + 994 / 1000 : ℝ) ≤ √x + √y := add_le_add bx bY
    have := mul_le_mul h1 h2 (by norm_num) (by positivity)
    refine le_trans ?_ this
    norm_num
  have d0 := (abs_nonneg _).trans h.diff
  nlinarith [h.diff]

/-! ### Normal gravity -/

theorem normal_pert {x y η : ℝ} (hη : |x * (π / 180) - y * (π / 180)| ≤ η) : |normalGravity x - normalGravity y| ≤ 12000 * η := by
  have h0 : 0 ≤ η := (abs_nonneg _).trans hη
  have s := (Pt.sin (η := η) (L := 1) (by rw [one_mul]; exact hη)).sq
  have b1 := sin_sq_le_one (x * (π / 180))
  have b2 := sin_sq_le_one (y * (π / 180))
  have n := (Pt.num (η := η) 1 (by norm_num)).add ((Pt.num 0.00193185265241 (by norm_num)).mul s)
  have d := ((Pt.num (η := η) 1 (by norm_num)).sub ((Pt.num 0.00669437999014 (by norm_num)).mul s)).invSqrt (by norm_num; linarith only [b1]) (by norm_num; linarith only [b2])
  have k := (Pt.num (η := η) 978032.53359 (by norm_num)).mul (n.mul d)
  unfold normalGravity
  have := k.diff
  simp only [mul_one_div] at this
  refine this.trans (mul_le_mul_of_nonneg_right ?_ h0)
  norm_num

/-! ### The tide -/

private theorem unit_comp {v : V3} (h : v.x ^ 2 + v.y ^ 2 + v.z ^ 2 = 1) : |v.x| ≤ 1 ∧ |v.y| ≤ 1 ∧ |v.z| ≤ 1 := by
  refine ⟨?_, ?_, ?_⟩ <;> · rw [← sq_le_one_iff_abs_le_one]; nlinarith [sq_nonneg v.x, sq_nonneg v.y, sq_nonneg v.z]

private theorem dot_pert {l l' r r' η : ℝ} (v : V3) (hv : v.x ^ 2 + v.y ^ 2 + v.z ^ 2 = 1) (hl : |l - l'| ≤ η) (hr : |r - r'| ≤ η) :
    Pt η 1 5 ((zenith l r).dot v) ((zenith l' r').dot v) := by
  have h0 : 0 ≤ η := (abs_nonneg _).trans hl
  obtain ⟨u1, u2, u3⟩ := unit_comp hv
  have cl := Pt.cos (η := η) (L := 1) (by rw [one_mul]; exact hl)
  have sl := Pt.sin (η := η) (L := 1) (by rw [one_mul]; exact hl)
  have cr := Pt.cos (η := η) (L := 1) (by rw [one_mul]; exact hr)
  have sr := Pt.sin (η := η) (L := 1) (by rw [one_mul]; exact hr)
  have k := (((cl.mul cr).mul ((Pt.const v.x).mono h0 u1 le_rfl)).add ((cl.mul sr).mul ((Pt.const v.y).mono h0 u2 le_rfl))).add
    (sl.mul ((Pt.const v.z).mono h0 u3 le_rfl))
  refine ⟨dot_le_one _ _ _ hv, dot_le_one _ _ _ hv, ?_⟩
  have := k.diff
  norm_num at this
  exact this

private theorem dist_pert {l l' η : ℝ} (hl : |l - l'| ≤ η) : Pt η 6.45e8 5.2e6 (centreDist l 0) (centreDist l' 0) := by
  have h0 : 0 ≤ η := (abs_nonneg _).trans hl
  have s := (Pt.sin (η := η) (L := 1) (by rw [one_mul]; exact hl)).sq
  have b1 := sq_nonneg (sin l)
  have b2 := sq_nonneg (sin l')
  have d := ((Pt.num (η := η) 1 (by norm_num)).add ((Pt.num 0.006738 (by norm_num)).mul s)).invSqrt (by norm_num at *; linarith) (by norm_num at *; linarith)
  have k := (Pt.num (η := η) 6.378270e8 (by norm_num)).mul d
  unfold centreDist
  rw [mul_one_div, mul_one_div] at k
  rw [mul_zero, add_zero, add_zero]
  exact k.mono h0 (by norm_num) (by norm_num)

theorem lunar_pert (a : Astro) {lon lat lon' lat' η : ℝ} (hour : ℝ) (hl : |lat * (π / 180) - lat' * (π / 180)| ≤ η) (hr : |lon * (π / 180) - lon' * (π / 180)| ≤ η) :
    |lunarTide a lon lat 0 hour - lunarTide a lon' lat' 0 hour| ≤ 3 * η := by
  have h0 : 0 ≤ η := (abs_nonneg _).trans hl
  obtain ⟨i0, i1⟩ := invMoon_bounds a
  have hm : |meridian a lon hour - meridian a lon' hour| ≤ η := by
    unfold meridian
    rw [show (15 * (hour - 12) + lon) * (π / 180) + a.h - ((15 * (hour - 12) + lon') * (π / 180) + a.h) = lon * (π / 180) - lon' * (π / 180) by ring]
    exact hr
  have c := dot_pert _ (rotX_unit (23.452 * (π / 180)) _ (rotZ_unit a.N _ (rotX_unit 0.08979719 _ (circle_unit (moonLong a - a.N))))) hl hm
  have r := dist_pert hl
  have i := (Pt.const (η := η) (invMoon a)).mono h0 (M' := 1.0715 / 3.84402e10) (L' := 0) (by rw [abs_of_nonneg (le_trans (by norm_num) i0)]; exact i1) le_rfl
  have i3 := i.sq.mul i
  have i4 := i.sq.sq
  have k1 := (((Pt.num (η := η) (6.673e-8 * 7.3537e25) (by norm_num)).mul r).mul i3).mul (((Pt.num 3 (by norm_num)).mul c.sq).sub (Pt.num 1 (by norm_num)))
  have k2 := ((Pt.num (η := η) (3 / 2) (by norm_num)).mul (((Pt.num (6.673e-8 * 7.3537e25) (by norm_num)).mul r.sq).mul i4)).mul
    (((Pt.num 5 (by norm_num)).mul (c.sq.mul c)).sub ((Pt.num 3 (by norm_num)).mul c))
  have k := ((k1.add k2).mul (Pt.num 1000 (by norm_num))).mul (Pt.num (1 + 0.612 - 3 / 2 * 0.303) (by norm_num))
  have e : ∀ lo la, lunarTide a lo la 0 hour = (6.673e-8 * 7.3537e25 * centreDist (la * (π / 180)) 0 * (invMoon a ^ 2 * invMoon a) *
      (3 * (zenith (la * (π / 180)) (meridian a lo hour)).dot (orbitDir (23.452 * (π / 180)) 0.08979719 a.N (moonLong a)) ^ 2 - 1) +
      3 / 2 * (6.673e-8 * 7.3537e25 * centreDist (la * (π / 180)) 0 ^ 2 * (invMoon a ^ 2) ^ 2) *
      (5 * ((zenith (la * (π / 180)) (meridian a lo hour)).dot (orbitDir (23.452 * (π / 180)) 0.08979719 a.N (moonLong a)) ^ 2 *
        (zenith (la * (π / 180)) (meridian a lo hour)).dot (orbitDir (23.452 * (π / 180)) 0.08979719 a.N (moonLong a))) -
        3 * (zenith (la * (π / 180)) (meridian a lo hour)).dot (orbitDir (23.452 * (π / 180)) 0.08979719 a.N (moonLong a)))) *
      1000 * (1 + 0.612 - 3 / 2 * 0.303) := by
    intro lo la
    unfold lunarTide cosMoon
    simp only
    ring
  rw [e, e]
  refine k.diff.trans (mul_le_mul_of_nonneg_right ?_ h0)
  norm_num

theorem solar_pert (a : Astro) (h1 : 0 ≤ a.e1) (h2 : a.e1 ≤ 0.018) {lon lat lon' lat' η : ℝ} (hour : ℝ) (hl : |lat * (π / 180) - lat' * (π / 180)| ≤ η)
    (hr : |lon * (π / 180) - lon' * (π / 180)| ≤ η) : |solarTide a lon lat 0 hour - solarTide a lon' lat' 0 hour| ≤ 2 * η := by
  have h0 : 0 ≤ η := (abs_nonneg _).trans hl
  obtain ⟨i0, i1⟩ := invSun_bounds a h1 h2
  have hm : |meridian a lon hour - meridian a lon' hour| ≤ η := by
    unfold meridian
    rw [show (15 * (hour - 12) + lon) * (π / 180) + a.h - ((15 * (hour - 12) + lon') * (π / 180) + a.h) = lon * (π / 180) - lon' * (π / 180) by ring]
    exact hr
  have c := dot_pert _ (rotX_unit (23.452 * (π / 180)) _ (circle_unit (sunLong a))) hl hm
  have r := dist_pert hl
  have i := (Pt.const (η := η) (invSun a)).mono h0 (M' := 1.02 / 1.495e13) (L' := 0) (by rw [abs_of_nonneg (le_trans (by norm_num) i0)]; exact i1) le_rfl
  have i3 := i.sq.mul i
  have k1 := (((Pt.num (η := η) (6.673e-8 * 1.993e33) (by norm_num)).mul r).mul i3).mul (((Pt.num 3 (by norm_num)).mul c.sq).sub (Pt.num 1 (by norm_num)))
  have k := (k1.mul (Pt.num 1000 (by norm_num))).mul (Pt.num (1 + 0.612 - 3 / 2 * 0.303) (by norm_num))
  have e : ∀ lo la, solarTide a lo la 0 hour = 6.673e-8 * 1.993e33 * centreDist (la * (π / 180)) 0 * (invSun a ^ 2 * invSun a) *
      (3 * (zenith (la * (π / 180)) (meridian a lo hour)).dot (eclipticDir (23.452 * (π / 180)) (sunLong a)) ^ 2 - 1) * 1000 * (1 + 0.612 - 3 / 2 * 0.303) := by
    intro lo la
    unfold solarTide cosSun
    simp only
    ring
  rw [e, e]
  refine k.diff.trans (mul_le_mul_of_nonneg_right ?_ h0)
  norm_num

/-! ### The Eötvös correction -/

/-- Coefficient of the acceleration in latitude. -/
private noncomputable def cA (a f φ : ℝ) : ℝ :=
  a * f ^ 2 * sin (2 * φ) * cos (deviation f φ) * (sin φ ^ 2 + 2 * (cos (2 * φ) * (1 - f * sin φ ^ 2)))

/-- Coefficient of the square of the rate of latitude. -/
private noncomputable def cB (a f φ : ℝ) : ℝ :=
  2 * (a * f) * (cos (2 * φ) * cos (deviation f φ)) - 4 * (a * f ^ 2) * (sin (2 * φ) * cos (2 * φ) * sin (deviation f φ)) +
    radius a f φ * (4 * f ^ 2 * (cos (2 * φ) ^ 2 * cos (deviation f φ)) - 4 * f * (sin (2 * φ) * sin (deviation f φ))) +
    (2 * (a * f) * (sin (2 * φ) * sin (deviation f φ)) - 4 * f * (radius a f φ * (cos (2 * φ) * cos (deviation f φ)))) + radius a f φ * cos (deviation f φ)

/-- Coefficient of the change of the square of the rotation. -/
private noncomputable def cP (a f φ : ℝ) : ℝ := cos φ * (radius a f φ * cos (φ - deviation f φ))

private theorem eotvos_split (a b lat lat1 lat2 lon1 : ℝ) (h1 : ℝ) :
    eotvos a b ⟨lat, lat1, lat2, lon1, 0, h1, 0⟩ = 100000 * (lat2 * cA a ((a - b) / a) lat + lat1 ^ 2 * cB a ((a - b) / a) lat +
      lon1 * (2 * 0.00007292115 + lon1) * cP a ((a - b) / a) lat) := by
  unfold eotvos meridianTerm parallelTerm cA cB cP
  simp only
  generalize (a - b) / a = f
  have hs : sin (deviation f lat) = f * sin (2 * lat) * cos (deviation f lat) := by
    unfold deviation
    rw [Real.sin_arctan, Real.cos_arctan]
    ring
  have hr : radius a f lat = a * (1 - f * sin lat ^ 2) := rfl
  rw [hr]
  unfold earthRate
  generalize hD : deviation f lat = D at *
  linear_combination 100000 * lat2 * (a * (1 - f * sin lat ^ 2)) * (2 * f * cos (2 * lat) - 1) * hs

private theorem dev_pert {f φ ψ η : ℝ} (f0 : 0 ≤ f) (f1 : f ≤ 0.0034) (h : |φ - ψ| ≤ η) : |deviation f φ - deviation f ψ| ≤ 0.0068 * η := by
  have h0 : 0 ≤ η := (abs_nonneg _).trans h
  have s := Pt.sin (η := η) (L := 2) (x := 2 * φ) (y := 2 * ψ) (by rw [← mul_sub, abs_mul]; norm_num; exact h)
  have k := (((Pt.num (η := η) f f0).mono h0 f1 le_rfl).mul s).diff
  unfold deviation
  have l := Convex.norm_image_sub_le_of_norm_deriv_le (f := arctan) (C := 1) (s := Set.univ) (x := f * sin (2 * ψ)) (y := f * sin (2 * φ))
    (fun z _ => Real.differentiableAt_arctan z) (fun z _ => by
      rw [Real.deriv_arctan, Real.norm_eq_abs, abs_of_pos (by positivity), div_le_one (by positivity)]
      nlinarith [sq_nonneg z]) convex_univ trivial trivial
  rw [Real.norm_eq_abs, Real.norm_eq_abs, one_mul] at l
  refine l.trans (k.trans (mul_le_mul_of_nonneg_right ?_ h0))
  norm_num

private theorem coeff_pert {a f φ ψ η : ℝ} (a0 : 0 ≤ a) (a1 : a ≤ 6378137) (f0 : 0 ≤ f) (f1 : f ≤ 0.0034) (h : |φ - ψ| ≤ η) :
    Pt η 222 1000 (cA a f φ) (cA a f ψ) ∧ Pt η 6800000 1000000 (cB a f φ) (cB a f ψ) ∧ Pt η 6410000 13000000 (cP a f φ) (cP a f ψ) := by
  have h0 : 0 ≤ η := (abs_nonneg _).trans h
  have h2 : |2 * φ - 2 * ψ| ≤ 2 * η := by rw [← mul_sub, abs_mul]; norm_num; exact h
  have s1 := Pt.sin (η := η) (L := 1) (by rw [one_mul]; exact h)
  have c1 := Pt.cos (η := η) (L := 1) (by rw [one_mul]; exact h)
  have S := Pt.sin h2
  have C := Pt.cos h2
  have hD := dev_pert f0 f1 h
  have sD := Pt.sin hD
  have cD := Pt.cos hD
  have cE := Pt.cos (η := η) (L := 1.0068) (x := φ - deviation f φ) (y := ψ - deviation f ψ) (by
    rw [show φ - deviation f φ - (ψ - deviation f ψ) = (φ - ψ) - (deviation f φ - deviation f ψ) by ring]
    refine (abs_sub _ _).trans ?_
    linarith)
  have f' := (Pt.num (η := η) f f0).mono h0 f1 le_rfl
  have a' := (Pt.num (η := η) a a0).mono h0 a1 le_rfl
  have one := Pt.num (η := η) 1 (by norm_num)
  have two := Pt.num (η := η) 2 (by norm_num)
  have four := Pt.num (η := η) 4 (by norm_num)
  have q := one.sub (f'.mul s1.sq)
  have r : Pt η _ _ (radius a f φ) (radius a f ψ) := a'.mul q
  refine ⟨?_, ?_, ?_⟩
  · have k := (((a'.mul f'.sq).mul S).mul cD).mul (s1.sq.add (two.mul (C.mul q)))
    exact k.mono h0 (by norm_num) (by norm_num)
  · have k := ((((two.mul (a'.mul f')).mul (C.mul cD)).sub ((four.mul (a'.mul f'.sq)).mul ((S.mul C).mul sD))).add
      (r.mul (((four.mul f'.sq).mul (C.sq.mul cD)).sub ((four.mul f').mul (S.mul sD))))).add
      (((two.mul (a'.mul f')).mul (S.mul sD)).sub ((four.mul f').mul (r.mul (C.mul cD)))) |>.add (r.mul cD)
    exact k.mono h0 (by norm_num) (by norm_num)
  · have k := c1.mul (r.mul cE)
    exact k.mono h0 (by norm_num) (by norm_num)

/-- The change of the correction at sea level with the motion, for rates and accelerations up to 1.8e-5. -/
theorem eotvos_pert {φ ψ u v p q w z η d1 d2 : ℝ} (h h' : ℝ) (hφ : |φ - ψ| ≤ η) (hu : |u| ≤ 1.8e-5) (hv : |v| ≤ 1.8e-5) (hp : |p| ≤ 1.8e-5) (hq : |q| ≤ 1.8e-5)
    (hw : |w| ≤ 1.8e-5) (hz : |z| ≤ 1.8e-5) (e1 : |u - v| ≤ d1) (e2 : |p - q| ≤ d2) (e3 : |w - z| ≤ d1) :
    |eotvos 6378137 6356752.3142 ⟨φ, u, p, w, 0, h, 0⟩ - eotvos 6378137 6356752.3142 ⟨ψ, v, q, z, 0, h', 0⟩| ≤ 100000 * (222 * d2 + 1420 * d1 + 0.1 * η) := by
  rw [eotvos_split, eotvos_split]
  obtain ⟨A, B, P⟩ := coeff_pert (a := 6378137) (f := (6378137 - 6356752.3142) / 6378137) (by norm_num) (by norm_num) (by norm_num) (by norm_num) hφ
  generalize cA 6378137 ((6378137 - 6356752.3142) / 6378137) φ = A1 at *
  generalize cA 6378137 ((6378137 - 6356752.3142) / 6378137) ψ = A2 at *
  generalize cB 6378137 ((6378137 - 6356752.3142) / 6378137) φ = B1 at *
  generalize cB 6378137 ((6378137 - 6356752.3142) / 6378137) ψ = B2 at *
  generalize cP 6378137 ((6378137 - 6356752.3142) / 6378137) φ = P1 at *
  generalize cP 6378137 ((6378137 - 6356752.3142) / 6378137) ψ = P2 at *
  have h0 : 0 ≤ η := (abs_nonneg _).trans hφ
  have d10 : 0 ≤ d1 := (abs_nonneg _).trans e1
  have t1 : |p * A1 - q * A2| ≤ 222 * d2 + 0.018 * η := by
    rw [show p * A1 - q * A2 = (p - q) * A1 + q * (A1 - A2) by ring]
    refine (abs_add_le _ _).trans ?_
    rw [abs_mul, abs_mul]
    have k1 := mul_le_mul e2 A.left (abs_nonneg _) ((abs_nonneg _).trans e2)
    have k2 := mul_le_mul hq A.diff (abs_nonneg _) (by norm_num)
    norm_num at *
    linarith only [k1, k2]
  have t2 : |u ^ 2 * B1 - v ^ 2 * B2| ≤ 245 * d1 + 0.001 * η := by
    rw [show u ^ 2 * B1 - v ^ 2 * B2 = (u - v) * ((u + v) * B1) + v * (v * (B1 - B2)) by ring]
    refine (abs_add_le _ _).trans ?_
    rw [abs_mul, abs_mul, abs_mul, abs_mul]
    have k0 : |u + v| ≤ 3.6e-5 := (abs_add_le _ _).trans (by norm_num at *; linarith only [hu, hv])
    have k1 := mul_le_mul e1 (mul_le_mul k0 B.left (abs_nonneg _) (by norm_num)) (by positivity) d10
    have k2 := mul_le_mul hv (mul_le_mul hv B.diff (abs_nonneg _) (by norm_num)) (by positivity) (by norm_num)
    norm_num at *
    linarith only [k1, k2, h0, d10]
  have t3 : |w * (2 * 0.00007292115 + w) * P1 - z * (2 * 0.00007292115 + z) * P2| ≤ 1168 * d1 + 0.05 * η := by
    rw [show w * (2 * 0.00007292115 + w) * P1 - z * (2 * 0.00007292115 + z) * P2 =
      (w - z) * ((2 * 0.00007292115 + w + z) * P1) + z * ((2 * 0.00007292115 + z) * (P1 - P2)) by ring]
    refine (abs_add_le _ _).trans ?_
    rw [abs_mul, abs_mul, abs_mul, abs_mul]
    obtain ⟨w1, w2⟩ := abs_le.1 hw
    obtain ⟨z1, z2⟩ := abs_le.1 hz
    have k0 : |2 * 0.00007292115 + w + z| ≤ 1.8185e-4 := by rw [abs_le]; constructor <;> · norm_num at *; linarith only [w1, w2, z1, z2]
    have k0' : |2 * 0.00007292115 + z| ≤ 1.64e-4 := by rw [abs_le]; constructor <;> · norm_num at *; linarith only [z1, z2]
    have k1 := mul_le_mul e3 (mul_le_mul k0 P.left (abs_nonneg _) (by norm_num)) (by positivity) d10
    have k2 := mul_le_mul hz (mul_le_mul k0' P.diff (abs_nonneg _) (by norm_num)) (by positivity) (by norm_num)
    norm_num at *
    linarith only [k1, k2, h0, d10]
  rw [← mul_sub, abs_mul, abs_of_pos (by norm_num : (0 : ℝ) < 100000)]
  refine mul_le_mul_of_nonneg_left ?_ (by norm_num)
  rw [show p * A1 + u ^ 2 * B1 + w * (2 * 0.00007292115 + w) * P1 - (q * A2 + v ^ 2 * B2 + z * (2 * 0.00007292115 + z) * P2) =
    (p * A1 - q * A2) + (u ^ 2 * B1 - v ^ 2 * B2) + (w * (2 * 0.00007292115 + w) * P1 - z * (2 * 0.00007292115 + z) * P2) by ring]
  refine (abs_add_le _ _).trans ((add_le_add ((abs_add_le _ _).trans (add_le_add t1 t2)) t3).trans ?_)
  norm_num
  linarith only [h0, d10]

end Shipgrav
