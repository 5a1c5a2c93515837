import Verif.Lemmas.LevelField

/-! Existence and uniqueness of the field of the level ellipsoid. -/

namespace Shipgrav
open Spec Real Filter Topology

theorem contDiff_confU {c : ℝ} (hc : 0 < c) (p : Space) (hu : 0 < confU c p.1 p.2.1 p.2.2) :
    ContDiffAt ℝ 2 (fun p : Space => confU c p.1 p.2.1 p.2.2) p := by
  have hM : ContDiff ℝ 2 (fun p : Space => confM c p.1 p.2.1 p.2.2) := by unfold confM; fun_prop
  have hS : ContDiffAt ℝ 2 (fun p : Space => confS c p.1 p.2.1 p.2.2) p := by
    unfold confS
    refine ContDiffAt.sqrt (ContDiff.contDiffAt (by fun_prop)) ?_
    rw [← confS_sq hc]
    have := confS_pos hc hu
    positivity
  unfold confU
  refine ContDiffAt.sqrt ((hM.contDiffAt.add hS).div_const 2) ?_
  rw [← confU_sq hc]
  positivity

variable {E u : ℝ}

theorem contDiff_levT (hu : 0 < u) : ContDiffAt ℝ 2 (levT E) u := by
  unfold levT
  exact (ContDiffAt.div contDiffAt_const contDiffAt_id hu.ne').arctan

theorem contDiff_levQ (hu : 0 < u) : ContDiffAt ℝ 2 (levQ E) u := by
  unfold levQ
  have := contDiff_levT (E := E) hu
  refine ContDiffAt.div_const (ContDiffAt.sub (ContDiffAt.mul (ContDiff.contDiffAt (by fun_prop)) this) (ContDiff.contDiffAt (by fun_prop))) 2

theorem contDiff_levV (GM k : ℝ) (hE : 0 < E) (p : Space) (hu : 0 < confU (E ^ 2) p.1 p.2.1 p.2.2) : ContDiffAt ℝ 2 (levV GM k E) p := by
  have h := contDiff_confU (by positivity) p hu
  have hF : ContDiffAt ℝ 2 (levF k E) (confU (E ^ 2) p.1 p.2.1 p.2.2) := by
    unfold levF
    exact (contDiffAt_const.mul (contDiff_levQ hu)).div (contDiffAt_id.pow 2) (pow_pos hu 2).ne'
  have hG : ContDiffAt ℝ 2 (levG GM k E) (confU (E ^ 2) p.1 p.2.1 p.2.2) := by
    unfold levG
    exact (contDiffAt_const.mul (contDiff_levT hu)).sub ((contDiffAt_const.mul (contDiff_levQ hu)).div_const 3)
  unfold levV
  exact ((hF.comp (f := fun p : Space => confU (E ^ 2) p.1 p.2.1 p.2.2) p h).mul (ContDiff.contDiffAt (by fun_prop))).add
    (hG.comp (f := fun p : Space => confU (E ^ 2) p.1 p.2.1 p.2.2) p h)

/-! ### Far away -/

theorem tendsto_uT (hE : 0 < E) : Tendsto (fun u => u * levT E u) atTop (𝓝 E) := by
  have h1 : Tendsto (fun u : ℝ => E - E ^ 3 / 3 * (u⁻¹) ^ 2) atTop (𝓝 (E - E ^ 3 / 3 * 0 ^ 2)) :=
    tendsto_const_nhds.sub ((tendsto_inv_atTop_zero.pow 2).const_mul _)
  rw [show E - E ^ 3 / 3 * 0 ^ 2 = E by ring] at h1
  refine tendsto_of_tendsto_of_tendsto_of_le_of_le' h1 tendsto_const_nhds ?_ ?_
  · filter_upwards [eventually_gt_atTop 0] with u hu
    have := (arctan_le_sum 1 (E / u) (by positivity)).2
    unfold levT
    have h2 := mul_le_mul_of_nonneg_left this hu.le
    refine le_trans (le_of_eq ?_) h2
    simp [arctanSum, Finset.sum_range_succ]
    field_simp
    ring
  · filter_upwards [eventually_gt_atTop 0] with u hu
    have := (arctan_le_sum 0 (E / u) (by positivity)).1
    unfold levT
    have h2 := mul_le_mul_of_nonneg_left this hu.le
    refine le_trans h2 (le_of_eq ?_)
    simp [arctanSum]
    field_simp

theorem tendsto_uQ (hE : 0 < E) : Tendsto (fun u => u * levQ E u) atTop (𝓝 0) := by
  have h1 : Tendsto (fun u : ℝ => 2 / 15 * E ^ 3 * (u⁻¹) ^ 2 + E ^ 5 / 10 * (u⁻¹) ^ 4) atTop (𝓝 (2 / 15 * E ^ 3 * 0 ^ 2 + E ^ 5 / 10 * 0 ^ 4)) :=
    ((tendsto_inv_atTop_zero.pow 2).const_mul _).add ((tendsto_inv_atTop_zero.pow 4).const_mul _)
  rw [show 2 / 15 * E ^ 3 * 0 ^ 2 + E ^ 5 / 10 * 0 ^ 4 = 0 by ring] at h1
  refine tendsto_of_tendsto_of_tendsto_of_le_of_le' tendsto_const_nhds h1 ?_ ?_
  · filter_upwards [eventually_gt_atTop 0] with u hu
    have := levQ_pos hE hu
    positivity
  · filter_upwards [eventually_gt_atTop 0] with u hu
    have := (arctan_le_sum 1 (E / u) (by positivity)).1
    unfold levQ levT
    have h2 : u * (((1 + 3 * u ^ 2 / E ^ 2) * arctan (E / u) - 3 * u / E) / 2) ≤
        u * (((1 + 3 * u ^ 2 / E ^ 2) * arctanSum (2 * 1 + 1) (E / u) - 3 * u / E) / 2) := by gcongr
    refine le_trans h2 (le_of_eq ?_)
    simp [arctanSum, Finset.sum_range_succ]
    field_simp
    ring

theorem confU_between {c : ℝ} (hc : 0 < c) (x y z : ℝ) :
    x ^ 2 + y ^ 2 + z ^ 2 - c ≤ confU c x y z ^ 2 ∧ confU c x y z ^ 2 ≤ x ^ 2 + y ^ 2 + z ^ 2 := by
  rw [confU_sq hc]
  have h1 := confM_le (x := x) (y := y) (z := z) hc
  have h2 := le_abs_self (confM c x y z)
  have hM : confM c x y z = x ^ 2 + y ^ 2 + z ^ 2 - c := rfl
  constructor
  · linarith
  · have : confS c x y z ≤ x ^ 2 + y ^ 2 + z ^ 2 + c := by
      unfold confS
      refine (sqrt_le_left (by positivity)).2 ?_
      rw [hM]
      nlinarith [mul_nonneg hc.le (sq_nonneg x), mul_nonneg hc.le (sq_nonneg y)]
    linarith

theorem tendsto_centre : Tendsto centreDistance (cocompact Space) atTop := by
  refine tendsto_atTop_mono (fun p => ?_) tendsto_norm_cocompact_atTop
  unfold centreDistance
  obtain ⟨x, y, z⟩ := p
  simp only
  rw [Prod.norm_mk, Prod.norm_mk, Real.norm_eq_abs, Real.norm_eq_abs, Real.norm_eq_abs]
  refine max_le ?_ (max_le ?_ ?_) <;>
  · rw [← sqrt_sq_eq_abs]
    exact sqrt_le_sqrt (by nlinarith [sq_nonneg x, sq_nonneg y, sq_nonneg z])

theorem tendsto_confU {c : ℝ} (hc : 0 < c) : Tendsto (fun p : Space => confU c p.1 p.2.1 p.2.2) (cocompact Space) atTop := by
  have h : Tendsto (fun p : Space => √(centreDistance p ^ 2 - c)) (cocompact Space) atTop :=
    tendsto_sqrt_atTop.comp (tendsto_atTop_add_const_right _ (-c) ((tendsto_pow_atTop two_ne_zero).comp tendsto_centre))
  refine tendsto_atTop_mono (fun p => ?_) h
  refine (sqrt_le_left (sqrt_nonneg _)).2 ?_
  have := (confU_between hc p.1 p.2.1 p.2.2).1
  unfold centreDistance
  rwa [sq_sqrt (by positivity)]

theorem tendsto_ratio {c : ℝ} (hc : 0 < c) : Tendsto (fun p : Space => centreDistance p / confU c p.1 p.2.1 p.2.2) (cocompact Space) (𝓝 1) := by
  have hu := tendsto_confU hc
  have h1 : Tendsto (fun p : Space => √(1 + c * ((confU c p.1 p.2.1 p.2.2)⁻¹) ^ 2)) (cocompact Space) (𝓝 (√(1 + c * 0 ^ 2))) := by
    refine (continuous_sqrt.tendsto _).comp (tendsto_const_nhds.add (((tendsto_inv_atTop_zero.comp hu).pow 2).const_mul c))
  rw [show √(1 + c * 0 ^ 2) = 1 by norm_num] at h1
  refine tendsto_of_tendsto_of_tendsto_of_le_of_le' tendsto_const_nhds h1 ?_ ?_
  · filter_upwards [hu.eventually_gt_atTop 0] with p hp
    rw [le_div_iff₀ hp, one_mul]
    exact le_sqrt_of_sq_le (confU_between hc p.1 p.2.1 p.2.2).2
  · filter_upwards [hu.eventually_gt_atTop 0] with p hp
    rw [div_le_iff₀ hp]
    unfold centreDistance
    refine (sqrt_le_left (by positivity)).2 ?_
    rw [mul_pow, sq_sqrt (by positivity)]
    have := (confU_between hc p.1 p.2.1 p.2.2).1
    field_simp
    linarith

theorem tendsto_levV (GM k : ℝ) (hE : 0 < E) : Tendsto (fun p => centreDistance p * levV GM k E p) (cocompact Space) (𝓝 GM) := by
  have hc : 0 < E ^ 2 := by positivity
  have hu := tendsto_confU hc
  have hr := tendsto_ratio hc
  have hT := (tendsto_uT hE).comp hu
  have hQ := (tendsto_uQ hE).comp hu
  have hG : Tendsto (fun p : Space => GM / E * (confU (E ^ 2) p.1 p.2.1 p.2.2 * levT E (confU (E ^ 2) p.1 p.2.1 p.2.2)) -
      k / 3 * (confU (E ^ 2) p.1 p.2.1 p.2.2 * levQ E (confU (E ^ 2) p.1 p.2.1 p.2.2))) (cocompact Space) (𝓝 (GM / E * E - k / 3 * 0)) :=
    (hT.const_mul _).sub (hQ.const_mul _)
  rw [show GM / E * E - k / 3 * 0 = GM by field_simp; ring] at hG
  have hF : Tendsto (fun p : Space => k * (confU (E ^ 2) p.1 p.2.1 p.2.2 * levQ E (confU (E ^ 2) p.1 p.2.1 p.2.2)) *
      (p.2.2 ^ 2 / confU (E ^ 2) p.1 p.2.1 p.2.2 ^ 2)) (cocompact Space) (𝓝 0) := by
    have h0 : Tendsto (fun p : Space => k * (confU (E ^ 2) p.1 p.2.1 p.2.2 * levQ E (confU (E ^ 2) p.1 p.2.1 p.2.2))) (cocompact Space) (𝓝 (k * 0)) :=
      hQ.const_mul k
    rw [mul_zero] at h0
    refine h0.zero_mul_isBoundedUnder_le ?_
    refine isBoundedUnder_of_eventually_le (a := 1) ?_
    filter_upwards [hu.eventually_gt_atTop 0] with p hp
    simp only [Function.comp_apply]
    rw [norm_eq_abs, abs_of_nonneg (by positivity)]
    have h2 := conf_axis hc hp
    have h3 : 0 ≤ (confU (E ^ 2) p.1 p.2.1 p.2.2 ^ 2 + E ^ 2) * (1 - p.2.2 ^ 2 / confU (E ^ 2) p.1 p.2.1 p.2.2 ^ 2) := by rw [← h2]; positivity
    have h4 := nonneg_of_mul_nonneg_right h3 (by positivity)
    linarith
  have h := hr.mul (hF.add hG)
  rw [zero_add, one_mul] at h
  refine h.congr' ?_
  filter_upwards [hu.eventually_gt_atTop 0] with p hp
  unfold levV levF levG
  field_simp

/-! ### Existence -/

section
variable {a b GM ω : ℝ}

/-- The field in closed form. -/
noncomputable def levW (a b GM ω : ℝ) (p : Space) : ℝ :=
  levV GM (levK a b ω (√(a ^ 2 - b ^ 2))) (√(a ^ 2 - b ^ 2)) p + ω ^ 2 * (p.1 ^ 2 + p.2.1 ^ 2) / 2

theorem focal (hb : 0 < b) (hab : b < a) : 0 < √(a ^ 2 - b ^ 2) ∧ b ^ 2 + √(a ^ 2 - b ^ 2) ^ 2 = a ^ 2 := by
  have h : 0 < a ^ 2 - b ^ 2 := by nlinarith
  refine ⟨sqrt_pos.2 h, ?_⟩
  rw [sq_sqrt h.le]
  ring

theorem levU_ge (hb : 0 < b) (hab : b < a) (p : Space) (hp : 1 ≤ ellipsoidForm a b p) : b ≤ confU (√(a ^ 2 - b ^ 2) ^ 2) p.1 p.2.1 p.2.2 := by
  obtain ⟨h1, h2⟩ := focal hb hab
  refine confU_ge (by positivity) hb ?_
  rw [h2]
  exact hp

theorem levU_eq (hb : 0 < b) (hab : b < a) (p : Space) (hp : ellipsoidForm a b p = 1) : confU (√(a ^ 2 - b ^ 2) ^ 2) p.1 p.2.1 p.2.2 = b := by
  obtain ⟨h1, h2⟩ := focal hb hab
  refine confU_unique (by positivity) hb ?_
  rw [h2]
  exact hp

theorem levW_contDiff (hb : 0 < b) (hab : b < a) (p : Space) (hp : 1 ≤ ellipsoidForm a b p) : ContDiffAt ℝ 2 (levW a b GM ω) p := by
  unfold levW
  refine (contDiff_levV GM _ (focal hb hab).1 p (lt_of_lt_of_le hb (levU_ge hb hab p hp))).add (ContDiff.contDiffAt (by fun_prop))

theorem levW_field (hb : 0 < b) (hab : b < a) : LevelField a b GM ω (levW a b GM ω) := by
  obtain ⟨hE, hE2⟩ := focal hb hab
  have hatt : attraction ω (levW a b GM ω) = levV GM (levK a b ω (√(a ^ 2 - b ^ 2))) (√(a ^ 2 - b ^ 2)) := by
    funext p
    unfold attraction levW
    ring
  refine ⟨fun p hp => (levW_contDiff hb hab p hp).continuousAt.continuousWithinAt, fun p hp => levW_contDiff hb hab p hp.le, fun p hp => ?_, ?_, ?_⟩
  · rw [hatt]
    exact levV_harmonic GM _ hE p (lt_of_lt_of_le hb (levU_ge hb hab p hp.le))
  · have key : ∀ p, ellipsoidForm a b p = 1 → levW a b GM ω p =
        GM / √(a ^ 2 - b ^ 2) * levT (√(a ^ 2 - b ^ 2)) b + ω ^ 2 * a ^ 2 / 3 := by
      intro p hp
      unfold levW levV
      rw [levU_eq hb hab p hp]
      have hq := levQ_pos hE hb
      unfold levF levG levK
      unfold ellipsoidForm at hp
      have ha : 0 < a := lt_trans hb hab
      have h1 : p.1 ^ 2 + p.2.1 ^ 2 = a ^ 2 * (1 - p.2.2 ^ 2 / b ^ 2) := by
        rw [← hp]; field_simp; ring
      rw [h1]
      field_simp
      ring
    intro p q hp hq
    rw [key p hp, key q hq]
  · rw [hatt]
    exact tendsto_levV GM _ hE

/-! ### Uniqueness -/

private theorem axis_smooth {V : Space → ℝ} {p : Space} (h : ContDiffAt ℝ 2 V p) :
    ContDiffAt ℝ 2 (fun s => V (s, p.2.1, p.2.2)) p.1 ∧ ContDiffAt ℝ 2 (fun s => V (p.1, s, p.2.2)) p.2.1 ∧
      ContDiffAt ℝ 2 (fun s => V (p.1, p.2.1, s)) p.2.2 := by
  have cx : ContDiff ℝ 2 fun s : ℝ => ((s, p.2.1, p.2.2) : Space) := by fun_prop
  have cy : ContDiff ℝ 2 fun s : ℝ => ((p.1, s, p.2.2) : Space) := by fun_prop
  have cz : ContDiff ℝ 2 fun s : ℝ => ((p.1, p.2.1, s) : Space) := by fun_prop
  exact ⟨h.comp (f := fun s : ℝ => ((s, p.2.1, p.2.2) : Space)) p.1 cx.contDiffAt, h.comp (f := fun s : ℝ => ((p.1, s, p.2.2) : Space)) p.2.1 cy.contDiffAt,
    h.comp (f := fun s : ℝ => ((p.1, p.2.1, s) : Space)) p.2.2 cz.contDiffAt⟩

private theorem second_sub {f g : ℝ → ℝ} {x : ℝ} (hf : ContDiffAt ℝ 2 f x) (hg : ContDiffAt ℝ 2 g x) :
    deriv (deriv fun s => f s - g s) x = deriv (deriv f) x - deriv (deriv g) x := by
  have hd : ∀ {f : ℝ → ℝ}, ContDiffAt ℝ 2 f x → (∀ᶠ s in 𝓝 x, HasDerivAt f (deriv f s) s) ∧ HasDerivAt (deriv f) (deriv (deriv f) x) x := by
    intro f hf
    refine ⟨(hf.eventually (by norm_num)).mono fun s hs => (hs.differentiableAt (by norm_num)).hasDerivAt, ?_⟩
    have h1 : ContDiffAt ℝ 1 (fderiv ℝ f) x := hf.fderiv_right (by norm_num)
    have h2 : DifferentiableAt ℝ (fun s => fderiv ℝ f s 1) x := (h1.differentiableAt (by norm_num)).clm_apply (differentiableAt_const 1)
    exact DifferentiableAt.hasDerivAt h2
  refine deriv_two (F1 := fun s => deriv f s - deriv g s) ?_ ((hd hf).2.sub (hd hg).2)
  filter_upwards [(hd hf).1, (hd hg).1] with s h1 h2
  exact h1.sub h2

theorem laplacian_sub {V U : Space → ℝ} {p : Space} (hV : ContDiffAt ℝ 2 V p) (hU : ContDiffAt ℝ 2 U p) :
    laplacian (fun q => V q - U q) p = laplacian V p - laplacian U p := by
  obtain ⟨a1, a2, a3⟩ := axis_smooth hV
  obtain ⟨b1, b2, b3⟩ := axis_smooth hU
  unfold laplacian
  rw [second_sub a1 b1, second_sub a2 b2, second_sub a3 b3]
  ring

/-- A function that is harmonic outside, vanishes on the ellipsoid and far away is zero. -/
theorem zero_of_harmonic (d : Space → ℝ) (hcont : ContinuousOn d {p | 1 ≤ ellipsoidForm a b p})
    (hsm : ∀ p, 1 < ellipsoidForm a b p → ContDiffAt ℝ 2 d p) (hlap : ∀ p, 1 < ellipsoidForm a b p → laplacian d p = 0)
    (hb : ∀ p, ellipsoidForm a b p = 1 → d p = 0) (hinf : Tendsto d (cocompact Space) (𝓝 0)) (p : Space) (hp : 1 ≤ ellipsoidForm a b p) :
    d p = 0 := by
  refine le_antisymm (max_principle a b d hcont hsm hlap (fun p hp => (hb p hp).le) hinf p hp) ?_
  have hz : ∀ q : Space, laplacian (fun _ : Space => (0 : ℝ)) q = 0 := fun q => by simp [laplacian]
  have := max_principle a b (fun q => 0 - d q) (continuousOn_const.sub hcont) (fun p hp => contDiffAt_const.sub (hsm p hp))
    (fun p hp => by rw [laplacian_sub contDiffAt_const (hsm p hp), hz, hlap p hp, sub_zero]) (fun p hp => by simp [hb p hp])
    (by simpa using (tendsto_const_nhds (x := (0 : ℝ))).sub hinf) p hp
  linarith

/-- Two level fields with the same constants agree on and outside the ellipsoid. -/
theorem level_unique (hb : 0 < b) (hab : b < a) (W W' : Space → ℝ) (h : LevelField a b GM ω W) (h' : LevelField a b GM ω W') (p : Space)
    (hp : 1 ≤ ellipsoidForm a b p) : W p = W' p := by
  obtain ⟨hE, hE2⟩ := focal hb hab
  have ha : 0 < a := lt_trans hb hab
  obtain ⟨E, hEe⟩ : ∃ E, E = √(a ^ 2 - b ^ 2) := ⟨_, rfl⟩
  rw [← hEe] at hE hE2
  -- a point of the surface, and the difference there
  obtain ⟨e, he⟩ : ∃ e : Space, ellipsoidForm a b e = 1 := ⟨(a, 0, 0), by unfold ellipsoidForm; simp [ha.ne']⟩
  have hTb : 0 < levT E b := by
    unfold levT
    have := arctan_gt_ratio (E / b) (by positivity)
    exact lt_trans (by positivity) this
  obtain ⟨m, hm⟩ : ∃ m, m = (W e - W' e) * E / levT E b := ⟨_, rfl⟩
  have hpos : ∀ q, 1 ≤ ellipsoidForm a b q → 0 < confU (E ^ 2) q.1 q.2.1 q.2.2 := fun q hq => by
    rw [hEe]; exact lt_of_lt_of_le hb (levU_ge hb hab q hq)
  have hatt : ∀ q, W q - W' q = attraction ω W q - attraction ω W' q := fun q => by unfold attraction; ring
  have hcf : ∀ q : Space, ContDiffAt ℝ 2 (fun p : Space => ω ^ 2 * (p.1 ^ 2 + p.2.1 ^ 2) / 2) q := fun q => ContDiff.contDiffAt (by fun_prop)
  have hlim : Tendsto (fun q => centreDistance q * (W q - W' q)) (cocompact Space) (𝓝 0) := by
    have := h.mass.sub h'.mass
    rw [sub_self] at this
    refine this.congr fun q => ?_
    rw [hatt]; ring
  have hV := tendsto_levV (E := E) m 0 hE
  have hinf : Tendsto (fun q => W q - W' q - levV m 0 E q) (cocompact Space) (𝓝 0) := by
    have h1 := hlim.sub hV
    have h2 := (tendsto_inv_atTop_zero.comp tendsto_centre).mul h1
    rw [zero_mul] at h2
    refine h2.congr' ?_
    filter_upwards [tendsto_centre.eventually_gt_atTop 0] with q hq
    simp only [Function.comp_apply]
    field_simp
  have hsm : ∀ q, 1 < ellipsoidForm a b q → ContDiffAt ℝ 2 (fun q => W q - W' q) q := fun q hq => (h.smooth q hq).sub (h'.smooth q hq)
  have hlapd : ∀ q, 1 < ellipsoidForm a b q → laplacian (fun q => W q - W' q) q = 0 := fun q hq => by
    have e1 : (fun q => W q - W' q) = fun q => attraction ω W q - attraction ω W' q := funext hatt
    have s1 : ContDiffAt ℝ 2 (attraction ω W) q := (h.smooth q hq).sub (hcf q)
    have s2 : ContDiffAt ℝ 2 (attraction ω W') q := (h'.smooth q hq).sub (hcf q)
    rw [e1, laplacian_sub s1 s2, h.harmonic q hq, h'.harmonic q hq, sub_zero]
  have hzero := zero_of_harmonic (a := a) (b := b) (fun q => W q - W' q - levV m 0 E q)
    ((h.continuous.sub h'.continuous).sub fun q hq => (contDiff_levV m 0 hE q (hpos q hq)).continuousAt.continuousWithinAt)
    (fun q hq => (hsm q hq).sub (contDiff_levV m 0 hE q (hpos q hq.le)))
    (fun q hq => by rw [laplacian_sub (hsm q hq) (contDiff_levV m 0 hE q (hpos q hq.le)), hlapd q hq, levV_harmonic m 0 hE q (hpos q hq.le), sub_zero])
    (fun q hq => by
      have hu : confU (E ^ 2) q.1 q.2.1 q.2.2 = b := by rw [hEe]; exact levU_eq hb hab q hq
      rw [h.level q e hq he, h'.level q e hq he]
      unfold levV levF levG
      rw [hu, hm]
      field_simp
      ring) hinf
  -- the difference has no mass
  have hm0 : m = 0 := by
    refine tendsto_nhds_unique (hV.congr' ?_) hlim
    have hev : ∀ᶠ q : Space in cocompact Space, 1 ≤ ellipsoidForm a b q := by
      filter_upwards [tendsto_centre.eventually_ge_atTop a] with q hq
      have h1 : a ^ 2 ≤ q.1 ^ 2 + q.2.1 ^ 2 + q.2.2 ^ 2 := (le_sqrt ha.le (by positivity)).1 hq
      unfold ellipsoidForm
      have h2 : q.2.2 ^ 2 / a ^ 2 ≤ q.2.2 ^ 2 / b ^ 2 := by gcongr
      calc 1 ≤ (q.1 ^ 2 + q.2.1 ^ 2 + q.2.2 ^ 2) / a ^ 2 := (one_le_div (by positivity)).2 h1
        _ = (q.1 ^ 2 + q.2.1 ^ 2) / a ^ 2 + q.2.2 ^ 2 / a ^ 2 := by rw [add_div]
        _ ≤ _ := by linarith
    filter_upwards [hev] with q hq
    have := hzero q hq
    rw [show W q - W' q = levV m 0 E q by linarith]
  have := hzero p hp
  have hv0 : levV m 0 E p = 0 := by unfold levV levF levG; rw [hm0]; simp
  linarith

end

end Shipgrav
