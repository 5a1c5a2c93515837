import Verif.Lemmas.TiltCoeffs
import Verif.Props.Tilt

/-! Property C131: the tilt of the platform in double precision. -/

namespace Shipgrav
open Spec Real

/-- Roots of a quadratic without distinct real roots. -/
theorem complex_roots (a1 a2 : ℝ) (h : a1 ^ 2 ≤ 4 * a2) :
    ∃ p q : ℂ, p + q = -a1 ∧ p * q = a2 ∧ ‖p‖ = √a2 ∧ ‖q‖ = √a2 := by
  obtain ⟨w, hw⟩ : ∃ w : ℝ, w = √(4 * a2 - a1 ^ 2) := ⟨_, rfl⟩
  have hw2 : w ^ 2 = 4 * a2 - a1 ^ 2 := by rw [hw, Real.sq_sqrt (by linarith)]
  have hn : ∀ y : ℝ, y ^ 2 = w ^ 2 / 4 → ‖(⟨-a1 / 2, y⟩ : ℂ)‖ = √a2 := by
    intro y hy
    rw [Complex.norm_def, Complex.normSq_apply]
    congr 1
    simp only
    nlinarith
  refine ⟨⟨-a1 / 2, w / 2⟩, ⟨-a1 / 2, -(w / 2)⟩, ?_, ?_, hn _ (by ring), hn _ (by ring)⟩
  · apply Complex.ext <;> simp
  · apply Complex.ext <;> simp
    · nlinarith
    · ring

private theorem samples_list {α : Type} (l : List α) (d : α) : samples (fun i => l.getD i d) l.length = l := by
  unfold samples
  apply List.ext_getElem
  · simp
  · intro i h1 h2
    simp at h1
    simp [h1]

private theorem forall₂_samples {α β : Type} {R : α → β → Prop} (x : ℕ → α) (y : ℕ → β) (h : ∀ n, R (x n) (y n)) (n : ℕ) :
    List.Forall₂ R (samples x n) (samples y n) := by
  unfold samples
  induction List.range n with
  | nil => exact .nil
  | cons a l ih => exact .cons (h a) ih

/-- The coefficients in double precision, next to the exact ones. -/
theorem filter_close (lm : Libm) (ht : GoodTan lm.tan) (hs : GoodSqrt lm.sqrt) (hq : GoodSqr lm.sqr) (per dt damp : ℚ) (hdt : 0 < dt)
    (hper : 4 * dt ≤ per) (hper2 : per ≤ 5000) (hdamp : 0 ≤ damp) (t ζ : ℝ) (et : t = tan (π * dt / per))
    (eζ : ζ = if damp = 0 then √2 / 2 else (damp : ℝ)) :
    ∃ g f, tiltFilterF lm per dt damp = .ok (some g) ∧ tiltFilter per dt damp = .ok (some f) ∧ 0 < t ∧ 0 < ζ ∧
      CloseTo f g (350 * (1 / 2 ^ 52)) (4 * (t ^ 2 + ζ * t) / (1 + 2 * ζ * t + t ^ 2)) ∧
      f.a1 * (1 + 2 * ζ * t + t ^ 2) = 2 * (t ^ 2 - 1) ∧ f.a2 * (1 + 2 * ζ * t + t ^ 2) = 1 + t ^ 2 - 2 * ζ * t := by
  have hdtR : (0 : ℝ) < dt := by exact_mod_cast hdt
  have hperR : 4 * (dt : ℝ) ≤ per := by exact_mod_cast hper
  have hper2R : (per : ℝ) ≤ 5000 := by exact_mod_cast hper2
  have hper0R : (0 : ℝ) < per := by linarith
  have hper0 : 0 < per := by linarith
  have hdampR : (0 : ℝ) ≤ damp := by exact_mod_cast hdamp
  have hd1250 : (dt : ℝ) ≤ 1250 := by linarith
  have hπ := Real.pi_pos
  have hπ3 := Real.pi_gt_d2
  obtain ⟨f, hf, w0, wS, ζ', d0, hw0, hwS, hζ', hd0, ew0, ewS, eζ', ed0, k0, k1, k2, k3, k4⟩ :=
    tiltFilter_ok per dt damp hdtR (by linarith) (by linarith) hdampR
  have hζe : ζ' = ζ := by
    rw [eζ', eζ]
    by_cases h : damp = 0
    · simp [h]
    · rw [if_neg h, if_neg (by exact_mod_cast h)]
  subst hζe
  have hroot : 800 ≤ √(6371100 / 9.8 : ℝ) := by
    apply Real.le_sqrt_of_sq_le
    norm_num
  have hroot0 : 0 < √(6371100 / 9.8 : ℝ) := by linarith
  have hθ0 : 0 < π * dt / per := by positivity
  have hθ1 : π * dt / per ≤ π / 4 := by
    rw [div_le_div_iff₀ hper0R (by norm_num)]
    nlinarith
  have hθS0 : 0 < (dt : ℝ) / (2 * √(6371100 / 9.8)) := by positivity
  have hθS1 : (dt : ℝ) / (2 * √(6371100 / 9.8)) ≤ π / 4 := by
    rw [div_le_div_iff₀ (by positivity) (by norm_num)]
    nlinarith
  have hθle : (dt : ℝ) / (2 * √(6371100 / 9.8)) ≤ π * dt / per := by
    rw [div_le_div_iff₀ (by positivity) hper0R]
    have : (per : ℝ) ≤ π * (2 * √(6371100 / 9.8)) := by nlinarith
    nlinarith
  have ht0 : 0 < t := by
    rw [et]
    exact Real.tan_pos_of_pos_of_lt_pi_div_two hθ0 (by linarith)
  have htan : tan ((dt : ℝ) / (2 * √(6371100 / 9.8))) ≤ t := by
    rw [et]
    rcases hθle.lt_or_eq with h | h
    · exact (Real.tan_lt_tan_of_lt_of_lt_pi_div_two (by linarith) (by linarith) h).le
    · rw [h]
  obtain ⟨tS, etS⟩ : ∃ tS, tS = tan ((dt : ℝ) / (2 * √(6371100 / 9.8))) := ⟨_, rfl⟩
  have htS0 : 0 < tS := by
    rw [etS]
    exact Real.tan_pos_of_pos_of_lt_pi_div_two hθS0 (by linarith)
  -- the two angles
  have v0 : (0 : ℝ) ≤ 1 / 2 ^ 52 := by positivity
  have n1 : Near (3 * (1 / 2 ^ 52)) (toDouble (toDouble (2 * piF) / per)) (2 * π / per) := by
    have a := near_toDouble ((near_toDouble ((near_self 2).mul near_pi)).div (near_self per))
    push_cast at a
    exact a.mono (by linarith)
  have n2 : Near (7 * (1 / 2 ^ 52)) (toDouble (toDouble (toDouble (toDouble (2 * piF) / per) * dt) / 2)) (π * dt / per) := by
    have a := near_toDouble ((near_toDouble (n1.mul (near_self dt))).div (near_self 2))
    push_cast at a
    have := a.mono (d := 7 * (1 / 2 ^ 52)) (by linarith)
    convert this using 1
    field_simp
  have n3 : Near (5 * (1 / 2 ^ 52)) (toDouble (1 / lm.sqrt (toDouble (6371100 / toDouble 9.8)))) (1 / √(6371100 / 9.8)) := by
    have a := near_toDouble ((near_self 6371100).div (near_toDouble (near_self 9.8)))
    have a' := near_sqrt hs (x := 6371100 / 9.8) (c := 2 * (1 / 2 ^ 52)) (by
      have := a.mono (d := 2 * (1 / 2 ^ 52)) (by linarith)
      convert this using 1
      push_cast
      norm_num) (by norm_num) (by positivity)
    have b := near_toDouble ((near_self 1).div a')
    push_cast at b
    exact b.mono (by linarith)
  have n4 : Near (7 * (1 / 2 ^ 52)) (toDouble (toDouble (toDouble (1 / lm.sqrt (toDouble (6371100 / toDouble 9.8))) * dt) / 2))
      ((dt : ℝ) / (2 * √(6371100 / 9.8))) := by
    have a := near_toDouble ((near_toDouble (n3.mul (near_self dt))).div (near_self 2))
    push_cast at a
    have := a.mono (d := 7 * (1 / 2 ^ 52)) (by linarith)
    convert this using 1
    field_simp
  have m1 := near_tan ht n2 hθ0 hθ1
  have m2 := near_tan ht n4 hθS0 hθS1
  rw [← et] at m1
  rw [← etS] at m2
  have n2d : Near (1 / 2 ^ 52) (toDouble (2 / dt)) (2 / (dt : ℝ)) := by
    have a := near_toDouble (near_self (2 / dt))
    push_cast at a
    exact a.mono (by linarith)
  have o1 : Near (39 * (1 / 2 ^ 52)) (toDouble (toDouble (2 / dt) * lm.tan (toDouble (toDouble (toDouble (toDouble (2 * piF) / per) * dt) / 2)))) w0 := by
    have a := near_toDouble (n2d.mul m1)
    rw [ew0, ← et]
    exact a.mono (by linarith)
  have o2 : Near (39 * (1 / 2 ^ 52)) (toDouble (toDouble (2 / dt) *
      lm.tan (toDouble (toDouble (toDouble (1 / lm.sqrt (toDouble (6371100 / toDouble 9.8))) * dt) / 2)))) wS := by
    have a := near_toDouble (n2d.mul m2)
    rw [ewS, ← etS]
    exact a.mono (by linarith)
  generalize hO1 : toDouble (toDouble (2 / dt) * lm.tan (toDouble (toDouble (toDouble (toDouble (2 * piF) / per) * dt) / 2))) = om0 at o1
  generalize hO2 : toDouble (toDouble (2 / dt) *
      lm.tan (toDouble (toDouble (toDouble (1 / lm.sqrt (toDouble (6371100 / toDouble 9.8))) * dt) / 2))) = omS at o2
  have nd : Near (80 * (1 / 2 ^ 52)) (lm.sqr om0) (w0 ^ 2) := (near_sqr hq o1 hw0.ne').mono (by linarith)
  have nS : Near (80 * (1 / 2 ^ 52)) (lm.sqr omS) (wS ^ 2) := (near_sqr hq o2 hwS.ne').mono (by linarith)
  have nζ : Near (3 * (1 / 2 ^ 52)) (if damp = 0 then toDouble (lm.sqrt 2 / 2) else damp) ζ' := by
    rw [eζ]
    by_cases h : damp = 0
    · rw [if_pos h, if_pos h]
      have a := near_toDouble ((near_sqrt hs (near_self 2) (by norm_num) le_rfl).div (near_self 2))
      push_cast at a
      exact a.mono (by linarith)
    · rw [if_neg h, if_neg h]
      exact (near_self damp).mono (by positivity)
  generalize hdq : (if damp = 0 then toDouble (lm.sqrt 2 / 2) else damp) = dq at nζ
  have nb : Near (46 * (1 / 2 ^ 52)) (toDouble (toDouble (toDouble (2 * dq) * om0) * toDouble (2 / dt))) (2 * ζ' * w0 * (2 / dt)) := by
    have a := near_toDouble ((near_toDouble ((near_toDouble ((near_self 2).mul nζ)).mul o1)).mul n2d)
    push_cast at a
    exact a.mono (by linarith)
  have nc : Near (3 * (1 / 2 ^ 52)) (toDouble (4 / lm.sqr dt)) (4 / (dt : ℝ) ^ 2) := by
    have a := near_toDouble ((near_self 4).div (near_sqr hq (near_self dt) hdtR.ne'))
    push_cast at a
    exact a.mono (by linarith)
  have hwle : wS ^ 2 ≤ w0 ^ 2 := by
    apply pow_le_pow_left₀ hwS.le
    rw [ewS, ew0, ← et]
    exact mul_le_mul_of_nonneg_left htan (by positivity)
  have hcl := coeffs_close (f := f) (D := d0) (by positivity) (by positivity) (by positivity) (by positivity) hwle (lm.sqr omS) nS nb nc nd rfl ed0 k0 k1 k2 k3 k4
  have hw0t : w0 = 2 / dt * t := by rw [ew0, ← et]
  have hd0t : d0 = 4 / dt ^ 2 * (1 + 2 * ζ' * t + t ^ 2) := by
    rw [ed0, hw0t]
    field_simp
    ring
  have hc0 : (0 : ℝ) < 4 / dt ^ 2 := by positivity
  have hB : (4 * w0 ^ 2 + 2 * (2 * ζ' * w0 * (2 / dt))) / d0 = 4 * (t ^ 2 + ζ' * t) / (1 + 2 * ζ' * t + t ^ 2) := by
    rw [hd0t, hw0t]
    have : 1 + 2 * ζ' * t + t ^ 2 ≠ 0 := by positivity
    field_simp
    ring
  have hcl2 := hcl.2
  rw [hB] at hcl2
  refine ⟨_, f, ?_, hf, ht0, hζ', hcl2, ?_, ?_⟩
  · unfold tiltFilterF
    simp only [if_neg hper0.ne', if_neg hdt.ne', hO1, hO2, hdq, if_neg hcl.1]
  · apply mul_left_cancel₀ hc0.ne'
    rw [hd0t, hw0t] at k3
    linear_combination k3 + (0 : ℝ) * k4
  · apply mul_left_cancel₀ hc0.ne'
    rw [hd0t, hw0t] at k4
    linear_combination k4

/-- **C131.** The filtered record in double precision differs from the exact one, in every sample, by at most a bound that does not depend on the length
of the record: rounding errors do not accumulate.  `t` and `ζ` are the tangent of half the phase per sample and the damping of the platform. -/
theorem C131_tilt_error (lm : Libm) (ht : GoodTan lm.tan) (hs : GoodSqrt lm.sqrt) (hq : GoodSqr lm.sqr) (per dt damp : ℚ) (hdt : 0 < dt)
    (hper : 4 * dt ≤ per) (hper2 : per ≤ 5000) (hdamp : 0 ≤ damp) (hdamp1 : damp ≤ 1) (t ζ s : ℝ) (et : t = tan (π * dt / per))
    (eζ : ζ = if damp = 0 then √2 / 2 else (damp : ℝ)) (es : s = 2 * ζ * t / (1 + 2 * ζ * t + t ^ 2)) (hsmall : 26250 / 2 ^ 52 ≤ s ^ 2)
    (x : List ℚ) (M : ℝ) (hM : ∀ q ∈ x, |(q : ℝ)| ≤ M) :
    ∃ g f, tiltFilterF lm per dt damp = .ok (some g) ∧ tiltFilter per dt damp = .ok (some f) ∧
      List.Forall₂ (fun (u : ℚ) (v : ℝ) => |(u : ℝ) - v| ≤ 26250 / 2 ^ 52 / s ^ 4 * (4 * (t ^ 2 + ζ * t) / (1 + 2 * ζ * t + t ^ 2)) * M)
        (lfilter2F g x) (lfilter2 f (x.map fun q : ℚ => (q : ℝ))) := by
  obtain ⟨g, f, hg, hf, ht0, hζ0, hcl, k1, k2⟩ := filter_close lm ht hs hq per dt damp hdt hper hper2 hdamp t ζ et eζ
  refine ⟨g, f, hg, hf, ?_⟩
  have hζ1 : ζ ≤ 1 := by
    rw [eζ]
    split
    · have : √2 ≤ 2 := by rw [Real.sqrt_le_left (by norm_num)]; norm_num
      linarith
    · exact_mod_cast hdamp1
  obtain ⟨D, hD⟩ : ∃ D, D = 1 + 2 * ζ * t + t ^ 2 := ⟨_, rfl⟩
  rw [← hD] at hcl k1 k2 es ⊢
  have hζt : 0 < ζ * t := by positivity
  have hD0 : 0 < D := by rw [hD]; positivity
  have ca1 : f.a1 = 2 * (t ^ 2 - 1) / D := by rw [← k1]; field_simp
  have ca2 : f.a2 = (1 + t ^ 2 - 2 * ζ * t) / D := by rw [← k2]; field_simp
  have hs0 : 0 < s := by rw [es]; positivity
  have hs2 : f.a2 = 1 - 2 * s := by
    rw [ca2, es]
    field_simp
    rw [hD]; ring
  have hdisc : f.a1 ^ 2 ≤ 4 * f.a2 := by
    rw [ca1, ca2, div_pow, mul_div_assoc', div_le_div_iff₀ (by positivity) hD0]
    have hζ2 : ζ ^ 2 ≤ 1 := by nlinarith
    have hq4 : (2 * (t ^ 2 - 1)) ^ 2 ≤ 4 * (1 + t ^ 2 - 2 * ζ * t) * D := by
      rw [hD]
      have : t ^ 2 * ζ ^ 2 ≤ t ^ 2 := by nlinarith [sq_nonneg t]
      nlinarith
    calc _ ≤ 4 * (1 + t ^ 2 - 2 * ζ * t) * D * D := mul_le_mul_of_nonneg_right hq4 hD0.le
      _ = _ := by ring
  have ha2 : 0 ≤ f.a2 := by nlinarith [sq_nonneg f.a1]
  obtain ⟨p, q, hpq, hpq', hp, hqn⟩ := complex_roots f.a1 f.a2 hdisc
  have hr : √f.a2 ≤ 1 - s := by
    rw [Real.sqrt_le_left (by linarith), hs2]
    nlinarith [sq_nonneg s]
  have hGle : 1 / (1 - ‖q‖) / (1 - ‖p‖) ≤ 1 / s ^ 2 := by
    rw [hp, hqn, div_div]
    apply one_div_le_one_div_of_le (by positivity)
    nlinarith
  have hs2p : 0 < s ^ 2 := by positivity
  cases x with
  | nil => exact .nil
  | cons x0 xs =>
    have hM0 : 0 ≤ M := (abs_nonneg _).trans (hM x0 (by simp))
    generalize x0 :: xs = x at hM
    have hMs : ∀ n, |((x.getD n 0 : ℚ) : ℝ)| ≤ M := by
      intro n
      by_cases hn : n < x.length
      · rw [List.getD_eq_getElem _ _ hn]; exact hM _ (List.getElem_mem _)
      · rw [List.getD_eq_default _ _ (by omega)]; simpa using hM0
    have hfe := filter_error hcl p q hpq hpq' (by rw [hp]; linarith) (by rw [hqn]; linarith) (1 / s ^ 2) hGle
      (by
        rw [mul_one_div, div_le_one hs2p]
        refine le_trans (le_of_eq ?_) hsmall
        norm_num) (fun i => x.getD i 0) M hMs
    have e1 : lfilter2F g x = samples (outF g fun i => x.getD i 0) x.length := by
      rw [← lfilter2F_samples, samples_list]
    have e2 : lfilter2 f (x.map fun q : ℚ => (q : ℝ)) = samples (answer f fun i => ((x.getD i 0 : ℚ) : ℝ)) x.length := by
      rw [← lfilter2_samples f _ _ (answer_answers f _)]
      congr 1
      have := congrArg (List.map fun q : ℚ => (q : ℝ)) (samples_list x 0)
      rw [← this]
      simp [samples]
    rw [e1, e2]
    apply forall₂_samples
    intro n
    refine (hfe n).trans (le_of_eq ?_)
    field_simp
    ring

/-- **C131.** In particular, for platforms of between 4 and 300 samples a period that are damped at least half critically, the error stays below one part in
20000 of the largest drive, however long the record. -/
theorem C131_small_error (lm : Libm) (ht : GoodTan lm.tan) (hs : GoodSqrt lm.sqrt) (hq : GoodSqr lm.sqr) (per dt damp : ℚ) (hdt : 0 < dt)
    (hper : 4 * dt ≤ per) (hper1 : per ≤ 300 * dt) (hper2 : per ≤ 5000) (hdamp : damp = 0 ∨ 1 / 2 ≤ damp) (hdamp1 : damp ≤ 1)
    (x : List ℚ) (M : ℝ) (hM : ∀ q ∈ x, |(q : ℝ)| ≤ M) :
    ∃ g f, tiltFilterF lm per dt damp = .ok (some g) ∧ tiltFilter per dt damp = .ok (some f) ∧
      List.Forall₂ (fun (u : ℚ) (v : ℝ) => |(u : ℝ) - v| ≤ M / 20000) (lfilter2F g x) (lfilter2 f (x.map fun q : ℚ => (q : ℝ))) := by
  have hdtR : (0 : ℝ) < dt := by exact_mod_cast hdt
  have hperR : 4 * (dt : ℝ) ≤ per := by exact_mod_cast hper
  have hper1R : (per : ℝ) ≤ 300 * dt := by exact_mod_cast hper1
  have hper0R : (0 : ℝ) < per := by linarith
  have hπ := Real.pi_pos
  have hπ3 := Real.pi_gt_d2
  obtain ⟨t, et⟩ : ∃ t, t = tan (π * dt / per) := ⟨_, rfl⟩
  obtain ⟨ζ, eζ⟩ : ∃ ζ, ζ = if damp = 0 then √2 / 2 else (damp : ℝ) := ⟨_, rfl⟩
  have hθ0 : 0 < π * dt / per := by positivity
  have hθ1 : π * dt / per ≤ π / 4 := by
    rw [div_le_div_iff₀ hper0R (by norm_num)]
    nlinarith
  have hθ2 : 104 / 10000 ≤ π * dt / per := by
    rw [le_div_iff₀ hper0R]
    nlinarith
  have htlo : 104 / 10000 ≤ t := by
    rw [et]
    exact hθ2.trans (Real.lt_tan hθ0 (by linarith)).le
  have hthi : t ≤ 1 := by
    rw [et, ← Real.tan_pi_div_four]
    rcases hθ1.lt_or_eq with h | h
    · exact (Real.tan_lt_tan_of_lt_of_lt_pi_div_two (by linarith) (by linarith) h).le
    · rw [h]
  have hζlo : 1 / 2 ≤ ζ := by
    rw [eζ]
    split
    · have : 1 ≤ √2 := by rw [Real.one_le_sqrt]; norm_num
      linarith
    · rcases hdamp with h | h
      · contradiction
      · have : ((1 / 2 : ℚ) : ℝ) ≤ damp := by exact_mod_cast h
        push_cast at this
        linarith
  have ht0 : 0 < t := by linarith
  have hζ0 : 0 < ζ := by linarith
  obtain ⟨s, es⟩ : ∃ s, s = 2 * ζ * t / (1 + 2 * ζ * t + t ^ 2) := ⟨_, rfl⟩
  have hD0 : 0 < 1 + 2 * ζ * t + t ^ 2 := by positivity
  have hζt : 1 / 2 * t ≤ ζ * t := mul_le_mul_of_nonneg_right hζlo ht0.le
  have hslo : 1 / 98 ≤ s := by
    rw [es, div_le_div_iff₀ (by norm_num) hD0]
    nlinarith
  have hs0 : 0 < s := by linarith
  obtain ⟨g, f, hg, hf, h⟩ := C131_tilt_error lm ht hs hq per dt damp hdt hper hper2 (by rcases hdamp with h | h <;> linarith) hdamp1 t ζ s et eζ es
    (by
      have : (1 / 98 : ℝ) ^ 2 ≤ s ^ 2 := pow_le_pow_left₀ (by norm_num) hslo 2
      refine le_trans ?_ this
      norm_num) x M hM
  refine ⟨g, f, hg, hf, ?_⟩
  cases x with
  | nil => exact .nil
  | cons x0 xs =>
    have hM0 : 0 ≤ M := (abs_nonneg _).trans (hM x0 (by simp))
    refine h.imp ?_
    intro u v huv
    refine huv.trans ?_
    rw [div_eq_inv_mul M]
    refine mul_le_mul_of_nonneg_right ?_ hM0
    have hB : 4 * (t ^ 2 + ζ * t) / (1 + 2 * ζ * t + t ^ 2) ≤ 6 * s := by
      rw [es, mul_div_assoc']
      refine div_le_div_of_nonneg_right ?_ hD0.le
      nlinarith
    have hs3 : (1 / 98 : ℝ) ^ 3 ≤ s ^ 3 := pow_le_pow_left₀ (by norm_num) hslo 3
    calc 26250 / 2 ^ 52 / s ^ 4 * (4 * (t ^ 2 + ζ * t) / (1 + 2 * ζ * t + t ^ 2)) ≤ 26250 / 2 ^ 52 / s ^ 4 * (6 * s) :=
          mul_le_mul_of_nonneg_left hB (by positivity)
      _ = 157500 / 2 ^ 52 / s ^ 3 := by field_simp; norm_num
      _ ≤ 20000⁻¹ := by
        rw [div_le_iff₀ (by positivity)]
        refine le_trans ?_ (mul_le_mul_of_nonneg_left hs3 (by norm_num))
        norm_num

private theorem ite_ok_ne {α : Type} {c : Prop} [Decidable c] {a b : α} {e : PyErr} : (if c then Except.ok a else Except.ok b) ≠ Except.error e := by
  split <;> simp

/-- **C131.** The filter in double precision raises exactly when the exact one does. -/
theorem C131_same_errors (lm : Libm) (per dt damp : ℚ) (e : PyErr) :
    tiltFilterF lm per dt damp = .error e ↔ tiltFilter per dt damp = .error e := by
  unfold tiltFilterF tiltFilter
  simp only [Rat.cast_eq_zero]
  by_cases h1 : per = 0
  · simp [h1]
  by_cases h2 : dt = 0
  · simp [h1, h2]
  simp only [if_neg h1, if_neg h2]
  constructor
  · intro h
    exact absurd h ite_ok_ne
  · intro h; cases h

/-! ### Hypotheses met -/

/-- There are such libraries. -/
theorem goodLibm_exists : ∃ lm : Libm, GoodTan lm.tan ∧ GoodSqrt lm.sqrt ∧ GoodSqr lm.sqr := by
  have key : ∀ (x : ℝ) (e : ℝ), 0 < e → ∃ r : ℚ, |(r : ℝ) - x| ≤ |x| / e := by
    intro x e he
    by_cases hx : x = 0
    · exact ⟨0, by simp [hx]⟩
    · have hp : 0 < |x| / e := by have := abs_pos.2 hx; positivity
      obtain ⟨r, h1, h2⟩ := exists_rat_btwn (show x < x + |x| / e by linarith)
      exact ⟨r, by rw [abs_le]; constructor <;> linarith⟩
  choose tn htn using fun q : ℚ => key (tan (q : ℝ)) (2 ^ 51) (by positivity)
  choose sq hsq using fun q : ℚ => key (√(q : ℝ)) (2 ^ 52) (by positivity)
  refine ⟨⟨tn, sq, fun q => q ^ 2⟩, fun q _ => htn q, fun q _ => ?_, fun q => ?_⟩
  · have := hsq q
    rwa [abs_of_nonneg (Real.sqrt_nonneg _)] at this
  · push_cast
    rw [sub_self, abs_zero]
    positivity

/-- A platform of four minutes, sampled every second, with the default damping. -/
example : ∃ lm g f, tiltFilterF lm 240 1 0 = .ok (some g) ∧ tiltFilter (240 : ℚ) (1 : ℚ) (0 : ℚ) = .ok (some f) := by
  obtain ⟨lm, h1, h2, h3⟩ := goodLibm_exists
  obtain ⟨g, f, hg, hf, -⟩ := C131_small_error lm h1 h2 h3 240 1 0 (by norm_num) (by norm_num) (by norm_num) (by norm_num) (.inl rfl) (by norm_num)
    (List.replicate 86400 (1 / 32)) (1 / 32) (by intro q hq; rw [List.eq_of_mem_replicate hq]; norm_num)
  exact ⟨lm, g, f, hg, hf⟩

end Shipgrav
