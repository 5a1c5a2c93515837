import Verif.Lemmas.Tilt
import Verif.Lemmas.CrossCoupling

/-! Property theorems C63–C67 and C92, C93: platform tilt. -/

namespace Shipgrav
open Spec Real

/-- What is known about the filter wherever there is one. -/
theorem tiltFilter_any (per dt damp : ℝ) (hdt : 0 < dt) (cS : cos (dt / (2 * √(6371100 / 9.8))) ≠ 0) (hper : 2 * dt < per) (hdamp : 0 ≤ damp) :
    ∃ f, tiltFilter per dt damp = .ok (some f) ∧ ∃ w0 wS ζ d0 : ℝ, 0 < w0 ∧ 0 < ζ ∧ 0 < d0 ∧
      w0 = 2 / dt * tan (π * dt / per) ∧ wS = 2 / dt * tan (dt / (2 * √(6371100 / 9.8))) ∧
      ζ = (if damp = 0 then √2 / 2 else damp) ∧ d0 = 2 * ζ * w0 * (2 / dt) + 4 / dt ^ 2 + w0 ^ 2 ∧
      f.b0 * d0 = (wS ^ 2 - w0 ^ 2) - 2 * ζ * w0 * (2 / dt) ∧ f.b1 * d0 = 2 * (wS ^ 2 - w0 ^ 2) ∧
      f.b2 * d0 = (wS ^ 2 - w0 ^ 2) + 2 * ζ * w0 * (2 / dt) ∧ f.a1 * d0 = 2 * (w0 ^ 2 - 4 / dt ^ 2) ∧
      f.a2 * d0 = 4 / dt ^ 2 + w0 ^ 2 - 2 * ζ * w0 * (2 / dt) := by
  have hp := pi_pos
  have hper0 : 0 < per := by linarith
  have hr : (800 : ℝ) ≤ √(6371100 / 9.8) := by
    apply Real.le_sqrt_of_sq_le; norm_num
  have hr0 : 0 < √(6371100 / 9.8) := by linarith
  have e0 : 2 * π / per * dt / 2 = π * dt / per := by field_simp
  have eS : 1 / √(6371100 / 9.8) * dt / 2 = dt / (2 * √(6371100 / 9.8)) := by field_simp
  have l0 : 0 < π * dt / per := by positivity
  have u0 : π * dt / per < π / 2 := by
    rw [div_lt_iff₀ hper0]; nlinarith
  have c0 : cos (π * dt / per) ≠ 0 := (cos_pos_of_mem_Ioo ⟨by linarith, u0⟩).ne'
  obtain ⟨ζ, hζ⟩ : ∃ ζ : ℝ, ζ = (if damp = 0 then √2 / 2 else damp) := ⟨_, rfl⟩
  have hζ0 : 0 < ζ := by
    rw [hζ]; split
    · positivity
    · rename_i h; exact lt_of_le_of_ne hdamp (Ne.symm h)
  obtain ⟨w0, hw0⟩ : ∃ w : ℝ, w = 2 / dt * tan (π * dt / per) := ⟨_, rfl⟩
  obtain ⟨wS, hwS⟩ : ∃ w : ℝ, w = 2 / dt * tan (dt / (2 * √(6371100 / 9.8))) := ⟨_, rfl⟩
  have hw0p : 0 < w0 := by rw [hw0]; exact mul_pos (by positivity) (tan_pos_of_pos_of_lt_pi_div_two l0 u0)
  obtain ⟨d0, hd0⟩ : ∃ d : ℝ, d = 2 * ζ * w0 * (2 / dt) + 4 / dt ^ 2 + w0 ^ 2 := ⟨_, rfl⟩
  have hd0p : 0 < d0 := by rw [hd0]; positivity
  refine ⟨⟨((wS ^ 2 - w0 ^ 2) - 2 * ζ * w0 * (2 / dt)) / d0, 2 * (wS ^ 2 - w0 ^ 2) / d0, ((wS ^ 2 - w0 ^ 2) + 2 * ζ * w0 * (2 / dt)) / d0,
    2 * (w0 ^ 2 - 4 / dt ^ 2) / d0, (4 / dt ^ 2 + w0 ^ 2 - 2 * ζ * w0 * (2 / dt)) / d0⟩, ?_, w0, wS, ζ, d0, hw0p, hζ0, hd0p, hw0, hwS, hζ, hd0,
    div_mul_cancel₀ _ hd0p.ne', div_mul_cancel₀ _ hd0p.ne', div_mul_cancel₀ _ hd0p.ne', div_mul_cancel₀ _ hd0p.ne', div_mul_cancel₀ _ hd0p.ne'⟩
  unfold tiltFilter
  simp only [if_neg hper0.ne', if_neg hdt.ne', e0, eS, divR, if_neg c0, if_neg cS, bind, Option.bind]
  have q0 : (2 / dt * (sin (π * dt / per) / cos (π * dt / per))) = w0 := by rw [hw0, tan_eq_sin_div_cos]
  have qS : (2 / dt * (sin (dt / (2 * √(6371100 / 9.8))) / cos (dt / (2 * √(6371100 / 9.8))))) = wS := by rw [hwS, tan_eq_sin_div_cos]
  have qz : (if damp = 0 then √2 / 2 else damp) = ζ := hζ.symm
  simp only [q0, qS]
  have qd : 2 * ζ * w0 * (2 / dt) + 4 / dt ^ 2 + w0 ^ 2 = d0 := hd0.symm
  have hdec : ∀ (i : Decidable (damp = 0)), (@ite ℝ (damp = 0) i (√2 / 2) damp) = ζ := by
    intro i; rw [← qz]; congr
  simp only [hdec, qd, if_neg hd0p.ne']

/-- Sampled more often than every 2000 s. -/
theorem schuler_ok (dt : ℝ) (hdt : 0 < dt) (hdt2 : dt ≤ 2000) : 0 < dt / (2 * √(6371100 / 9.8)) ∧ dt / (2 * √(6371100 / 9.8)) < π / 2 := by
  have hr : (800 : ℝ) ≤ √(6371100 / 9.8) := by
    apply Real.le_sqrt_of_sq_le; norm_num
  refine ⟨by positivity, ?_⟩
  rw [div_lt_iff₀ (by positivity)]
  nlinarith [pi_gt_three]

theorem schuler_cos (dt : ℝ) (hdt : 0 < dt) (hdt2 : dt ≤ 2000) : cos (dt / (2 * √(6371100 / 9.8))) ≠ 0 := by
  obtain ⟨h1, h2⟩ := schuler_ok dt hdt hdt2
  exact (cos_pos_of_mem_Ioo ⟨by linarith [pi_pos], h2⟩).ne'

/-- What is known about the filter for ordinary parameters. -/
theorem tiltFilter_ok (per dt damp : ℝ) (hdt : 0 < dt) (hdt2 : dt ≤ 2000) (hper : 2 * dt < per) (hdamp : 0 ≤ damp) :
    ∃ f, tiltFilter per dt damp = .ok (some f) ∧ ∃ w0 wS ζ d0 : ℝ, 0 < w0 ∧ 0 < wS ∧ 0 < ζ ∧ 0 < d0 ∧
      w0 = 2 / dt * tan (π * dt / per) ∧ wS = 2 / dt * tan (dt / (2 * √(6371100 / 9.8))) ∧
      ζ = (if damp = 0 then √2 / 2 else damp) ∧ d0 = 2 * ζ * w0 * (2 / dt) + 4 / dt ^ 2 + w0 ^ 2 ∧
      f.b0 * d0 = (wS ^ 2 - w0 ^ 2) - 2 * ζ * w0 * (2 / dt) ∧ f.b1 * d0 = 2 * (wS ^ 2 - w0 ^ 2) ∧
      f.b2 * d0 = (wS ^ 2 - w0 ^ 2) + 2 * ζ * w0 * (2 / dt) ∧ f.a1 * d0 = 2 * (w0 ^ 2 - 4 / dt ^ 2) ∧
      f.a2 * d0 = 4 / dt ^ 2 + w0 ^ 2 - 2 * ζ * w0 * (2 / dt) := by
  obtain ⟨h1, h2⟩ := schuler_ok dt hdt hdt2
  obtain ⟨f, hf, w0, wS, ζ, d0, hw0, hζ, hd0, ew0, ewS, h⟩ := tiltFilter_any per dt damp hdt (schuler_cos dt hdt hdt2) hper hdamp
  exact ⟨f, hf, w0, wS, ζ, d0, hw0, by rw [ewS]; exact mul_pos (by positivity) (tan_pos_of_pos_of_lt_pi_div_two h1 h2), hζ, hd0, ew0, ewS, h⟩

/-- There is no filter where the tangent has no value. -/
theorem tiltFilter_cos (per dt damp : ℝ) (f : Biquad) (h : tiltFilter per dt damp = .ok (some f)) : cos (dt / (2 * √(6371100 / 9.8))) ≠ 0 := by
  intro hc
  have eS : 1 / √(6371100 / 9.8) * dt / 2 = dt / (2 * √(6371100 / 9.8)) := by
    have : 0 < √(6371100 / 9.8) := Real.sqrt_pos.mpr (by norm_num)
    field_simp
  unfold tiltFilter at h
  simp only [eS, divR, if_pos hc, bind, Option.bind] at h
  split at h
  · simp at h
  · split at h
    · simp at h
    · split at h <;> simp at h

/-- **C65.** For a sample interval at which the Schuler frequency can be prewarped (any up to 2533 s), a period of more than two samples and
non-negative damping (0 stands for the default), the filter is the bilinear transform of the platform response with prewarped frequencies; its poles lie inside the unit circle and its static
gain is `omS²/om0² - 1`. -/
theorem C65_filter (per dt damp : ℝ) (hdt : 0 < dt) (hS : cos (dt / (2 * √(6371100 / 9.8))) ≠ 0) (hper : 2 * dt < per) (hdamp : 0 ≤ damp) :
    ∃ f, tiltFilter per dt damp = .ok (some f) ∧
      (∀ z : ℂ, z ≠ 0 → z ≠ -1 →
        (f.b0 + f.b1 / z + f.b2 / z ^ 2) / (1 + f.a1 / z + f.a2 / z ^ 2) =
          platformResponse (2 / dt * tan (π * dt / per)) (2 / dt * tan (dt / (2 * √(6371100 / 9.8)))) (if damp = 0 then √2 / 2 else damp)
            (2 / dt * ((z - 1) / (z + 1)))) ∧
      (∀ z : ℂ, z ^ 2 + f.a1 * z + f.a2 = 0 → ‖z‖ < 1) ∧
      (f.b0 + f.b1 + f.b2) / (1 + f.a1 + f.a2) =
        (2 / dt * tan (dt / (2 * √(6371100 / 9.8)))) ^ 2 / (2 / dt * tan (π * dt / per)) ^ 2 - 1 := by
  obtain ⟨f, hf, w0, wS, ζ, d0, hw0, hζ, hd0, ew0, ewS, eζ, ed0, e0, e1, e2, e3, e4⟩ := tiltFilter_any per dt damp hdt hS hper hdamp
  refine ⟨f, hf, ?_, ?_, ?_⟩
  · intro z hz hz1
    rw [← ew0, ← ewS, ← eζ]
    have hz1' : z + 1 ≠ 0 := fun h => hz1 (eq_neg_of_add_eq_zero_left h)
    have hd0c : (d0 : ℂ) ≠ 0 := by exact_mod_cast hd0.ne'
    have hdtc : (dt : ℂ) ≠ 0 := by exact_mod_cast hdt.ne'
    have c0 : (f.b0 : ℂ) * d0 = (wS ^ 2 - w0 ^ 2) - 2 * ζ * w0 * (2 / dt) := by exact_mod_cast congrArg ((↑) : ℝ → ℂ) e0
    have c1 : (f.b1 : ℂ) * d0 = 2 * (wS ^ 2 - w0 ^ 2) := by exact_mod_cast congrArg ((↑) : ℝ → ℂ) e1
    have c2 : (f.b2 : ℂ) * d0 = (wS ^ 2 - w0 ^ 2) + 2 * ζ * w0 * (2 / dt) := by exact_mod_cast congrArg ((↑) : ℝ → ℂ) e2
    have c3 : (f.a1 : ℂ) * d0 = 2 * (w0 ^ 2 - 4 / dt ^ 2) := by exact_mod_cast congrArg ((↑) : ℝ → ℂ) e3
    have c4 : (f.a2 : ℂ) * d0 = 4 / dt ^ 2 + w0 ^ 2 - 2 * ζ * w0 * (2 / dt) := by exact_mod_cast congrArg ((↑) : ℝ → ℂ) e4
    have c5 : (d0 : ℂ) = 2 * ζ * w0 * (2 / dt) + 4 / dt ^ 2 + w0 ^ 2 := by exact_mod_cast congrArg ((↑) : ℝ → ℂ) ed0
    have hk : (z + 1) ^ 2 / (d0 * z ^ 2) ≠ 0 := div_ne_zero (pow_ne_zero 2 hz1') (mul_ne_zero hd0c (pow_ne_zero 2 hz))
    have hn : (f.b0 + f.b1 / z + f.b2 / z ^ 2 : ℂ) = (z + 1) ^ 2 / (d0 * z ^ 2) *
        (wS ^ 2 - w0 ^ 2 - 2 * ζ * w0 * (2 / dt * ((z - 1) / (z + 1)))) := by
      have b0 : (f.b0 : ℂ) = ((wS ^ 2 - w0 ^ 2) - 2 * ζ * w0 * (2 / dt)) / d0 := by rw [← c0]; field_simp
      have b1 : (f.b1 : ℂ) = (2 * (wS ^ 2 - w0 ^ 2)) / d0 := by rw [← c1]; field_simp
      have b2 : (f.b2 : ℂ) = ((wS ^ 2 - w0 ^ 2) + 2 * ζ * w0 * (2 / dt)) / d0 := by rw [← c2]; field_simp
      rw [b0, b1, b2]
      field_simp
      ring
    have hd : (1 + f.a1 / z + f.a2 / z ^ 2 : ℂ) = (z + 1) ^ 2 / (d0 * z ^ 2) *
        ((2 / dt * ((z - 1) / (z + 1))) ^ 2 + 2 * ζ * w0 * (2 / dt * ((z - 1) / (z + 1))) + w0 ^ 2) := by
      have a1 : (f.a1 : ℂ) = (2 * (w0 ^ 2 - 4 / dt ^ 2)) / d0 := by rw [← c3]; field_simp
      have a2 : (f.a2 : ℂ) = (4 / dt ^ 2 + w0 ^ 2 - 2 * ζ * w0 * (2 / dt)) / d0 := by rw [← c4]; field_simp
      have one : (1 : ℂ) = (2 * ζ * w0 * (2 / dt) + 4 / dt ^ 2 + w0 ^ 2) / d0 := by rw [← c5]; field_simp
      rw [a1, a2]
      nth_rewrite 1 [one]
      field_simp
      ring
    unfold platformResponse
    rw [hn, hd, mul_div_mul_left _ _ hk]
  · intro z hz
    apply roots_inside (2 * ζ * w0 * (2 / dt)) (4 / dt ^ 2) (w0 ^ 2) (by positivity) (by positivity) (by positivity)
    have c3 : (f.a1 : ℂ) * d0 = 2 * (w0 ^ 2 - 4 / dt ^ 2) := by exact_mod_cast congrArg ((↑) : ℝ → ℂ) e3
    have c4 : (f.a2 : ℂ) * d0 = 4 / dt ^ 2 + w0 ^ 2 - 2 * ζ * w0 * (2 / dt) := by exact_mod_cast congrArg ((↑) : ℝ → ℂ) e4
    have c5 : (d0 : ℂ) = 2 * ζ * w0 * (2 / dt) + 4 / dt ^ 2 + w0 ^ 2 := by exact_mod_cast congrArg ((↑) : ℝ → ℂ) ed0
    push_cast
    linear_combination (d0 : ℂ) * hz - z * c3 - c4 - z ^ 2 * c5
  · rw [← ew0, ← ewS]
    have hs : (f.b0 + f.b1 + f.b2) * d0 = 4 * (wS ^ 2 - w0 ^ 2) := by linear_combination e0 + e1 + e2
    have hs2 : (1 + f.a1 + f.a2) * d0 = 4 * w0 ^ 2 := by linear_combination e3 + e4 + ed0
    have : (f.b0 + f.b1 + f.b2) / (1 + f.a1 + f.a2) = ((f.b0 + f.b1 + f.b2) * d0) / ((1 + f.a1 + f.a2) * d0) :=
      (mul_div_mul_right _ _ hd0.ne').symm
    rw [this, hs, hs2]
    field_simp

/-- **C65.** Bounded drive gives bounded tilt, for all time; the bound depends on the filter only. -/
theorem C65_bounded (per dt damp : ℝ) (hdt : 0 < dt) (hper : 2 * dt < per) (hdamp : 0 ≤ damp) (f : Biquad)
    (hf : tiltFilter per dt damp = .ok (some f)) :
    ∃ K, ∀ (M : ℝ) (x : ℕ → ℝ) (n : ℕ), (∀ i, |x i| ≤ M) → ∀ v ∈ lfilter2 f (samples x n), |v| ≤ K * M := by
  obtain ⟨f', hf', _, hpole, _⟩ := C65_filter per dt damp hdt (tiltFilter_cos per dt damp f hf) hper hdamp
  rw [hf] at hf'
  injection hf' with hf'
  injection hf' with hf'
  subst hf'
  obtain ⟨p, q, h1, h2⟩ := quad_splits f.a1 f.a2
  have hr := quad_root _ _ p q h1 h2
  have hp := hpole p hr.1
  have hq := hpole q hr.2
  refine ⟨(|f.b0| + |f.b1| + |f.b2|) / (1 - ‖q‖) / (1 - ‖p‖), fun M x n hx v hv => ?_⟩
  have hans := answer_answers f x
  rw [lfilter2_samples f x _ hans] at hv
  obtain ⟨i, _, rfl⟩ := List.mem_map.mp hv
  have hM : 0 ≤ M := (abs_nonneg _).trans (hx 0)
  have hb : ∀ b i, |b * x i| ≤ |b| * M := fun b i => by rw [abs_mul]; exact mul_le_mul_of_nonneg_left (hx i) (abs_nonneg b)
  have n1 : 0 ≤ |f.b1| * M := mul_nonneg (abs_nonneg _) hM
  have n2 : 0 ≤ |f.b2| * M := mul_nonneg (abs_nonneg _) hM
  have := second_order_bound f.a1 f.a2 p q h1 h2 hp hq
    (fun n => match n with | 0 => f.b0 * x 0 | 1 => f.b0 * x 1 + f.b1 * x 0 | n + 2 => f.b0 * x (n + 2) + f.b1 * x (n + 1) + f.b2 * x n)
    (answer f x) ((|f.b0| + |f.b1| + |f.b2|) * M) ?_ hans.1 hans.2.1 hans.2.2 i
  · refine this.trans (le_of_eq ?_)
    ring
  · intro n
    match n with
    | 0 => simp only; have := hb f.b0 0; linarith
    | 1 => simp only; have := abs_add_le (f.b0 * x 1) (f.b1 * x 0); have := hb f.b0 1; have := hb f.b1 0; linarith
    | n + 2 =>
      simp only
      have := abs_add_three (f.b0 * x (n + 2)) (f.b1 * x (n + 1)) (f.b2 * x n)
      have := hb f.b0 (n + 2); have := hb f.b1 (n + 1); have := hb f.b2 n; linarith

/-- **C65.** A constant drive settles at the static gain. -/
theorem C65_settles (per dt damp : ℝ) (hdt : 0 < dt) (hper : 2 * dt < per) (hdamp : 0 ≤ damp) (f : Biquad)
    (hf : tiltFilter per dt damp = .ok (some f)) (x₀ : ℝ) :
    Filter.Tendsto (fun n => (lfilter2 f (samples (fun _ => x₀) (n + 1))).getD n 0) Filter.atTop
      (nhds (((2 / dt * tan (dt / (2 * √(6371100 / 9.8)))) ^ 2 / (2 / dt * tan (π * dt / per)) ^ 2 - 1) * x₀)) := by
  obtain ⟨f', hf', _, hpole, hgain⟩ := C65_filter per dt damp hdt (tiltFilter_cos per dt damp f hf) hper hdamp
  rw [hf] at hf'
  injection hf' with hf'
  injection hf' with hf'
  subst hf'
  obtain ⟨p, q, h1, h2⟩ := quad_splits f.a1 f.a2
  have hr := quad_root _ _ p q h1 h2
  have hp := hpole p hr.1
  have hq := hpole q hr.2
  have hans := answer_answers f (fun _ => x₀)
  have hden : 1 + f.a1 + f.a2 ≠ 0 := by
    intro h0
    have := hpole 1 (by have := congrArg ((↑) : ℝ → ℂ) h0; push_cast at this; linear_combination this)
    simp at this
  rw [← hgain]
  have hdec := second_order_decay f.a1 f.a2 p q h1 h2 hp hq
    (fun n => answer f (fun _ => x₀) n - (f.b0 + f.b1 + f.b2) / (1 + f.a1 + f.a2) * x₀) (by
      intro n
      rw [hans.2.2 n]
      field_simp
      ring)
  have := hdec.add_const ((f.b0 + f.b1 + f.b2) / (1 + f.a1 + f.a2) * x₀)
  simp only [sub_add_cancel, zero_add] at this
  refine this.congr (fun n => ?_)
  rw [lfilter2_samples f _ _ hans, samples_getD _ _ _ (by omega)]

/-- **C67.** Zero damping means the default `√2/2`, for all periods and intervals. -/
theorem C67_zero_damping (per dt : ℝ) : tiltFilter per dt 0 = tiltFilter per dt (√2 / 2) := by
  have : √2 / 2 ≠ 0 := by positivity
  unfold tiltFilter
  simp only [if_true, if_neg this]

/-- **C67.** The same for `up_vecs` on either axis. -/
theorem C67_up_vecs (dt : ℝ) (g cacc lacc : List (Option ℝ)) (onOff : List ℝ) (cper lper cdamp ldamp : ℝ) :
    upVecs dt g cacc lacc onOff cper 0 lper ldamp = upVecs dt g cacc lacc onOff cper (√2 / 2) lper ldamp ∧
    upVecs dt g cacc lacc onOff cper cdamp lper 0 = upVecs dt g cacc lacc onOff cper cdamp lper (√2 / 2) := by
  unfold upVecs upResult axisTilt
  rw [C67_zero_damping, C67_zero_damping]
  exact ⟨rfl, rfl⟩

theorem upVec_arctan (i : ℕ) (c l : ℝ) : upVec i (arctan c) (arctan l) = upDirection i c l := by
  unfold upVec upDirection matVec
  simp only [sin_arctan, cos_arctan, Nat.even_iff]
  have hc : √(1 + c ^ 2) ≠ 0 := by positivity
  have hl : √(1 + l ^ 2) ≠ 0 := by positivity
  split
  · ext <;> simp <;> field_simp
  · ext <;> simp <;> field_simp

private theorem upDirection_unit (i : ℕ) (c l : ℝ) :
    (upDirection i c l).1 ^ 2 + (upDirection i c l).2.1 ^ 2 + (upDirection i c l).2.2 ^ 2 = 1 ∧ 0 < (upDirection i c l).2.2 := by
  unfold upDirection
  simp only
  have hc : √(1 + c ^ 2) ^ 2 = 1 + c ^ 2 := Real.sq_sqrt (by positivity)
  have hl : √(1 + l ^ 2) ^ 2 = 1 + l ^ 2 := Real.sq_sqrt (by positivity)
  have hc0 : 0 < √(1 + c ^ 2) := by positivity
  have hl0 : 0 < √(1 + l ^ 2) := by positivity
  split
  · refine ⟨?_, by simp only; positivity⟩
    simp only
    field_simp
    rw [hc, hl]; ring
  · refine ⟨?_, by simp only; positivity⟩
    simp only
    field_simp
    rw [hc, hl]; ring

private theorem upResult_vecs (dt : ℝ) (g cacc lacc : List (Option ℝ)) (cper cdamp lper ldamp : ℝ) (l : List Vec)
    (h : upResult dt g cacc lacc cper cdamp lper ldamp = .vecs l) :
    ∃ ct lt, axisTilt cacc g cper dt cdamp = .ok (some ct) ∧ axisTilt lacc g lper dt ldamp = .ok (some lt) ∧
      calcUpVecs (ct.map arctan) (lt.map arctan) = .ok l := by
  unfold upResult at h
  split at h
  · simp at h
  · rename_i ct hct
    split at h
    · simp at h
    · rename_i lt hlt
      split at h
      · rename_i ct' lt'
        split at h
        · simp at h
        · rename_i l' hl'
          injection h with h
          subst h
          exact ⟨_, _, hct, hlt, hl'⟩
      · simp at h

/-- **C63.** Whatever the inputs, every returned column is a unit vector that points up. -/
theorem C63_unit_up (dt : ℝ) (g cacc lacc : List (Option ℝ)) (onOff : List ℝ) (cper cdamp lper ldamp : ℝ) (l : List Vec)
    (h : (upVecs dt g cacc lacc onOff cper cdamp lper ldamp).2 = .vecs l) :
    l.length = cacc.length ∧ ∀ v ∈ l, v.1 ^ 2 + v.2.1 ^ 2 + v.2.2 ^ 2 = 1 ∧ 0 < v.2.2 := by
  unfold upVecs at h
  simp only at h
  split at h
  · simp at h
  · rename_i hlen1
    split at h
    · simp at h
    · rename_i hlen2
      obtain ⟨ct, lt, hct, hlt, hl⟩ := upResult_vecs _ _ _ _ _ _ _ _ _ h
      unfold calcUpVecs at hl
      split at hl
      · simp at hl
      · rename_i hle
        injection hl with hl
        subst hl
        constructor
        · have h1 : ct.length = cacc.length := by
            unfold axisTilt at hct
            split at hct
            · simp at hct
            · split at hct
              · simp at hct
              · rename_i f _ hg
                injection hct with hct
                simp only [bind, Option.bind_eq_some_iff, Option.some.injEq] at hct
                obtain ⟨f', hf', d, hd, rfl⟩ := hct
                have hdl : d.length = (zeroWhere onOff (nanToZero cacc)).length := by
                  have hal : ∀ (l : List (Option ℝ)) d, allFinite l = some d → d.length = l.length := by
                    intro l
                    induction l with
                    | nil => intro d hd; simp [allFinite] at hd; subst hd; rfl
                    | cons a l ih =>
                      intro d hd
                      cases a with
                      | none => simp [allFinite] at hd
                      | some a =>
                        simp only [allFinite, Option.map_eq_some_iff] at hd
                        obtain ⟨e, he, rfl⟩ := hd
                        simp [ih e he]
                  rw [hal _ _ hd, List.length_zipWith]
                  have := not_not.mp hg
                  omega
                have hgo : ∀ (xs : List ℝ) a b, (lfilterGo f' a b xs).length = xs.length := by
                  intro xs
                  induction xs with
                  | nil => intros; rfl
                  | cons x xs ih => intro a b; simp [lfilterGo, ih]
                rw [lfilter2, hgo, hdl]
                have := not_not.mp hlen1
                simp [zeroWhere, nanToZero] at this ⊢
                omega
          simp at hle ⊢
          omega
        · intro v hv
          obtain ⟨⟨⟨a, b⟩, i⟩, hm, rfl⟩ := List.mem_map.mp hv
          have hz : (a, b) ∈ (ct.map arctan).zip (lt.map arctan) := (List.mem_zipIdx' hm).2 ▸ List.getElem_mem _
          obtain ⟨a', _, rfl⟩ := List.mem_map.mp (List.of_mem_zip hz).1
          obtain ⟨b', _, rfl⟩ := List.mem_map.mp (List.of_mem_zip hz).2
          rw [upVec_arctan]
          exact upDirection_unit _ _ _

/-- **C66.** What the caller's acceleration arrays hold afterwards, when the flags fit: missing and flagged samples are 0, all others are
unchanged. -/
theorem C66_arrays_after (dt : ℝ) (g cacc lacc : List (Option ℝ)) (onOff : List ℝ) (cper cdamp lper ldamp : ℝ)
    (h1 : onOff.length = cacc.length) (h2 : onOff.length = lacc.length) :
    (upVecs dt g cacc lacc onOff cper cdamp lper ldamp).1 =
      (List.zipWith (fun o a => some (usedAcc o a)) onOff cacc, List.zipWith (fun o a => some (usedAcc o a)) onOff lacc) := by
  have hz : ∀ acc : List (Option ℝ), zeroWhere onOff (nanToZero acc) = List.zipWith (fun o a => some (usedAcc o a)) onOff acc := by
    intro acc
    unfold zeroWhere nanToZero
    rw [List.zipWith_map_right]
    congr 1
    funext o a
    unfold usedAcc
    split <;> rfl
  unfold upVecs
  have n1 : (nanToZero cacc).length = cacc.length := by simp [nanToZero]
  have n2 : (nanToZero lacc).length = lacc.length := by simp [nanToZero]
  simp only [n1, n2, ← h1, ← h2, ne_eq, not_true, if_false, hz]

/-- **C66.** Calling again with the overwritten arrays changes nothing and gives the same result. -/
theorem C66_again (dt : ℝ) (g cacc lacc : List (Option ℝ)) (onOff : List ℝ) (cper cdamp lper ldamp : ℝ)
    (h1 : onOff.length = cacc.length) (h2 : onOff.length = lacc.length) :
    let r := upVecs dt g cacc lacc onOff cper cdamp lper ldamp
    upVecs dt g r.1.1 r.1.2 onOff cper cdamp lper ldamp = r := by
  intro r
  have ha : r.1 = _ := C66_arrays_after dt g cacc lacc onOff cper cdamp lper ldamp h1 h2
  have hidem : ∀ acc : List (Option ℝ), zeroWhere onOff (nanToZero (zeroWhere onOff (nanToZero acc))) = zeroWhere onOff (nanToZero acc) := by
    intro acc
    unfold zeroWhere nanToZero
    apply List.ext_getElem?
    intro i
    simp only [List.getElem?_zipWith, List.getElem?_map]
    cases onOff[i]? <;> cases acc[i]? <;> simp
    rename_i o a
    by_cases h : 0 < o <;> simp [h]
  have n1 : (nanToZero cacc).length = cacc.length := by simp [nanToZero]
  have n2 : (nanToZero lacc).length = lacc.length := by simp [nanToZero]
  have hr : r = ((zeroWhere onOff (nanToZero cacc), zeroWhere onOff (nanToZero lacc)),
      upResult dt g (zeroWhere onOff (nanToZero cacc)) (zeroWhere onOff (nanToZero lacc)) cper cdamp lper ldamp) := by
    simp only [r, upVecs]
    simp only [n1, n2, ← h1, ← h2, ne_eq, not_true, if_false]
  rw [hr]
  unfold upVecs
  have m1 : (nanToZero (zeroWhere onOff (nanToZero cacc))).length = onOff.length := by simp [nanToZero, zeroWhere, ← h1]
  have m2 : (nanToZero (zeroWhere onOff (nanToZero lacc))).length = onOff.length := by simp [nanToZero, zeroWhere, ← h2]
  simp only [m1, m2, ne_eq, not_true, if_false, hidem]

private theorem allFinite_some (l : List ℝ) : allFinite (l.map some) = some l := by
  induction l with
  | nil => rfl
  | cons a l ih => simp [allFinite, ih]

private theorem zip_samples {α β γ : Type} (f : α → β → γ) (x : ℕ → α) (y : ℕ → β) (n : ℕ) :
    List.zipWith f (samples x n) (samples y n) = samples (fun i => f (x i) (y i)) n := by
  unfold samples
  rw [List.zipWith_map, List.zipWith_self]

private theorem calcUpVecs_samples (yc yl : ℕ → ℝ) (n : ℕ) :
    calcUpVecs ((samples yc n).map arctan) ((samples yl n).map arctan) = .ok (samples (fun i => upDirection i (yc i) (yl i)) n) := by
  unfold calcUpVecs
  simp only [List.length_map, samples_length, lt_irrefl, if_false]
  congr 1
  apply List.ext_getElem
  · simp
  · intro i h1 h2
    simp [samples, upVec_arctan]

/-- The whole call, for arrays of the same length. -/
theorem upVecs_samples (dt : ℝ) (g cacc lacc : ℕ → Option ℝ) (flag : ℕ → ℝ) (cper cdamp lper ldamp : ℝ) (n : ℕ) (fc fl : Biquad)
    (hfc : tiltFilter cper dt cdamp = .ok (some fc)) (hfl : tiltFilter lper dt ldamp = .ok (some fl))
    (hg : ∀ i < n, g i = some 0 → usedAcc (flag i) (cacc i) = 0 ∧ usedAcc (flag i) (lacc i) = 0)
    (yc yl : ℕ → ℝ)
    (hc : Answers fc.b0 fc.b1 fc.b2 fc.a1 fc.a2 (fun i => driveOf (flag i) (cacc i) (g i)) yc)
    (hl : Answers fl.b0 fl.b1 fl.b2 fl.a1 fl.a2 (fun i => driveOf (flag i) (lacc i) (g i)) yl) :
    (upVecs dt (samples g n) (samples cacc n) (samples lacc n) (samples flag n) cper cdamp lper ldamp).2 =
      .vecs (samples (fun i => upDirection i (yc i) (yl i)) n) := by
  have hz : ∀ acc : ℕ → Option ℝ, zeroWhere (samples flag n) (nanToZero (samples acc n)) = samples (fun i => some (usedAcc (flag i) (acc i))) n := by
    intro acc
    have : nanToZero (samples acc n) = samples (fun i => some ((acc i).getD 0)) n := by
      unfold nanToZero samples; rw [List.map_map]; rfl
    rw [this]
    unfold zeroWhere
    rw [zip_samples]
    apply samples_congr
    intro i _
    unfold usedAcc
    split <;> rfl
  have n1 : ∀ acc : ℕ → Option ℝ, (nanToZero (samples acc n)).length = n := by intro acc; simp [nanToZero]
  unfold upVecs
  simp only [n1, samples_length, ne_eq, not_true, if_false, hz]
  have hd : ∀ acc : ℕ → Option ℝ, (∀ i < n, g i = some 0 → usedAcc (flag i) (acc i) = 0) →
      allFinite (List.zipWith driveAt (samples (fun i => some (usedAcc (flag i) (acc i))) n) (samples g n)) =
        some (samples (fun i => driveOf (flag i) (acc i) (g i)) n) := by
    intro acc hacc
    rw [zip_samples, samples_congr _ (fun i => some (driveOf (flag i) (acc i) (g i)))]
    · have : samples (fun i => some (driveOf (flag i) (acc i) (g i))) n = (samples (fun i => driveOf (flag i) (acc i) (g i)) n).map some := by
        unfold samples; rw [List.map_map]; rfl
      rw [this, allFinite_some]
    · intro i hi
      have h0 := hacc i hi
      unfold driveAt driveOf
      cases hgi : g i with
      | none => simp
      | some a =>
        simp only [Option.getD_some]
        by_cases ha : a = 0
        · subst ha
          rw [h0 hgi]; simp
        · rw [if_neg ha]
  unfold upResult axisTilt
  simp only [hfc, hfl, samples_length, not_true, ne_eq, if_false, bind, Option.bind, hd cacc (fun i hi h => (hg i hi h).1),
    hd lacc (fun i hi h => (hg i hi h).2), lfilter2_samples fc _ _ hc, lfilter2_samples fl _ _ hl, calcUpVecs_samples]

/-- **C92.** Column `i` of the result is the upward direction for the tilts at sample `i`, and the tilts answer the accelerations in units of
gravity through the tilt filters.  Missing or flagged accelerations, and missing gravity, count as no drive. -/
theorem C92_up_vectors (dt : ℝ) (g cacc lacc : ℕ → Option ℝ) (flag : ℕ → ℝ) (cper cdamp lper ldamp : ℝ) (n : ℕ) (fc fl : Biquad)
    (hfc : tiltFilter cper dt cdamp = .ok (some fc)) (hfl : tiltFilter lper dt ldamp = .ok (some fl))
    (hg : ∀ i < n, g i ≠ some 0) :
    ∃ yc yl, Answers fc.b0 fc.b1 fc.b2 fc.a1 fc.a2 (fun i => driveOf (flag i) (cacc i) (g i)) yc ∧
      Answers fl.b0 fl.b1 fl.b2 fl.a1 fl.a2 (fun i => driveOf (flag i) (lacc i) (g i)) yl ∧
      (upVecs dt (samples g n) (samples cacc n) (samples lacc n) (samples flag n) cper cdamp lper ldamp).2 =
        .vecs (samples (fun i => upDirection i (yc i) (yl i)) n) :=
  ⟨_, _, answer_answers fc _, answer_answers fl _,
    upVecs_samples dt g cacc lacc flag cper cdamp lper ldamp n fc fl hfc hfl (fun i hi h => absurd h (hg i hi)) _ _
      (answer_answers fc _) (answer_answers fl _)⟩

/-- **C64.** Without acceleration the platform is level, whatever gravity, periods and damping (that give a filter). -/
theorem C64_level (dt : ℝ) (g cacc lacc : ℕ → Option ℝ) (flag : ℕ → ℝ) (cper cdamp lper ldamp : ℝ) (n : ℕ) (fc fl : Biquad)
    (hfc : tiltFilter cper dt cdamp = .ok (some fc)) (hfl : tiltFilter lper dt ldamp = .ok (some fl))
    (hc : ∀ i, cacc i = some 0 ∨ cacc i = none ∨ 0 < flag i) (hl : ∀ i, lacc i = some 0 ∨ lacc i = none ∨ 0 < flag i) :
    (upVecs dt (samples g n) (samples cacc n) (samples lacc n) (samples flag n) cper cdamp lper ldamp).2 =
      .vecs (List.replicate n (0, 0, 1)) := by
  have hu : ∀ acc : ℕ → Option ℝ, (∀ i, acc i = some 0 ∨ acc i = none ∨ 0 < flag i) → ∀ i, usedAcc (flag i) (acc i) = 0 := by
    intro acc h i
    unfold usedAcc
    split
    · rfl
    · rename_i hn
      rcases h i with h | h | h
      · simp [h]
      · simp [h]
      · exact absurd h hn
  have hans : ∀ (f : Biquad) (acc : ℕ → Option ℝ), (∀ i, acc i = some 0 ∨ acc i = none ∨ 0 < flag i) →
      Answers f.b0 f.b1 f.b2 f.a1 f.a2 (fun i => driveOf (flag i) (acc i) (g i)) (fun _ => 0) := by
    intro f acc h
    unfold Answers driveOf
    simp [hu acc h]
  rw [upVecs_samples dt g cacc lacc flag cper cdamp lper ldamp n fc fl hfc hfl (fun i _ _ => ⟨hu cacc hc i, hu lacc hl i⟩) _ _
    (hans fc cacc hc) (hans fl lacc hl)]
  have : (fun i => upDirection i 0 0) = fun _ => ((0, 0, 1) : Vec) := by
    funext i
    unfold upDirection
    simp
  rw [this]
  unfold samples
  rw [List.map_const', List.length_range]

/-- **C93.** The tilt is causal: the first columns do not depend on later samples. -/
theorem C93_causal (dt : ℝ) (g cacc lacc : ℕ → Option ℝ) (flag : ℕ → ℝ) (cper cdamp lper ldamp : ℝ) (m n : ℕ) (hmn : m ≤ n) (fc fl : Biquad)
    (hfc : tiltFilter cper dt cdamp = .ok (some fc)) (hfl : tiltFilter lper dt ldamp = .ok (some fl))
    (hg : ∀ i < n, g i ≠ some 0) :
    ∃ l, (upVecs dt (samples g n) (samples cacc n) (samples lacc n) (samples flag n) cper cdamp lper ldamp).2 = .vecs l ∧
      (upVecs dt (samples g m) (samples cacc m) (samples lacc m) (samples flag m) cper cdamp lper ldamp).2 = .vecs (l.take m) := by
  refine ⟨_, upVecs_samples dt g cacc lacc flag cper cdamp lper ldamp n fc fl hfc hfl (fun i hi h => absurd h (hg i hi)) _ _
      (answer_answers fc _) (answer_answers fl _), ?_⟩
  rw [upVecs_samples dt g cacc lacc flag cper cdamp lper ldamp m fc fl hfc hfl (fun i hi h => absurd h (hg i (by omega))) _ _
      (answer_answers fc _) (answer_answers fl _)]
  unfold samples
  rw [← List.map_take, List.take_range, Nat.min_eq_left hmn]

/-! ## Non-vacuity -/

/-- The filter exists for a 4 minute period, sampled every second, with the default damping. -/
example : ∃ f, tiltFilter 240 1 0 = .ok (some f) :=
  (C65_filter 240 1 0 (by norm_num) (schuler_cos 1 (by norm_num) (by norm_num)) (by norm_num) (le_refl _)).imp fun _ h => h.1

/-- A tilted platform is not level: the direction depends on the order of the rotations. -/
example : upDirection 0 1 1 ≠ upDirection 1 1 1 := by
  unfold upDirection
  intro h
  have h1 := congrArg Prod.fst h
  norm_num at h1

example (x₀ : ℝ) : ∃ f, tiltFilter 240 1 0.7 = .ok (some f) ∧ ∃ K, ∀ (n : ℕ), ∀ v ∈ lfilter2 f (samples (fun _ => x₀) n), |v| ≤ K * |x₀| := by
  obtain ⟨f, hf, -⟩ := C65_filter 240 1 0.7 (by norm_num) (schuler_cos 1 (by norm_num) (by norm_num)) (by norm_num) (by norm_num)
  obtain ⟨K, hK⟩ := C65_bounded 240 1 0.7 (by norm_num) (by norm_num) (by norm_num) f hf
  exact ⟨f, hf, K, fun n => hK |x₀| _ n (fun _ => le_refl _)⟩

end Shipgrav
