import Verif.Props.Tilt

/-! Property theorem C123: the platform in a swell. -/

namespace Shipgrav
open Spec Real

private theorem half_tan (ω : ℝ) (hc : cos (ω / 2) ≠ 0) :
    Complex.exp (ω * Complex.I) ≠ -1 ∧
    (Complex.exp (ω * Complex.I) - 1) / (Complex.exp (ω * Complex.I) + 1) = (tan (ω / 2) : ℂ) * Complex.I := by
  obtain ⟨c, hce⟩ : ∃ c : ℂ, c = ((cos (ω / 2) : ℝ) : ℂ) := ⟨_, rfl⟩
  obtain ⟨s, hse⟩ : ∃ s : ℂ, s = ((sin (ω / 2) : ℝ) : ℂ) := ⟨_, rfl⟩
  have hz : Complex.exp (ω * Complex.I) = (c + s * Complex.I) ^ 2 := by
    rw [hce, hse, Complex.ofReal_cos, Complex.ofReal_sin, ← Complex.exp_mul_I, ← Complex.exp_nat_mul]
    congr 1
    push_cast
    ring
  have h1 : c ^ 2 + s ^ 2 = 1 := by
    rw [hce, hse]
    exact_mod_cast cos_sq_add_sin_sq (ω / 2)
  have hcc : c ≠ 0 := by rw [hce]; exact_mod_cast hc
  have hu : c + s * Complex.I ≠ 0 := by
    intro h0
    rw [h0] at hz
    simp at hz
  have hI : Complex.I ^ 2 = -1 := Complex.I_sq
  have hm : Complex.exp (ω * Complex.I) - 1 = 2 * s * Complex.I * (c + s * Complex.I) := by
    rw [hz]; linear_combination h1 - s ^ 2 * hI
  have hp : Complex.exp (ω * Complex.I) + 1 = 2 * c * (c + s * Complex.I) := by
    rw [hz]; linear_combination -h1 + s ^ 2 * hI
  have hne : Complex.exp (ω * Complex.I) + 1 ≠ 0 := by
    rw [hp]; exact mul_ne_zero (mul_ne_zero two_ne_zero hcc) hu
  refine ⟨fun h => hne (by rw [h]; ring), ?_⟩
  rw [hm, hp, tan_eq_sin_div_cos, Complex.ofReal_div, ← hce, ← hse]
  field_simp

/-- **C123.** In a swell of period `T` (longer than two samples) the tilt of an axis settles to a swing of the same period: its ratio to the
drive is the response of the platform at that period, whatever the phase and the height of the swell. -/
theorem C123_swell (per dt damp : ℝ) (hdt : 0 < dt) (hper : 2 * dt < per) (hdamp : 0 ≤ damp) (f : Biquad)
    (hf : tiltFilter per dt damp = .ok (some f)) (T A θ : ℝ) (hT : 2 * dt < T) :
    let H := platformResponse (2 / dt * tan (π * dt / per)) (2 / dt * tan (dt / (2 * √(6371100 / 9.8)))) (if damp = 0 then √2 / 2 else damp)
      ((2 / dt * tan (π * dt / T) : ℝ) * Complex.I)
    Filter.Tendsto (fun n => (lfilter2 f (samples (fun k => A * cos (2 * π * (k * dt) / T + θ)) (n + 1))).getD n 0 -
      A * ‖H‖ * cos (2 * π * (n * dt) / T + θ + H.arg)) Filter.atTop (nhds 0) := by
  intro H
  obtain ⟨f', hf', hresp, hpole, _⟩ := C65_filter per dt damp hdt (tiltFilter_cos per dt damp f hf) hper hdamp
  rw [hf] at hf'
  injection hf' with hf'
  injection hf' with hf'
  subst hf'
  have hT0 : 0 < T := by linarith
  obtain ⟨ω, hω⟩ : ∃ ω, ω = 2 * π * dt / T := ⟨_, rfl⟩
  have hω2 : ω / 2 = π * dt / T := by rw [hω]; ring
  have hcos : cos (ω / 2) ≠ 0 := by
    rw [hω2]
    refine (cos_pos_of_mem_Ioo ⟨?_, ?_⟩).ne'
    · have : 0 < π * dt / T := by positivity
      linarith [pi_pos]
    · rw [div_lt_div_iff₀ hT0 two_pos]
      nlinarith [pi_pos]
  obtain ⟨z, hz⟩ : ∃ z, z = Complex.exp (ω * Complex.I) := ⟨_, rfl⟩
  have hz0 : z ≠ 0 := hz ▸ Complex.exp_ne_zero _
  have hz1 : ‖z‖ = 1 := by rw [hz, Complex.norm_exp_ofReal_mul_I]
  obtain ⟨hzm, hzt⟩ := half_tan ω hcos
  rw [← hz] at hzm hzt
  have hH : (f.b0 + f.b1 / z + f.b2 / z ^ 2) / (1 + f.a1 / z + f.a2 / z ^ 2) = H := by
    rw [hresp z hz0 hzm, hzt, hω2]
    show _ = platformResponse _ _ _ _
    congr 1
    push_cast
    ring
  have hden : z ^ 2 + f.a1 * z + f.a2 ≠ 0 := by
    intro h0
    have := hpole z h0
    linarith
  have hH2 : H * (z ^ 2 + f.a1 * z + f.a2) = f.b0 * z ^ 2 + f.b1 * z + f.b2 := by
    rw [← hH]
    have h1 : 1 + f.a1 / z + f.a2 / z ^ 2 = (z ^ 2 + f.a1 * z + f.a2) / z ^ 2 := by field_simp
    have h2 : f.b0 + f.b1 / z + f.b2 / z ^ 2 = (f.b0 * z ^ 2 + f.b1 * z + f.b2) / z ^ 2 := by field_simp
    rw [h1, h2, div_div_div_cancel_right₀ (pow_ne_zero 2 hz0), div_mul_cancel₀ _ hden]
  obtain ⟨p, q, h1, h2⟩ := quad_splits f.a1 f.a2
  have hr := quad_root _ _ p q h1 h2
  obtain ⟨x, hxe⟩ : ∃ x : ℕ → ℝ, x = fun k : ℕ => A * cos (2 * π * (k * dt) / T + θ) := ⟨_, rfl⟩
  rw [← hxe]
  have hans := answer_answers f x
  -- the swing as the real part of a complex one
  obtain ⟨E, hE⟩ : ∃ E : ℂ, E = A * Complex.exp (θ * Complex.I) := ⟨_, rfl⟩
  have hx : ∀ n : ℕ, x n = (E * z ^ n).re := by
    intro n
    have : E * z ^ n = (A : ℂ) * Complex.exp (((2 * π * (n * dt) / T + θ : ℝ) : ℂ) * Complex.I) := by
      rw [hE, hz, ← Complex.exp_nat_mul, mul_assoc, ← Complex.exp_add]
      congr 2
      rw [hω]
      push_cast
      ring
    rw [this, Complex.re_ofReal_mul, Complex.exp_ofReal_mul_I_re, hxe]
  have hc : ∀ n : ℕ, A * ‖H‖ * cos (2 * π * (n * dt) / T + θ + H.arg) = (H * (E * z ^ n)).re := by
    intro n
    have : H * (E * z ^ n) = ((A * ‖H‖ : ℝ) : ℂ) * Complex.exp (((2 * π * (n * dt) / T + θ + H.arg : ℝ) : ℂ) * Complex.I) := by
      conv_lhs => rw [← Complex.norm_mul_exp_arg_mul_I H]
      rw [hE, hz, ← Complex.exp_nat_mul, hω]
      rw [show ((2 * π * (n * dt) / T + θ + H.arg : ℝ) : ℂ) * Complex.I =
        (H.arg : ℂ) * Complex.I + (θ * Complex.I + n * (((2 * π * dt / T : ℝ) : ℂ) * Complex.I)) by push_cast; ring,
        Complex.exp_add, Complex.exp_add]
      push_cast
      ring
    rw [this, Complex.re_ofReal_mul, Complex.exp_ofReal_mul_I_re]
  have hdec := second_order_decay f.a1 f.a2 p q h1 h2 (hpole p hr.1) (hpole q hr.2)
    (fun n => answer f x n - (H * (E * z ^ n)).re) (by
      intro n
      rw [hans.2.2 n, hx, hx, hx]
      have key : H * (E * z ^ (n + 2)) = f.b0 * (E * z ^ (n + 2)) + f.b1 * (E * z ^ (n + 1)) + f.b2 * (E * z ^ n) -
          f.a1 * (H * (E * z ^ (n + 1))) - f.a2 * (H * (E * z ^ n)) := by
        linear_combination E * z ^ n * hH2
      rw [key]
      simp only [Complex.add_re, Complex.sub_re, Complex.re_ofReal_mul]
      ring)
  refine hdec.congr (fun n => ?_)
  rw [lfilter2_samples f _ _ hans, samples_getD _ _ _ (by omega), hc]

/-- **C123.** The size of the response at angular frequency `Ω`. -/
theorem C123_size (w0 wS ζ Ω : ℝ) :
    ‖platformResponse w0 wS ζ (Ω * Complex.I)‖ =
      √((wS ^ 2 - w0 ^ 2) ^ 2 + (2 * ζ * w0 * Ω) ^ 2) / √((w0 ^ 2 - Ω ^ 2) ^ 2 + (2 * ζ * w0 * Ω) ^ 2) := by
  unfold platformResponse
  rw [norm_div]
  have hI : Complex.I ^ 2 = -1 := Complex.I_sq
  have e1 : ((wS : ℂ) ^ 2 - w0 ^ 2 - 2 * ζ * w0 * (Ω * Complex.I)) = ((wS ^ 2 - w0 ^ 2 : ℝ) : ℂ) + ((-(2 * ζ * w0 * Ω) : ℝ) : ℂ) * Complex.I := by
    push_cast; ring
  have e2 : (((Ω : ℂ) * Complex.I) ^ 2 + 2 * ζ * w0 * (Ω * Complex.I) + w0 ^ 2) =
      ((w0 ^ 2 - Ω ^ 2 : ℝ) : ℂ) + ((2 * ζ * w0 * Ω : ℝ) : ℂ) * Complex.I := by
    push_cast; linear_combination (Ω : ℂ) ^ 2 * hI
  rw [e1, e2, Complex.norm_add_mul_I, Complex.norm_add_mul_I, neg_sq]

/-- **C123.** Swell far shorter than the period of the platform hardly tilts it: at frequency `Ω` of at least `m ≥ 2` times that of the
platform the tilt is at most `2 (1 + 2 ζ) / m` of the drive (damping `ζ`, platform faster than the earth's pendulum). -/
theorem C123_short (w0 wS ζ Ω m : ℝ) (hw : 0 < w0) (hS : 0 ≤ wS) (hSw : wS ≤ w0) (hζ : 0 ≤ ζ) (hm : 2 ≤ m) (hΩ : m * w0 ≤ Ω) :
    ‖platformResponse w0 wS ζ (Ω * Complex.I)‖ ≤ 2 * (1 + 2 * ζ) / m := by
  rw [C123_size]
  have hm0 : 0 < m := by linarith
  have hΩ0 : 0 < Ω := lt_of_lt_of_le (by positivity) hΩ
  have hΩw : 2 * w0 ≤ Ω := (mul_le_mul_of_nonneg_right hm hw.le).trans hΩ
  -- numerator
  have hn : √((wS ^ 2 - w0 ^ 2) ^ 2 + (2 * ζ * w0 * Ω) ^ 2) ≤ w0 ^ 2 + 2 * ζ * w0 * Ω := by
    rw [sqrt_le_left (by positivity)]
    have h1 : wS ^ 2 ≤ w0 ^ 2 := pow_le_pow_left₀ hS hSw 2
    have h2 : (wS ^ 2 - w0 ^ 2) ^ 2 ≤ (w0 ^ 2) ^ 2 := by
      apply sq_le_sq'
      · nlinarith [sq_nonneg wS]
      · nlinarith [sq_nonneg w0]
    have h3 : 0 ≤ w0 ^ 2 * (2 * ζ * w0 * Ω) := by positivity
    nlinarith
  have hd : Ω ^ 2 / 2 ≤ √((w0 ^ 2 - Ω ^ 2) ^ 2 + (2 * ζ * w0 * Ω) ^ 2) := by
    apply le_sqrt_of_sq_le
    have h1 : w0 ^ 2 ≤ Ω ^ 2 / 4 := by nlinarith
    have h2 : (Ω ^ 2 / 2) ^ 2 ≤ (w0 ^ 2 - Ω ^ 2) ^ 2 := by
      rw [← neg_sq (w0 ^ 2 - Ω ^ 2)]
      exact pow_le_pow_left₀ (by positivity) (by nlinarith [sq_nonneg Ω]) 2
    nlinarith [sq_nonneg (2 * ζ * w0 * Ω)]
  refine (div_le_div₀ (by positivity) hn (by positivity) hd).trans ?_
  rw [div_le_div_iff₀ (by positivity) hm0]
  have h1 : w0 * m ≤ Ω := by linarith
  have h2 : w0 ^ 2 * m ≤ Ω ^ 2 := by nlinarith
  have h3 : 2 * ζ * w0 * Ω * m ≤ 2 * ζ * Ω ^ 2 := by
    have : 2 * ζ * Ω * (w0 * m) ≤ 2 * ζ * Ω * Ω := mul_le_mul_of_nonneg_left h1 (by positivity)
    nlinarith
  nlinarith

/-! ## Non-vacuity -/

/-- A four minute platform sampled every second, and a swell of eight seconds. -/
example : ∃ f, tiltFilter 240 1 0.7071 = .ok (some f) ∧ (2 : ℝ) * 1 < 8 := by
  obtain ⟨f, hf, _⟩ := C65_filter 240 1 0.7071 (by norm_num) (schuler_cos 1 (by norm_num) (by norm_num)) (by norm_num) (by norm_num)
  exact ⟨f, hf, by norm_num⟩

end Shipgrav
