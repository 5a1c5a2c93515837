import Verif.Model.Nav
import Verif.Spec.Nav
import Verif.Lemmas.Conv
import Mathlib.Algebra.Polynomial.Taylor
import Mathlib.Algebra.Polynomial.Derivative
import Mathlib.Tactic.Ring
import Mathlib.Tactic.Linarith
import Mathlib.Tactic.FieldSimp

/-! Properties C17–C21 of `nav.py`. -/

namespace Shipgrav
open Spec

/-- Closed form of the model on sampled sequences. -/
theorem latlon_closed (f g : ℕ → ℝ) (n : ℕ) (hn : 10 < n) (freq : ℝ) :
    latlonToEN (samples g n) (samples f n) freq = .ok
      (samples (fun i => if i < 5 ∨ n ≤ i + 5 then none
        else some (freq * (meridianRadius (rad (f i)) * rad (centralDiff10 f i)))) n,
       samples (fun i => if i < 5 ∨ n ≤ i + 5 then none
        else some (freq * (parallelRadius (rad (f i)) * rad (centralDiff10 g i)))) n) := by
  have hl : ∀ h : ℕ → ℝ, (samples h n).length = n := by intro h; simp [samples]
  unfold latlonToEN
  simp only [hl, ne_eq, not_true_eq_false, if_false, gt_iff_lt, hn, Except.ok.injEq, Prod.mk.injEq]
  have ht : (tay10.length - 1) / 2 = 5 := by simp [tay10]
  constructor
  · apply List.ext_getElem
    · simp [maskEdges, convolveSame, samples]
    · intro i h1 h2
      have hi : i < n := by simpa [samples] using h2
      simp only [maskEdges, convolveSame, ht, hl, samples, List.getElem_map, List.getElem_zipIdx, List.getElem_zipWith,
        List.getElem_range, List.length_zipWith, List.length_map, List.length_range, min_self, zero_add]
      split
      · rfl
      · rename_i hc
        rw [show (List.map f (List.range n)) = samples f n from rfl, conv_interior f n i (by omega) (by omega)]
        congr 1
        unfold meridianRadius rad deg2rad wgsE2 wgsA wgsB
        generalize (6378137.0 : ℝ) = a
        generalize (6356752.3142451 : ℝ) = b
        ring
  · apply List.ext_getElem
    · simp [maskEdges, convolveSame, samples]
    · intro i h1 h2
      have hi : i < n := by simpa [samples] using h2
      simp only [maskEdges, convolveSame, ht, hl, samples, List.getElem_map, List.getElem_zipIdx, List.getElem_zipWith,
        List.getElem_range, List.length_zipWith, List.length_map, List.length_range, min_self, zero_add]
      split
      · rfl
      · rename_i hc
        rw [show (List.map g (List.range n)) = samples g n from rfl, conv_interior g n i (by omega) (by omega)]
        congr 1
        unfold parallelRadius rad deg2rad wgsE2 wgsA wgsB
        generalize (6378137.0 : ℝ) = a
        generalize (6356752.3142451 : ℝ) = b
        ring

private theorem list_eq_samples {α : Type} (l : List α) (d : α) : l = samples (fun i => l.getD i d) l.length := by
  apply List.ext_getElem
  · simp [samples]
  · intro i h1 h2
    simp [samples, h1]

/-! ## C17 -/

/-- C17: inputs of unequal length, or of ten points or fewer, are rejected. -/
theorem C17_rejects (lon lat : List ℝ) (freq : ℝ) (h : lon.length ≠ lat.length ∨ lon.length ≤ 10) :
    latlonToEN lon lat freq = .error .assertionError := by
  unfold latlonToEN
  by_cases h1 : lon.length ≠ lat.length
  · rw [if_pos h1]
  · rw [if_neg h1, if_pos (by omega)]

/-- C17: otherwise both outputs have the input length and are NaN exactly at the first five and last five positions. -/
theorem C17_shape_and_mask (lon lat : List ℝ) (freq : ℝ) (h : lon.length = lat.length) (hn : 10 < lon.length) :
    ∃ vn ve, latlonToEN lon lat freq = .ok (vn, ve) ∧ vn.length = lon.length ∧ ve.length = lon.length ∧
      ∀ i < lon.length, (vn[i]? = some none ↔ i < 5 ∨ lon.length ≤ i + 5) ∧
        (ve[i]? = some none ↔ i < 5 ∨ lon.length ≤ i + 5) := by
  have e1 := list_eq_samples lon 0
  have e2 := list_eq_samples lat 0
  rw [← h] at e2
  generalize lon.length = n at *
  have := latlon_closed (fun i => lat.getD i 0) (fun i => lon.getD i 0) n hn freq
  rw [← e1, ← e2] at this
  refine ⟨_, _, this, by simp [samples], by simp [samples], ?_⟩
  intro i hi
  simp only [samples, List.getElem?_map, List.getElem?_range hi, Option.map_some, Option.some.injEq]
  constructor <;> split <;> rename_i hc <;> simp [hc]

/-! ## C18 -/

/-- The ten-point stencil differentiates polynomials of degree at most ten exactly. -/
theorem C18_stencil_exact (p : Polynomial ℝ) (hp : p.natDegree ≤ 10) (i : ℕ) (hi : 5 ≤ i) :
    centralDiff10 (fun k => p.eval (k : ℝ)) i = p.derivative.eval (i : ℝ) := by
  obtain ⟨m, rfl⟩ : ∃ m, i = m + 5 := ⟨i - 5, by omega⟩
  set q := Polynomial.taylor ((m + 5 : ℕ) : ℝ) p with hq
  have hqd : q.natDegree < 11 := by rw [hq, Polynomial.natDegree_taylor]; omega
  have hev : ∀ h : ℝ, p.eval (((m + 5 : ℕ) : ℝ) + h) = ∑ k ∈ Finset.range 11, q.coeff k * h ^ k := by
    intro h
    rw [← Polynomial.eval_eq_sum_range' hqd, hq, Polynomial.taylor_eval, add_comm]
  have hd : p.derivative.eval ((m + 5 : ℕ) : ℝ) = q.coeff 1 := by rw [hq, Polynomial.taylor_coeff_one]
  have hk : ∀ (k : ℕ) (h : ℝ), ((k : ℕ) : ℝ) = ((m + 5 : ℕ) : ℝ) + h →
      p.eval (k : ℝ) = ∑ k ∈ Finset.range 11, q.coeff k * h ^ k := by
    intro k h e; rw [e]; exact hev h
  unfold centralDiff10
  rw [hd]
  simp only [Nat.add_sub_cancel, show m + 5 - 1 = m + 4 by omega, show m + 5 - 2 = m + 3 by omega,
    show m + 5 - 3 = m + 2 by omega, show m + 5 - 4 = m + 1 by omega]
  rw [hk (m + 5 + 1) 1 (by push_cast; ring), hk (m + 4) (-1) (by push_cast; ring), hk (m + 5 + 2) 2 (by push_cast; ring),
    hk (m + 3) (-2) (by push_cast; ring), hk (m + 5 + 3) 3 (by push_cast; ring), hk (m + 2) (-3) (by push_cast; ring),
    hk (m + 5 + 4) 4 (by push_cast; ring), hk (m + 1) (-4) (by push_cast; ring), hk (m + 5 + 5) 5 (by push_cast; ring),
    hk m (-5) (by push_cast; ring)]
  simp only [Finset.sum_range_succ, Finset.sum_range_zero]
  ring

/-- C18: on a track whose latitude and longitude (degrees) are polynomials of degree at most ten in the sample number,
the unmasked velocities are `freq` times radius of curvature times the exact angular rate. -/
theorem C18_polynomial_track (plat plon : Polynomial ℝ) (h1 : plat.natDegree ≤ 10) (h2 : plon.natDegree ≤ 10)
    (n : ℕ) (hn : 10 < n) (freq : ℝ) :
    ∃ vn ve, latlonToEN (samples (fun k => plon.eval (k : ℝ)) n) (samples (fun k => plat.eval (k : ℝ)) n) freq
        = .ok (vn, ve) ∧
      ∀ i, 5 ≤ i → i + 5 < n →
        vn[i]? = some (some (freq * (meridianRadius (rad (plat.eval (i : ℝ))) * rad (plat.derivative.eval (i : ℝ))))) ∧
        ve[i]? = some (some (freq * (parallelRadius (rad (plat.eval (i : ℝ))) * rad (plon.derivative.eval (i : ℝ))))) := by
  refine ⟨_, _, latlon_closed _ _ n hn freq, ?_⟩
  intro i h5 hi
  simp only [samples, List.getElem?_map, List.getElem?_range (show i < n by omega), Option.map_some, Option.some.injEq]
  rw [if_neg (by omega), if_neg (by omega), C18_stencil_exact plat h1 i h5, C18_stencil_exact plon h2 i h5]
  exact ⟨rfl, rfl⟩

/-- C18: the factors are what they should be: the code's radii are finite and positive at every latitude strictly
between the poles. -/
theorem C18_radii_positive (φ : ℝ) (h : 0 < Real.cos φ) : 0 < meridianRadius φ ∧ 0 < parallelRadius φ := by
  have hs := Real.sin_sq_le_one φ
  have he : (0 : ℝ) < wgsE2 ∧ wgsE2 < 1 := by unfold wgsE2 wgsA wgsB; norm_num
  have hp : 0 < 1 - wgsE2 * Real.sin φ ^ 2 := by nlinarith [sq_nonneg (Real.sin φ)]
  have hsq := Real.sqrt_pos.2 hp
  have ha : (0 : ℝ) < wgsA := by unfold wgsA; norm_num
  constructor
  · unfold meridianRadius
    apply div_pos
    · exact mul_pos ha (by linarith [he.2])
    · positivity
  · unfold parallelRadius
    exact div_pos (mul_pos ha h) hsq

/-! ## C19 -/

/-- C19: a stationary track has zero velocity wherever it is not masked. -/
theorem C19_stationary (lat0 lon0 freq : ℝ) (n : ℕ) (hn : 10 < n) :
    ∃ vn ve, latlonToEN (List.replicate n lon0) (List.replicate n lat0) freq = .ok (vn, ve) ∧
      ∀ i, 5 ≤ i → i + 5 < n → vn[i]? = some (some 0) ∧ ve[i]? = some (some 0) := by
  have hr : ∀ c : ℝ, List.replicate n c = samples (fun _ => c) n := by
    intro c; simp [samples]
  rw [hr, hr]
  refine ⟨_, _, latlon_closed _ _ n hn freq, ?_⟩
  intro i h5 hi
  simp only [samples, List.getElem?_map, List.getElem?_range (show i < n by omega), Option.map_some, Option.some.injEq]
  rw [if_neg (by omega), if_neg (by omega)]
  constructor <;> simp [centralDiff10, rad]

/-- C19: adding a constant to all longitudes changes nothing at all. -/
theorem C19_longitude_offset (lon lat : List ℝ) (freq c : ℝ) :
    latlonToEN (lon.map (· + c)) lat freq = latlonToEN lon lat freq := by
  by_cases h : lon.length = lat.length ∧ 10 < lon.length
  · obtain ⟨h, hn⟩ := h
    have e1 := list_eq_samples lon 0
    have e2 := list_eq_samples lat 0
    rw [← h] at e2
    generalize lon.length = n at *
    have e3 : lon.map (· + c) = samples (fun i => lon.getD i 0 + c) n := by
      conv_lhs => rw [e1]
      simp only [samples, List.map_map]; rfl
    rw [e3]
    conv_rhs => rw [e1]
    rw [e2, latlon_closed _ _ n hn, latlon_closed _ _ n hn]
    have : centralDiff10 (fun i => lon.getD i 0 + c) = centralDiff10 (fun i => lon.getD i 0) := by
      funext i; unfold centralDiff10; ring
    rw [this]
  · rw [C17_rejects _ _ _ (by simp only [List.length_map]; omega), C17_rejects _ _ _ (by omega)]

/-- C19: velocities are proportional to the sampling frequency. -/
theorem C19_frequency_scaling (lon lat : List ℝ) (freq : ℝ) (vn ve : List (Option ℝ))
    (h : latlonToEN lon lat 1 = .ok (vn, ve)) :
    latlonToEN lon lat freq = .ok (vn.map (Option.map (freq * ·)), ve.map (Option.map (freq * ·))) := by
  by_cases hc : lon.length = lat.length ∧ 10 < lon.length
  · obtain ⟨hl, hn⟩ := hc
    have e1 := list_eq_samples lon 0
    have e2 := list_eq_samples lat 0
    rw [← hl] at e2
    generalize lon.length = n at *
    rw [e1, e2, latlon_closed _ _ n hn] at h ⊢
    cases h
    congr 2
    all_goals
      simp only [samples, List.map_map]
      apply List.map_congr_left
      intro i _
      simp only [Function.comp]
      split <;> simp
  · rw [C17_rejects _ _ _ (by omega)] at h; cases h

/-- C19: running the track backwards reverses the outputs and flips their sign. -/
theorem C19_time_reversal (lon lat : List ℝ) (freq : ℝ) (vn ve : List (Option ℝ))
    (h : latlonToEN lon lat freq = .ok (vn, ve)) :
    latlonToEN lon.reverse lat.reverse freq
      = .ok (vn.reverse.map (Option.map (- ·)), ve.reverse.map (Option.map (- ·))) := by
  by_cases hc : lon.length = lat.length ∧ 10 < lon.length
  · obtain ⟨hl, hn⟩ := hc
    have e1 := list_eq_samples lon 0
    have e2 := list_eq_samples lat 0
    rw [← hl] at e2
    generalize hN : lon.length = n at *
    have hrev : ∀ f : ℕ → ℝ, (samples f n).reverse = samples (fun i => f (n - 1 - i)) n := by
      intro f
      apply List.ext_getElem
      · simp [samples]
      · intro i h1 h2; simp [samples, List.getElem_reverse]
    have hrev' : ∀ f : ℕ → Option ℝ, (samples f n).reverse = samples (fun i => f (n - 1 - i)) n := by
      intro f
      apply List.ext_getElem
      · simp [samples]
      · intro i h1 h2; simp [samples, List.getElem_reverse]
    have hcd : ∀ (f : ℕ → ℝ) i, 5 ≤ i → i + 5 < n →
        centralDiff10 (fun i => f (n - 1 - i)) i = - centralDiff10 f (n - 1 - i) := by
      intro f i h5 hi
      unfold centralDiff10
      simp only [show n - 1 - (i + 1) = n - 1 - i - 1 by omega, show n - 1 - (i + 2) = n - 1 - i - 2 by omega,
        show n - 1 - (i + 3) = n - 1 - i - 3 by omega, show n - 1 - (i + 4) = n - 1 - i - 4 by omega,
        show n - 1 - (i + 5) = n - 1 - i - 5 by omega, show n - 1 - (i - 1) = n - 1 - i + 1 by omega,
        show n - 1 - (i - 2) = n - 1 - i + 2 by omega, show n - 1 - (i - 3) = n - 1 - i + 3 by omega,
        show n - 1 - (i - 4) = n - 1 - i + 4 by omega, show n - 1 - (i - 5) = n - 1 - i + 5 by omega]
      ring
    rw [e1, e2, latlon_closed _ _ n hn] at h
    rw [e1, e2, hrev, hrev, latlon_closed _ _ n hn]
    cases h
    rw [hrev', hrev']
    congr 2
    all_goals
      simp only [samples, List.map_map]
      apply List.map_congr_left
      intro i hi
      have hi' : i < n := by simpa using hi
      simp only [Function.comp]
      by_cases hm : i < 5 ∨ n ≤ i + 5
      · rw [if_pos hm, if_pos (by omega)]; rfl
      · have k1 := hcd (fun i => lat.getD i 0) i (by omega) (by omega)
        have k2 := hcd (fun i => lon.getD i 0) i (by omega) (by omega)
        rw [if_neg hm, if_neg (by omega), Option.map_some]
        first | rw [k1] | rw [k2]
        congr 1; unfold rad; ring
  · rw [C17_rejects _ _ _ (by omega)] at h; cases h

/-! ## C20 -/

private theorem deg_rad (x : ℝ) : rad (rad2deg x) = x := by
  unfold rad rad2deg
  have := Real.pi_ne_zero
  field_simp

private theorem speed_eq (ve vn : ℝ) : Real.sqrt (ve ^ 2 + vn ^ 2) = ‖(⟨vn, ve⟩ : ℂ)‖ := by
  rw [Complex.norm_def, Complex.normSq_apply]; congr 1; simp; ring

/-- C20: speed and heading are the polar form of the velocity: `speed·sin(heading) = ve`, `speed·cos(heading) = vn`,
`speed ≥ 0`, `heading ∈ (-180, 180]`. -/
theorem C20_polar (ve vn heading speed : ℝ) (h : enVelToCourseHeading ve vn = (heading, speed)) :
    speed * Real.sin (rad heading) = ve ∧ speed * Real.cos (rad heading) = vn ∧ 0 ≤ speed ∧
      -180 < heading ∧ heading ≤ 180 := by
  unfold enVelToCourseHeading at h
  obtain ⟨rfl, rfl⟩ := Prod.mk.inj h
  rw [deg_rad, speed_eq]
  unfold arctan2
  refine ⟨Complex.norm_mul_sin_arg _, Complex.norm_mul_cos_arg _, norm_nonneg _, ?_, ?_⟩
  · have := Complex.neg_pi_lt_arg (⟨vn, ve⟩ : ℂ)
    unfold rad2deg
    have hp := Real.pi_pos
    rw [show (-180 : ℝ) = -Real.pi * (180 / Real.pi) by field_simp]
    exact mul_lt_mul_of_pos_right this (by positivity)
  · have := Complex.arg_le_pi (⟨vn, ve⟩ : ℂ)
    unfold rad2deg
    have hp := Real.pi_pos
    calc _ ≤ Real.pi * (180 / Real.pi) := mul_le_mul_of_nonneg_right this (by positivity)
      _ = 180 := by field_simp

/-- C20: these conditions determine heading and speed of a moving ship. -/
theorem C20_unique (ve vn heading speed heading' speed' : ℝ) (h : enVelToCourseHeading ve vn = (heading, speed))
    (hs : 0 < speed') (h1 : speed' * Real.sin (rad heading') = ve) (h2 : speed' * Real.cos (rad heading') = vn)
    (h3 : -180 < heading') (h4 : heading' ≤ 180) : heading = heading' ∧ speed = speed' := by
  unfold enVelToCourseHeading arctan2 at h
  obtain ⟨rfl, rfl⟩ := Prod.mk.inj h
  have hz : (⟨vn, ve⟩ : ℂ) = (speed' : ℂ) * (Complex.cos (rad heading' : ℝ) + Complex.sin (rad heading' : ℝ) * Complex.I) := by
    apply Complex.ext <;> simp [← h1, ← h2, Complex.cos_ofReal_re, Complex.sin_ofReal_re]
  have hp := Real.pi_pos
  have harg : Complex.arg ⟨vn, ve⟩ = rad heading' := by
    rw [hz, Complex.arg_mul_cos_add_sin_mul_I hs]
    unfold rad
    constructor
    · nlinarith
    · nlinarith
  constructor
  · rw [harg]; unfold rad2deg rad; field_simp
  · rw [← h1, ← h2]
    rw [show (speed' * Real.sin (rad heading')) ^ 2 + (speed' * Real.cos (rad heading')) ^ 2 = speed' ^ 2 by
      have := Real.sin_sq_add_cos_sq (rad heading'); nlinarith]
    exact Real.sqrt_sq hs.le

/-- C20: speed is zero exactly at rest. -/
theorem C20_zero_speed (ve vn : ℝ) : (enVelToCourseHeading ve vn).2 = 0 ↔ ve = 0 ∧ vn = 0 := by
  show Real.sqrt (ve ^ 2 + vn ^ 2) = 0 ↔ _
  rw [Real.sqrt_eq_zero (by positivity)]
  constructor
  · intro h
    constructor <;> nlinarith [sq_nonneg ve, sq_nonneg vn]
  · rintro ⟨rfl, rfl⟩; norm_num

/-- C20: due north is heading 0, due east is heading 90, due south 180, due west -90. -/
theorem C20_compass (v : ℝ) (hv : 0 < v) :
    enVelToCourseHeading 0 v = (0, v) ∧ enVelToCourseHeading v 0 = (90, v) ∧
    enVelToCourseHeading 0 (-v) = (180, v) ∧ enVelToCourseHeading (-v) 0 = (-90, v) := by
  have key : ∀ ve vn hd : ℝ, -180 < hd → hd ≤ 180 → v * Real.sin (rad hd) = ve → v * Real.cos (rad hd) = vn →
      enVelToCourseHeading ve vn = (hd, v) := by
    intro ve vn hd h3 h4 h1 h2
    obtain ⟨a, b⟩ := C20_unique ve vn _ _ hd v rfl hv h1 h2 h3 h4
    exact Prod.ext a b
  have r0 : rad 0 = 0 := by simp [rad]
  have r90 : rad 90 = Real.pi / 2 := by unfold rad; ring
  have r180 : rad 180 = Real.pi := by unfold rad; ring
  have rm90 : rad (-90) = -(Real.pi / 2) := by unfold rad; ring
  refine ⟨key _ _ _ (by norm_num) (by norm_num) ?_ ?_, key _ _ _ (by norm_num) (by norm_num) ?_ ?_,
    key _ _ _ (by norm_num) (by norm_num) ?_ ?_, key _ _ _ (by norm_num) (by norm_num) ?_ ?_⟩ <;>
    simp [r0, r90, r180, rm90]

/-! ## C21 -/

/-- C21: dot products (hence magnitudes and angles) are preserved. -/
theorem C21_isometry (h e n e' n' : ℝ) :
    (rotateENtoCL h e n).1 * (rotateENtoCL h e' n').1 + (rotateENtoCL h e n).2 * (rotateENtoCL h e' n').2
      = e * e' + n * n' := by
  unfold rotateENtoCL
  have := Real.sin_sq_add_cos_sq (deg2rad h)
  simp only
  linear_combination (e * e' + n * n') * this

/-- C21: rotating by `h` then by `h'` is rotating by `h + h'`; rotating by `0` does nothing; so `-h` undoes `h`. -/
theorem C21_composes (h h' e n : ℝ) :
    rotateENtoCL h' (rotateENtoCL h e n).1 (rotateENtoCL h e n).2 = rotateENtoCL (h + h') e n := by
  unfold rotateENtoCL
  have : deg2rad (h + h') = deg2rad h + deg2rad h' := by unfold deg2rad; ring
  simp only [this, Real.cos_add, Real.sin_add]
  exact Prod.ext (by ring) (by ring)

/-- C21: see `C21_composes`. -/
theorem C21_inverse (h e n : ℝ) : rotateENtoCL (-h) (rotateENtoCL h e n).1 (rotateENtoCL h e n).2 = (e, n) := by
  rw [C21_composes, add_neg_cancel]
  simp [rotateENtoCL, deg2rad]

/-- C21: an acceleration of magnitude `c` along the ship's velocity has no cross component, and long component `c`. -/
theorem C21_along_track (ve vn c heading speed : ℝ) (h : enVelToCourseHeading ve vn = (heading, speed))
    (hs : speed ≠ 0) : rotateENtoCL heading (c * ve / speed) (c * vn / speed) = (0, c) := by
  obtain ⟨h1, h2, -⟩ := C20_polar ve vn heading speed h
  have hr : deg2rad heading = rad heading := rfl
  unfold rotateENtoCL
  rw [hr]
  have := Real.sin_sq_add_cos_sq (rad heading)
  refine Prod.ext ?_ ?_
  · show c * ve / speed * Real.cos (rad heading) - c * vn / speed * Real.sin (rad heading) = 0
    rw [← h1, ← h2]; field_simp; ring
  · show c * ve / speed * Real.sin (rad heading) + c * vn / speed * Real.cos (rad heading) = c
    rw [← h1, ← h2]; field_simp; linear_combination c * this

/-- C21: the right-hand side of the ship is positive cross: at heading north (0) cross is east; at heading east (90)
cross is south and long is east. -/
theorem C21_orientation (e n : ℝ) : rotateENtoCL 0 e n = (e, n) ∧ rotateENtoCL 90 e n = (-n, e) := by
  have r90 : deg2rad 90 = Real.pi / 2 := by unfold deg2rad; ring
  constructor
  · simp [rotateENtoCL, deg2rad]
  · unfold rotateENtoCL; rw [r90]; simp

/-! ## Non-vacuity -/

example : ∃ vn ve, latlonToEN (List.replicate 11 100) (List.replicate 11 (-45)) 2 = .ok (vn, ve) :=
  let ⟨vn, ve, h, _⟩ := C19_stationary (-45) 100 2 11 (by norm_num)
  ⟨vn, ve, h⟩

example : (Polynomial.X ^ 10 : Polynomial ℝ).natDegree ≤ 10 := by simp

example : (enVelToCourseHeading 3 4).2 ≠ 0 := by rw [ne_eq, C20_zero_speed]; norm_num

end Shipgrav
