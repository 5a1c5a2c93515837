import Verif.Props.Nav
import Mathlib.Analysis.SpecialFunctions.Trigonometric.Deriv

/-! Property theorems C100: cross and long accelerations along a track. -/

namespace Shipgrav
open Spec

private theorem deg2rad_eq (x : ℝ) : deg2rad x = rad x := rfl

/-- **C100.** In the frame of its own course a velocity is all along and not across. -/
theorem C100_velocity_is_long (ve vn : ℝ) :
    rotateENtoCL (enVelToCourseHeading ve vn).1 ve vn = (0, (enVelToCourseHeading ve vn).2) := by
  obtain ⟨⟨c, s⟩, hcs⟩ : ∃ p, enVelToCourseHeading ve vn = p := ⟨_, rfl⟩
  obtain ⟨h1, h2, _⟩ := C20_polar ve vn c s hcs
  rw [hcs]
  unfold rotateENtoCL
  simp only [deg2rad_eq]
  have := Real.sin_sq_add_cos_sq (rad c)
  rw [← h1, ← h2]
  ext
  · simp only; ring
  · simp only; linear_combination s * this

/-- **C100.** A ship whose speed `s` and heading `φ` (radians) change smoothly: with the course found from the velocity, the long acceleration
is the rate of change of speed and the cross acceleration, positive to starboard, is speed times rate of turn. -/
theorem C100_accelerations (s φ : ℝ → ℝ) (s' φ' t : ℝ) (hs : HasDerivAt s s' t) (hφ : HasDerivAt φ φ' t) (h0 : 0 < s t)
    (ve vn : ℝ → ℝ) (hve : ∀ t, ve t = s t * Real.sin (φ t)) (hvn : ∀ t, vn t = s t * Real.cos (φ t)) :
    ∃ ae an, HasDerivAt ve ae t ∧ HasDerivAt vn an t ∧
      rotateENtoCL (enVelToCourseHeading (ve t) (vn t)).1 ae an = (s t * φ', s') := by
  obtain rfl : ve = fun t => s t * Real.sin (φ t) := funext hve
  obtain rfl : vn = fun t => s t * Real.cos (φ t) := funext hvn
  refine ⟨_, _, hs.mul hφ.sin, hs.mul hφ.cos, ?_⟩
  obtain ⟨⟨c, v⟩, hcs⟩ : ∃ p, enVelToCourseHeading (s t * Real.sin (φ t)) (s t * Real.cos (φ t)) = p := ⟨_, rfl⟩
  obtain ⟨h1, h2, h3, _⟩ := C20_polar (s t * Real.sin (φ t)) (s t * Real.cos (φ t)) c v hcs
  beta_reduce
  rw [hcs]
  have e1 := Real.sin_sq_add_cos_sq (rad c)
  have e2 := Real.sin_sq_add_cos_sq (φ t)
  have hv : v = s t := by
    have : v ^ 2 = s t ^ 2 := by
      calc v ^ 2 = (v * Real.sin (rad c)) ^ 2 + (v * Real.cos (rad c)) ^ 2 := by linear_combination -v ^ 2 * e1
        _ = s t ^ 2 := by rw [h1, h2]; linear_combination s t ^ 2 * e2
    exact (sq_eq_sq₀ h3 h0.le).mp this
  subst hv
  have hsin := mul_left_cancel₀ h0.ne' h1
  have hcos := mul_left_cancel₀ h0.ne' h2
  unfold rotateENtoCL
  simp only [deg2rad_eq, hsin, hcos]
  ext
  · simp only; linear_combination s t * φ' * e2
  · simp only; linear_combination s' * e2

/-! ## Non-vacuity -/

/-- A ship that speeds up by 2 m/s per second while turning at 1 rad/s. -/
example : ∃ ae an, HasDerivAt (fun t => (1 + 2 * t) * Real.sin t) ae 0 ∧ HasDerivAt (fun t => (1 + 2 * t) * Real.cos t) an 0 ∧
    rotateENtoCL (enVelToCourseHeading ((1 + 2 * 0) * Real.sin 0) ((1 + 2 * 0) * Real.cos 0)).1 ae an = ((1 + 2 * 0) * 1, 2) :=
  C100_accelerations (fun t => 1 + 2 * t) id 2 1 0
    (by simpa using ((hasDerivAt_id (0 : ℝ)).const_mul 2).const_add 1) (hasDerivAt_id 0) (by norm_num) _ _ (fun _ => rfl) (fun _ => rfl)

end Shipgrav
