import Verif.Spec.Tide

/-! The tide by Newton's law: the pull of a distant body at a point, less its pull at the centre of the earth (which the whole earth follows). -/

namespace Shipgrav.Spec
open Real

noncomputable def V3.scale (k : ℝ) (v : V3) : V3 := ⟨k * v.x, k * v.y, k * v.z⟩

noncomputable def V3.sub (u v : V3) : V3 := ⟨u.x - v.x, u.y - v.y, u.z - v.z⟩

/-- Acceleration (cm/s²) at the point `P` by the mass `m` (g) at the point `B`, positions in cm: `G m / distance²` towards the mass. -/
noncomputable def massPull (m : ℝ) (P B : V3) : V3 :=
  V3.scale (6.673e-8 * m / √((B.sub P).dot (B.sub P)) ^ 3) (B.sub P)

/-- Upward part of the acceleration relative to the centre of the earth, at the distance `r` from the centre in the direction `up`. -/
noncomputable def tidalUp (m : ℝ) (up : V3) (r : ℝ) (B : V3) : ℝ :=
  up.dot ((massPull m (V3.scale r up) B).sub (massPull m ⟨0, 0, 0⟩ B))

end Shipgrav.Spec
