import Verif.Spec.Nav

/-! The second radius of curvature of the WGS84 ellipsoid. -/

namespace Shipgrav.Spec
open Real

/-- Radius of curvature across the meridian at latitude `φ` (radians): `a/√(1-e² sin²φ)`. -/
noncomputable def normalRadius (φ : ℝ) : ℝ := wgsA / √(1 - wgsE2 * sin φ ^ 2)

end Shipgrav.Spec
