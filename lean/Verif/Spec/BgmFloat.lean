import Verif.Spec.Bgm
import Verif.Spec.Float64

/-! Gravity from counts, in double precision. -/

namespace Shipgrav.Spec

/-- Two rows of gravimeter tables that agree but for the gravity, which in the second is a double precision number near the first.  `sc` is the scale
factor. -/
structure RowNear (sc : ℚ) (r r' : Str → Val) : Prop where
  same : ∀ c, c ≠ "rgrav".toList → r' c = r c
  gravity : ∀ n : ℤ, r "counts".toList = .num n → |n| < 2 ^ 53 →
    ∃ g, r' "rgrav".toList = .num g ∧ IsDouble g ∧ |g - sc * n| ≤ |sc * n| / 2 ^ 51
  exact : ∀ n : ℤ, r "counts".toList = .num n → |n| < 2 ^ 53 → IsDouble sc → IsDouble (sc * n) → r' "rgrav".toList = .num (sc * n)
  missing : r "counts".toList = .nan → r' "rgrav".toList = .nan

end Shipgrav.Spec
