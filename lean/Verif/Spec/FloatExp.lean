import Mathlib.Analysis.SpecialFunctions.Exp

/-! What is asked of a floating point exponential. -/

namespace Shipgrav.Spec

/-- A relative error of at most `2^-51`, about two units in the last place of a double. -/
def GoodExp (ex : ℚ → ℚ) : Prop := ∀ q : ℚ, |(ex q : ℝ) - Real.exp q| ≤ Real.exp q / 2 ^ 51

end Shipgrav.Spec
