import Verif.Spec.CrossCoupling

/-! How far apart five series are that serve as regressors. -/

namespace Shipgrav.Spec

/-- Every combination of the five series whose squared coefficients add up to one varies by at least `l`, root mean square, about any constant. -/
def Apart (n : ℕ) (x : Fin 5 → ℕ → ℝ) (l : ℝ) : Prop :=
  ∀ (c : ℝ) (β : Fin 5 → ℝ), l ^ 2 * n * ∑ k, β k ^ 2 ≤ ∑ i ∈ Finset.range n, (c + ∑ k, β k * x k i) ^ 2

end Shipgrav.Spec
