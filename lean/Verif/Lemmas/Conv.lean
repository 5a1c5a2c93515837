import Verif.Model.Nav
import Verif.Spec.Nav
import Mathlib.Tactic.Ring

/-! The differentiator away from the ends. -/

namespace Shipgrav
open Spec

theorem conv_interior (f : ℕ → ℝ) (n i : ℕ) (h5 : 5 ≤ i) (hi : i + 5 < n) :
    convAt (samples f n) tay10 (i + 5) = centralDiff10 f i := by
  have hg : ∀ k, k < n → (samples f n).getD k 0 = f k := by
    intro k hk
    unfold samples
    rw [List.getD_eq_getElem?_getD, List.getElem?_map, List.getElem?_range hk]; rfl
  obtain ⟨m, rfl⟩ : ∃ m, i = m + 5 := ⟨i - 5, by omega⟩
  have hmap : (List.range tay10.length).map
        (fun j => tay10.getD j 0 * (if j ≤ m + 5 + 5 then (samples f n).getD (m + 5 + 5 - j) 0 else 0))
      = (List.range tay10.length).map (fun j => tay10.getD j 0 * f (m + 10 - j)) := by
    apply List.map_congr_left
    intro j hj
    have hj' : j < 11 := by simpa [tay10] using hj
    rw [if_pos (by omega), hg _ (by omega)]
  unfold convAt
  rw [hmap]
  unfold centralDiff10
  simp only [show m + 5 + 1 = m + 6 by omega, show m + 5 + 2 = m + 7 by omega, show m + 5 + 3 = m + 8 by omega,
    show m + 5 + 4 = m + 9 by omega, show m + 5 + 5 = m + 10 by omega, show m + 5 - 1 = m + 4 by omega,
    show m + 5 - 2 = m + 3 by omega, show m + 5 - 3 = m + 2 by omega, show m + 5 - 4 = m + 1 by omega,
    show m + 5 - 5 = m by omega]
  have hlen : tay10.length = 11 := rfl
  rw [hlen]
  simp only [List.range_succ, List.range_zero, List.nil_append, List.map_append, List.map_cons, List.map_nil,
    List.sum_append, List.sum_cons, List.sum_nil, tay10, List.getD_cons_zero, List.getD_cons_succ, Nat.sub_zero,
    show m + 10 - 1 = m + 9 by omega, show m + 10 - 2 = m + 8 by omega,
    show m + 10 - 3 = m + 7 by omega, show m + 10 - 4 = m + 6 by omega, show m + 10 - 5 = m + 5 by omega,
    show m + 10 - 6 = m + 4 by omega, show m + 10 - 7 = m + 3 by omega, show m + 10 - 8 = m + 2 by omega,
    show m + 10 - 9 = m + 1 by omega, show m + 10 - 10 = m by omega]
  ring

end Shipgrav
