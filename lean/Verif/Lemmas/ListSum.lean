import Mathlib.Algebra.BigOperators.Group.Finset.Basic
import Mathlib.Algebra.BigOperators.Ring.Finset
import Mathlib.Data.Real.Basic
import Mathlib.Data.List.GetD
import Mathlib.Algebra.BigOperators.Field
import Mathlib.Tactic.Ring
import Mathlib.Tactic.Linarith

/-! Sums of lists as finite sums. -/

namespace Shipgrav

theorem sum_eq_range {M : Type*} [AddCommMonoid M] (l : List M) :
    l.sum = ∑ j ∈ Finset.range l.length, l.getD j 0 := by
  induction l with
  | nil => simp
  | cons a t ih => rw [List.sum_cons, List.length_cons, Finset.sum_range_succ', ih, add_comm]; simp

theorem zipWith_sum_eq_range {R : Type*} [NonUnitalNonAssocSemiring R] (a b : List R) (h : a.length = b.length) :
    (List.zipWith (· * ·) a b).sum = ∑ j ∈ Finset.range a.length, a.getD j 0 * b.getD j 0 := by
  induction a generalizing b with
  | nil => simp
  | cons x t ih =>
    cases b with
    | nil => simp at h
    | cons y u =>
      have h' : t.length = u.length := by simpa using h
      rw [List.zipWith_cons_cons, List.sum_cons, List.length_cons, Finset.sum_range_succ', ih u h', add_comm]
      simp

theorem sum_map_range {M : Type*} [AddCommMonoid M] (f : ℕ → M) (n : ℕ) :
    ((List.range n).map f).sum = ∑ j ∈ Finset.range n, f j := by
  induction n with
  | zero => simp
  | succ n ih => rw [List.range_succ, Finset.sum_range_succ, ← ih]; simp

end Shipgrav
