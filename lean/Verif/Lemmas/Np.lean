import Verif.Py.Np
import Mathlib.Order.Lattice
import Mathlib.Data.List.TakeWhile

namespace Shipgrav

theorem argminGo_spec {α : Type} [LinearOrder α] (as : List α) :
    ∀ (b : α) (bi i : ℕ), bi < i →
      (argminGo b bi i as = bi ∧ ∀ (k : ℕ) v, as[k]? = some v → b ≤ v) ∨
      (∃ (k : ℕ) (v : α), argminGo b bi i as = i + k ∧ as[k]? = some v ∧ v < b ∧ (∀ (j : ℕ) u, as[j]? = some u → v ≤ u) ∧
        (∀ (j : ℕ) u, j < k → as[j]? = some u → v < u)) := by
  induction as with
  | nil => intro b bi i _; left; exact ⟨rfl, by simp⟩
  | cons a as ih =>
    intro b bi i hbi
    rw [argminGo]
    split
    · rename_i hlt
      right
      rcases ih a i (i + 1) (by omega) with ⟨h1, h2⟩ | ⟨k, v, h1, h2, h3, h4, h5⟩
      · refine ⟨0, a, by rw [h1]; omega, rfl, hlt, ?_, by simp⟩
        intro j u hj
        cases j with
        | zero => simp at hj; exact le_of_eq hj
        | succ j => exact h2 j u (by simpa using hj)
      · refine ⟨k + 1, v, by rw [h1]; omega, by simpa using h2, h3.trans hlt, ?_, ?_⟩
        · intro j u hj
          cases j with
          | zero => simp at hj; rw [← hj]; exact h3.le
          | succ j => exact h4 j u (by simpa using hj)
        · intro j u hjk hj
          cases j with
          | zero => simp at hj; rw [← hj]; exact h3
          | succ j => exact h5 j u (by omega) (by simpa using hj)
    · rename_i hnl
      have hge : b ≤ a := not_lt.1 hnl
      rcases ih b bi (i + 1) (by omega) with ⟨h1, h2⟩ | ⟨k, v, h1, h2, h3, h4, h5⟩
      · left
        refine ⟨h1, ?_⟩
        intro k v hk
        cases k with
        | zero => simp at hk; rw [← hk]; exact hge
        | succ k => exact h2 k v (by simpa using hk)
      · right
        refine ⟨k + 1, v, by rw [h1]; omega, by simpa using h2, h3, ?_, ?_⟩
        · intro j u hj
          cases j with
          | zero => simp at hj; rw [← hj]; exact (h3.trans_le hge).le
          | succ j => exact h4 j u (by simpa using hj)
        · intro j u hjk hj
          cases j with
          | zero => simp at hj; rw [← hj]; exact h3.trans_le hge
          | succ j => exact h5 j u (by omega) (by simpa using hj)

/-- `argmin` returns the first minimum. -/
theorem argmin_spec {α : Type} [LinearOrder α] (l : List α) (i : ℕ) (h : argmin l = some i) :
    ∃ v, l[i]? = some v ∧ (∀ (j : ℕ) u, l[j]? = some u → v ≤ u) ∧ (∀ (j : ℕ) u, j < i → l[j]? = some u → v < u) := by
  cases l with
  | nil => cases h
  | cons a as =>
    have hi : argminGo a 0 1 as = i := Option.some.inj h
    rcases argminGo_spec as a 0 1 (by omega) with ⟨h1, h2⟩ | ⟨k, v, h1, h2, h3, h4, h5⟩
    · obtain rfl : i = 0 := by omega
      refine ⟨a, rfl, ?_, by simp⟩
      intro j u hj
      cases j with
      | zero => simp at hj; exact le_of_eq hj
      | succ j => exact h2 j u (by simpa using hj)
    · obtain rfl : i = k + 1 := by omega
      refine ⟨v, by simpa using h2, ?_, ?_⟩
      · intro j u hj
        cases j with
        | zero => simp at hj; rw [← hj]; exact h3.le
        | succ j => exact h4 j u (by simpa using hj)
      · intro j u hjk hj
        cases j with
        | zero => simp at hj; rw [← hj]; exact h3
        | succ j => exact h5 j u (by omega) (by simpa using hj)

theorem argmin_ne_nil {α : Type} [LinearOrder α] (l : List α) (h : l ≠ []) : ∃ i, argmin l = some i := by
  cases l with
  | nil => exact absurd rfl h
  | cons a as => exact ⟨_, rfl⟩

/-- `searchsorted` on an ascending list: everything before is smaller, everything from there on is not. -/
theorem searchsorted_spec {α : Type} [LinearOrder α] (x : List α) (hs : x.Pairwise (· ≤ ·)) (v : α) :
    searchsorted x v ≤ x.length ∧ (∀ j u, j < searchsorted x v → x[j]? = some u → u < v) ∧
      (∀ j u, searchsorted x v ≤ j → x[j]? = some u → v ≤ u) := by
  unfold searchsorted
  induction x with
  | nil => simp
  | cons a x ih =>
    obtain ⟨ha, hx⟩ := List.pairwise_cons.1 hs
    obtain ⟨i1, i2, i3⟩ := ih hx
    by_cases h : a < v
    · rw [List.takeWhile_cons, if_pos (by simpa using h)]
      refine ⟨by simpa using i1, ?_, ?_⟩
      · intro j u hj hu
        cases j with
        | zero => simp at hu; rw [← hu]; exact h
        | succ j => exact i2 j u (by simpa using hj) (by simpa using hu)
      · intro j u hj hu
        cases j with
        | zero => simp at hj
        | succ j => exact i3 j u (by simpa using hj) (by simpa using hu)
    · rw [List.takeWhile_cons, if_neg (by simpa using h)]
      refine ⟨by simp, by simp, ?_⟩
      intro j u _ hu
      cases j with
      | zero => simp at hu; rw [← hu]; exact not_lt.1 h
      | succ j =>
        have : u ∈ x := List.mem_of_getElem? (by simpa using hu : x[j]? = some u)
        exact (not_lt.1 h).trans (ha u this)

end Shipgrav
