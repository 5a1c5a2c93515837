import Verif.Model.Bgm
import Verif.Spec.Bgm
import Mathlib.Data.List.Sort
import Mathlib.Data.List.Induction

/-! Lemmas for `_despike_bgm_serial`. -/

namespace Shipgrav
open Spec

theorem mem_stepGo (th : ℚ) (x : List ℚ) : ∀ k i, i ∈ stepGo th k x ↔ ∃ j, i = k + j ∧ StepAt th x j := by
  induction x with
  | nil => intro k i; simp [stepGo, StepAt]
  | cons a x ih =>
    intro k i
    cases x with
    | nil =>
      simp only [stepGo, List.not_mem_nil, false_iff, not_exists, not_and]
      rintro j - ⟨u, v, -, h2, -⟩
      simp at h2
    | cons b t =>
      have h0 : StepAt th (a :: b :: t) 0 ↔ th < |b - a| := by
        unfold StepAt
        simp
      have hs : ∀ j, StepAt th (a :: b :: t) (j + 1) ↔ StepAt th (b :: t) j := by
        intro j; unfold StepAt; simp
      rw [stepGo]
      have key : (∃ j, i = k + j ∧ StepAt th (a :: b :: t) j) ↔ (i = k ∧ th < |b - a|) ∨ i ∈ stepGo th (k + 1) (b :: t) := by
        rw [ih]
        constructor
        · rintro ⟨j, rfl, hj⟩
          cases j with
          | zero => left; exact ⟨rfl, h0.1 hj⟩
          | succ j => right; exact ⟨j, by omega, (hs j).1 hj⟩
        · rintro (⟨rfl, h⟩ | ⟨j, rfl, hj⟩)
          · exact ⟨0, rfl, h0.2 h⟩
          · exact ⟨j + 1, by omega, (hs j).2 hj⟩
      rw [key]
      split
      · rename_i h; simp [h]
      · rename_i h; simp [h]

theorem stepGo_sorted (th : ℚ) (x : List ℚ) : ∀ k, (stepGo th k x).Pairwise (· < ·) := by
  induction x with
  | nil => intro k; simp [stepGo]
  | cons a x ih =>
    intro k
    cases x with
    | nil => simp [stepGo]
    | cons b t =>
      rw [stepGo]
      split
      · rw [List.pairwise_cons]
        refine ⟨?_, ih (k + 1)⟩
        intro i hi
        obtain ⟨j, rfl, -⟩ := (mem_stepGo th (b :: t) (k + 1) i).1 hi
        omega
      · exact ih (k + 1)

theorem mem_step (th : ℚ) (x : List ℚ) (i : ℕ) : i ∈ stepGo th 0 x ↔ StepAt th x i := by
  rw [mem_stepGo]
  constructor
  · rintro ⟨j, rfl, h⟩; simpa using h
  · intro h; exact ⟨i, by omega, h⟩

theorem sorted_ext {a b : List ℕ} (ha : a.Pairwise (· < ·)) (hb : b.Pairwise (· < ·)) (h : ∀ i, i ∈ a ↔ i ∈ b) : a = b := by
  have na : a.Nodup := ha.imp (fun h => ne_of_lt h)
  have nb : b.Nodup := hb.imp (fun h => ne_of_lt h)
  exact ((List.perm_ext_iff_of_nodup na nb).2 h).eq_of_pairwise (le := (· < ·))
    (fun _ _ _ _ h h' => absurd h (lt_asymm h')) ha hb

theorem step_eq (th : ℚ) (x : List ℚ) (J : List ℕ) (hs : J.Pairwise (· < ·)) (hm : ∀ i, i ∈ J ↔ StepAt th x i) :
    stepGo th 0 x = J :=
  sorted_ext (stepGo_sorted th x 0) hs (fun i => by rw [mem_step, hm])

theorem badPairs_iff : ∀ l : List ℕ, badPairs l = true ↔ ∃ k a b, l[2 * k]? = some a ∧ l[2 * k + 1]? = some b ∧ b ≠ a + 1
  | [] => by simp [badPairs]
  | [a] => by
    simp only [badPairs, Bool.false_eq_true, false_iff, not_exists, not_and]
    intro k u v _ h
    simp at h
  | a :: b :: t => by
    rw [badPairs, Bool.or_eq_true, badPairs_iff t]
    constructor
    · rintro (h | ⟨k, u, v, h1, h2, h3⟩)
      · exact ⟨0, a, b, rfl, rfl, by simpa using h⟩
      · exact ⟨k + 1, u, v, by rw [show 2 * (k + 1) = 2 * k + 1 + 1 by ring]; simpa using h1,
          by rw [show 2 * (k + 1) + 1 = 2 * k + 1 + 1 + 1 by ring]; simpa using h2, h3⟩
    · rintro ⟨k, u, v, h1, h2, h3⟩
      cases k with
      | zero =>
        left
        simp only [Nat.mul_zero, List.getElem?_cons_zero, Option.some.injEq, Nat.zero_add, List.getElem?_cons_succ] at h1 h2
        subst h1 h2
        simpa using h3
      | succ k =>
        right
        rw [show 2 * (k + 1) = 2 * k + 1 + 1 by ring] at h1
        rw [show 2 * (k + 1) + 1 = 2 * k + 1 + 1 + 1 by ring] at h2
        exact ⟨k, u, v, by simpa using h1, by simpa using h2, h3⟩

theorem secondOfPairs_get : ∀ (l : List ℕ) (k : ℕ), (secondOfPairs l)[k]? = l[2 * k + 1]?
  | [], k => by simp [secondOfPairs]
  | [a], k => by simp [secondOfPairs]
  | a :: b :: t, k => by
    rw [secondOfPairs]
    cases k with
    | zero => rfl
    | succ k =>
      rw [List.getElem?_cons_succ, secondOfPairs_get t k, show 2 * (k + 1) + 1 = 2 * k + 1 + 1 + 1 by ring]
      simp

theorem secondOfPairs_length : ∀ l : List ℕ, (secondOfPairs l).length = l.length / 2
  | [] => rfl
  | [a] => by simp [secondOfPairs]
  | a :: b :: t => by
    rw [secondOfPairs, List.length_cons, secondOfPairs_length t]
    simp only [List.length_cons]
    omega

theorem secondOfPairs_sublist : ∀ l : List ℕ, (secondOfPairs l).Sublist l
  | [] => by simp [secondOfPairs]
  | [a] => by simp [secondOfPairs]
  | a :: b :: t => by
    rw [secondOfPairs]
    exact ((secondOfPairs_sublist t).cons_cons b).cons a

theorem dropRows_eq {α : Type} (rows : List α) (S : List ℕ) :
    (dropRows rows S).map Prod.fst = rowsAt rows (others rows.length S) ∧
    (dropRows rows S).map Prod.snd = others rows.length S := by
  unfold dropRows rowsAt others
  induction rows using List.reverseRecOn with
  | nil => simp
  | append_singleton rows a ih =>
    obtain ⟨i1, i2⟩ := ih
    have hcong : ((List.range rows.length).filter (fun i => decide (i ∉ S))).filterMap (fun i => (rows ++ [a])[i]?)
        = ((List.range rows.length).filter (fun i => decide (i ∉ S))).filterMap (fun i => rows[i]?) := by
      apply List.filterMap_congr
      intro i hi
      have : i < rows.length := List.mem_range.1 (List.mem_filter.1 hi).1
      rw [List.getElem?_append_left this]
    rw [List.zipIdx_append, List.filter_append, List.map_append, List.map_append, i1, i2, List.length_append,
      List.length_singleton, List.range_succ, List.filter_append, List.filterMap_append, hcong]
    by_cases h : rows.length ∈ S
    · simp [List.filter_cons, h]
    · simp [List.filter_cons, h]

theorem others_sorted (n : ℕ) (S : List ℕ) : (others n S).Pairwise (· < ·) :=
  (List.pairwise_lt_range (n := n)).filter _

theorem others_length (n : ℕ) (S : List ℕ) (hs : S.Nodup) (hS : ∀ i ∈ S, i < n) : (others n S).length + S.length = n := by
  have h1 : ((List.range n).filter (fun i => decide (i ∈ S))).Perm S := by
    rw [List.perm_ext_iff_of_nodup (List.nodup_range.filter _) hs]
    intro i
    simp only [List.mem_filter, List.mem_range, decide_eq_true_eq]
    exact ⟨fun h => h.2, fun h => ⟨hS i h, h⟩⟩
  have h2 := List.length_eq_length_filter_add (l := List.range n) (fun i => decide (i ∈ S))
  rw [List.length_range, h1.length_eq] at h2
  unfold others
  have h3 : (fun i => decide (i ∉ S)) = fun i => !decide (i ∈ S) := by funext i; simp
  rw [h3]
  omega

theorem rowsAt_length {α : Type} (rows : List α) (idx : List ℕ) (h : ∀ i ∈ idx, i < rows.length) :
    (rowsAt rows idx).length = idx.length := by
  unfold rowsAt
  induction idx with
  | nil => rfl
  | cons i idx ih =>
    have hi := h i (by simp)
    rw [List.filterMap_cons_some (b := rows[i]) (by rw [List.getElem?_eq_getElem hi]), List.length_cons,
      ih (fun j hj => h j (by simp [hj])), List.length_cons]

theorem dropRows_sublist {α : Type} (rows : List α) (S : List ℕ) : ((dropRows rows S).map Prod.fst).Sublist rows := by
  have h : (dropRows rows S).Sublist rows.zipIdx := List.filter_sublist
  have := h.map Prod.fst
  rwa [List.zipIdx_map_fst] at this

end Shipgrav
