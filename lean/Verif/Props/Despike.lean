import Verif.Lemmas.Despike

/-! Properties C38 and C39: `_despike_bgm_serial`. -/

namespace Shipgrav
open Spec

/-- **C38.** Let `J` list the positions of the over-threshold steps.  If there are at most two, or an odd number, or some
pair (1st and 2nd, 3rd and 4th, …) is not adjacent, the data come back unchanged. -/
theorem C38_unchanged {α : Type} (count : α → ℚ) (thresh : ℚ) (rows : List α) (J : List ℕ) (hs : J.Pairwise (· < ·))
    (hJ : ∀ i, i ∈ J ↔ StepAt thresh (rows.map count) i)
    (h : J.length ≤ 2 ∨ J.length % 2 = 1 ∨ ∃ k a b, J[2 * k]? = some a ∧ J[2 * k + 1]? = some b ∧ b ≠ a + 1) :
    despike count thresh rows = (rows, none) := by
  unfold despike
  simp only [step_eq thresh _ J hs hJ]
  split
  · rename_i h2
    rw [if_pos]
    rcases h with h | h | h
    · omega
    · left; omega
    · right; exact (badPairs_iff J).2 h
  · rfl

/-- **C38.** Otherwise exactly the second position of each pair is removed: the result is the remaining rows, unchanged and
in order, with their old row numbers as a new column. -/
theorem C38_removed {α : Type} (count : α → ℚ) (thresh : ℚ) (rows : List α) (J : List ℕ) (hs : J.Pairwise (· < ·))
    (hJ : ∀ i, i ∈ J ↔ StepAt thresh (rows.map count) i) (h2 : 2 < J.length) (he : J.length % 2 = 0)
    (hp : ∀ k a b, J[2 * k]? = some a → J[2 * k + 1]? = some b → b = a + 1) :
    ∃ S : List ℕ, (∀ k : ℕ, S[k]? = J[2 * k + 1]?) ∧ 2 * S.length = J.length ∧
      despike count thresh rows = (rowsAt rows (others rows.length S), some (others rows.length S)) := by
  refine ⟨secondOfPairs J, secondOfPairs_get J, by rw [secondOfPairs_length]; omega, ?_⟩
  unfold despike
  simp only [step_eq thresh _ J hs hJ]
  rw [if_pos h2, if_neg, (dropRows_eq rows _).1, (dropRows_eq rows _).2]
  rintro (h | h)
  · omega
  · obtain ⟨k, a, b, h1, h3, h4⟩ := (badPairs_iff J).1 h
    exact h4 (hp k a b h1 h3)

/-- **C38.** In every case the result is a sub-sequence of the input, and at most half as many rows are missing as there are
over-threshold steps. -/
theorem C38_only_removes {α : Type} (count : α → ℚ) (thresh : ℚ) (rows : List α) (J : List ℕ) (hs : J.Pairwise (· < ·))
    (hJ : ∀ i, i ∈ J ↔ StepAt thresh (rows.map count) i) :
    (despike count thresh rows).1.Sublist rows ∧
      2 * (rows.length - (despike count thresh rows).1.length) ≤ J.length := by
  have hb : ∀ i ∈ secondOfPairs J, i < rows.length := by
    intro i hi
    obtain ⟨a, b, h1, -, -⟩ := (hJ i).1 ((secondOfPairs_sublist J).subset hi)
    have := (List.getElem?_eq_some_iff.1 h1).1
    simpa using this
  have hn : (secondOfPairs J).Nodup := (hs.sublist (secondOfPairs_sublist J)).imp (fun h => ne_of_lt h)
  unfold despike
  simp only [step_eq thresh _ J hs hJ]
  split
  · split
    · exact ⟨List.Sublist.refl _, by simp⟩
    · refine ⟨dropRows_sublist rows _, ?_⟩
      have h1 : ((dropRows rows (secondOfPairs J)).map Prod.fst).length = (others rows.length (secondOfPairs J)).length := by
        rw [(dropRows_eq rows _).1, rowsAt_length]
        intro i hi
        exact List.mem_range.1 (List.mem_filter.1 hi).1
      have h2 := others_length rows.length _ hn hb
      have h3 := secondOfPairs_length J
      simp only [h1]
      omega
  · exact ⟨List.Sublist.refl _, by simp⟩

/-- **C38.** Every row that is removed has an over-threshold step before and after it. -/
theorem C38_removed_rows_are_spikes {α : Type} (count : α → ℚ) (thresh : ℚ) (rows : List α) (kept : List ℕ)
    (h : (despike count thresh rows).2 = some kept) (i : ℕ) (hi : i < rows.length) (hk : i ∉ kept) :
    1 ≤ i ∧ StepAt thresh (rows.map count) (i - 1) ∧ StepAt thresh (rows.map count) i := by
  have hm := fun j => mem_step thresh (rows.map count) j
  revert h hm
  unfold despike
  generalize stepGo thresh 0 (rows.map count) = J
  intro h hm
  simp only at h
  split at h
  · split at h
    · cases h
    · rename_i hgood
      injection h with h
      rw [← h, (dropRows_eq rows _).2] at hk
      have hi2 : i ∈ secondOfPairs J := by
        by_contra hc
        exact hk (by unfold others; rw [List.mem_filter]; exact ⟨List.mem_range.2 hi, by simpa using hc⟩)
      obtain ⟨k, hk2⟩ := List.mem_iff_getElem?.1 hi2
      rw [secondOfPairs_get] at hk2
      have hlt := (List.getElem?_eq_some_iff.1 hk2).1
      obtain ⟨a, ha⟩ : ∃ a, J[2 * k]? = some a := ⟨J[2 * k], List.getElem?_eq_getElem (by omega)⟩
      have hadj : i = a + 1 := by
        by_contra hc
        exact hgood (Or.inr ((badPairs_iff J).2 ⟨k, a, i, ha, hk2, hc⟩))
      subst hadj
      refine ⟨by omega, ?_, (hm _).1 (List.mem_of_getElem? hk2)⟩
      rw [Nat.add_sub_cancel]
      exact (hm _).1 (List.mem_of_getElem? ha)
  · cases h

private theorem pairs_of_spikes : ∀ P : List ℕ, P.Pairwise (· < ·) → (∀ p ∈ P, 1 ≤ p) → (∀ p ∈ P, p + 1 ∉ P) →
    (P.flatMap fun p => [p - 1, p]).Pairwise (· < ·)
  | [], _, _, _ => by simp
  | p :: P, hs, hi, ha => by
    rw [List.pairwise_cons] at hs
    have ih := pairs_of_spikes P hs.2 (fun q hq => hi q (by simp [hq]))
      (fun q hq h => ha q (by simp [hq]) (by simp [h]))
    rw [List.flatMap_cons, List.pairwise_append]
    refine ⟨?_, ih, ?_⟩
    · have := hi p (by simp)
      simp
      omega
    · intro a haa b hb
      obtain ⟨q, hq, hb⟩ := List.mem_flatMap.1 hb
      have h1 := hs.1 q hq
      have h2 : q ≠ p + 1 := by
        rintro rfl
        exact ha p (by simp) (by simp [hq])
      simp at haa hb
      omega

private theorem second_pairs : ∀ P : List ℕ, secondOfPairs (P.flatMap fun p => [p - 1, p]) = P
  | [] => rfl
  | p :: P => by
    rw [List.flatMap_cons]
    show p :: secondOfPairs (P.flatMap fun p => [p - 1, p]) = _
    rw [second_pairs P]

private theorem bad_pairs : ∀ P : List ℕ, (∀ p ∈ P, 1 ≤ p) → badPairs (P.flatMap fun p => [p - 1, p]) = false
  | [], _ => rfl
  | p :: P, h => by
    rw [List.flatMap_cons]
    show (decide (p ≠ p - 1 + 1) || badPairs (P.flatMap fun p => [p - 1, p])) = false
    rw [bad_pairs P (fun q hq => h q (by simp [hq]))]
    have := h p (by simp)
    simp
    omega

/-- **C39 (partial).** If the series has at least two isolated one-sample spikes at the positions `P` and no other step
above the threshold, despiking removes exactly the spikes and returns the rows at all other positions.  (The full claim
also covers a single spike, where it is false: `C39_single_spike_kept_refuted`.) -/
theorem C39_isolated_spikes_removed_partial {α : Type} (count : α → ℚ) (thresh : ℚ) (rows : List α) (P : List ℕ)
    (hP : IsolatedSpikes thresh (rows.map count) P) (h2 : 2 ≤ P.length) :
    despike count thresh rows = (rowsAt rows (others rows.length P), some (others rows.length P)) := by
  have hJ : stepGo thresh 0 (rows.map count) = P.flatMap fun p => [p - 1, p] := by
    apply step_eq
    · exact pairs_of_spikes P hP.sorted hP.inner hP.apart
    · intro i
      rw [hP.jumps, List.mem_flatMap]
      constructor
      · rintro ⟨p, hp, hi⟩
        have := hP.inner p hp
        simp only [List.mem_cons, List.not_mem_nil, or_false] at hi
        rcases hi with rfl | rfl
        · right; rwa [Nat.sub_add_cancel this]
        · left; exact hp
      · rintro (h | h)
        · exact ⟨i, h, by simp⟩
        · exact ⟨i + 1, h, by simp⟩
  unfold despike
  simp only [hJ]
  have hlen : (P.flatMap fun p => [p - 1, p]).length = 2 * P.length := by
    clear hJ hP h2
    induction P with
    | nil => rfl
    | cons p P ih => rw [List.flatMap_cons, List.length_append, ih]; simp; omega
  rw [if_pos (by omega), if_neg, second_pairs, (dropRows_eq rows _).1, (dropRows_eq rows _).2]
  rintro (h | h)
  · omega
  · rw [bad_pairs P hP.inner] at h; cases h

/-- **C39 (refuted).** A single isolated spike is never removed, whatever the series. -/
theorem C39_single_spike_kept_refuted {α : Type} (count : α → ℚ) (thresh : ℚ) (rows : List α) (p : ℕ)
    (hP : IsolatedSpikes thresh (rows.map count) [p]) : despike count thresh rows = (rows, none) := by
  have hp := hP.inner p (by simp)
  apply C38_unchanged count thresh rows [p - 1, p]
  · simp; omega
  · intro i
    rw [hP.jumps]
    simp
    omega
  · left; simp

private def demo : List ℚ := [25000, 25010, 99000, 25020, 25010, 0, 25005]

private theorem demo_spikes : IsolatedSpikes 8000 demo [2, 5] := by
  refine ⟨by decide, by decide, by decide, ?_⟩
  intro i
  rw [← mem_step, show stepGo 8000 0 demo = [1, 2, 4, 5] by decide +kernel]
  simp
  omega

/-- **C39.** Non-vacuity: a series with two isolated spikes, and what despiking returns. -/
example : despike id 8000 demo = ([25000, 25010, 25020, 25010, 25005], some [0, 1, 3, 4, 6]) := by
  decide +kernel
example : IsolatedSpikes 8000 (demo.map id) [2, 5] := by simpa using demo_spikes
-- a single spike stays
example : despike id 8000 [25000, 99000, 25010] = (([25000, 99000, 25010] : List ℚ), none) := by decide +kernel
-- two wide spikes: jumps come in non-adjacent pairs, nothing is removed
example : despike id 8000 [0, 9000, 9000, 0, 9000, 9000, 0] = (([0, 9000, 9000, 0, 9000, 9000, 0] : List ℚ), none) := by
  decide +kernel

end Shipgrav
