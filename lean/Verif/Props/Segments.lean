import Verif.Model.Scripts
import Verif.Props.Cursor
import Verif.Lemmas.Fmt

/-! Property theorems C106: segments from the picks (`interactive_line_pick.py`). -/

namespace Shipgrav
open Spec

/-- **C106, part.** The picks are taken in pairs in the order of picking, the last of an odd number is left out; each pair gives a segment from the
smaller to the larger. -/
theorem C106_pairs_partial (inds : List ℕ) :
    (segmentsOf inds).length = inds.length / 2 ∧
      ∀ k a b, inds[2 * k]? = some a → inds[2 * k + 1]? = some b → (segmentsOf inds)[k]? = some (min a b, max a b) := by
  have hl : (if inds.length % 2 ≠ 0 then inds.dropLast else inds).length / 2 = inds.length / 2 := by
    split
    · rw [List.length_dropLast]; omega
    · rfl
  constructor
  · unfold segmentsOf
    simp only [List.length_map, List.length_range]
    exact hl
  · intro k a b ha hb
    have hk : 2 * k + 1 < inds.length := (List.getElem?_eq_some_iff.mp hb).1
    have hg : ∀ j, j < inds.length / 2 * 2 → (if inds.length % 2 ≠ 0 then inds.dropLast else inds).getD j 0 = inds.getD j 0 := by
      intro j hj
      split
      · rw [List.getD_eq_getElem?_getD, List.getD_eq_getElem?_getD, List.getElem?_dropLast, if_pos (by omega)]
      · rfl
    unfold segmentsOf
    simp only
    rw [hl, List.getElem?_map, List.getElem?_range (by omega), Option.map_some, hg _ (by omega), hg _ (by omega), List.getD_eq_getElem?_getD, List.getD_eq_getElem?_getD,
      ha, hb]
    rfl

/-- **C106, part.** For every history of mouse events the segments lie inside the data, and the rows written for a segment are those from its
start up to, but not including, its end, in order. -/
theorem C106_rows_partial (d : CurData) (hd : d.rows ≠ []) (h v : ℚ) (dot : ℚ × ℚ) (hist : List Event) (s : ℕ × ℕ)
    (hs : s ∈ segmentsOf (curRun d (curInit h v dot) hist).iSeg) :
    s.1 ≤ s.2 ∧ s.2 < d.rows.length ∧ (segmentRows d.rows s).length = s.2 - s.1 ∧
      ∀ i < s.2 - s.1, (segmentRows d.rows s)[i]? = d.rows[s.1 + i]? := by
  have hv : ∀ i ∈ (curRun d (curInit h v dot) hist).iSeg, i < d.rows.length := by
    intro i hi
    obtain ⟨k, hk⟩ := List.getElem?_of_mem hi
    obtain ⟨x, r, -, -, hr, -⟩ := C15_picks_are_nearest d hd h v dot hist k i hk
    exact (List.getElem?_eq_some_iff.mp hr).1
  generalize (curRun d (curInit h v dot) hist).iSeg = inds at hs hv
  obtain ⟨hl, hp⟩ := C106_pairs_partial inds
  obtain ⟨k, hk⟩ := List.getElem?_of_mem hs
  have hkl := (List.getElem?_eq_some_iff.mp hk).1
  rw [hl] at hkl
  have ha : 2 * k < inds.length := by omega
  have hb : 2 * k + 1 < inds.length := by omega
  have h1 := hp k _ _ (List.getElem?_eq_getElem ha) (List.getElem?_eq_getElem hb)
  rw [hk] at h1
  obtain rfl := Option.some.inj h1
  have va := hv _ (List.getElem_mem ha)
  have vb := hv _ (List.getElem_mem hb)
  generalize inds[2 * k] = a at *
  generalize inds[2 * k + 1] = b at *
  refine ⟨by simp, by simp; omega, ?_, ?_⟩
  · unfold segmentRows
    simp only [List.length_drop, List.length_take]
    omega
  · intro i hi
    unfold segmentRows
    simp only at hi ⊢
    rw [List.getElem?_drop, List.getElem?_take, if_pos (by omega)]

/-- **C106, refuted.** The claim: the rows of a segment run from one pick to the other, both included.  The row of the later pick is never
among them (rows told apart by time, say), and two picks of the same row give an empty file. -/
theorem C106_end_refuted {α : Type} (rows : List α) (hrows : rows.Nodup) (a b : ℕ) (r : α) (hr : rows[max a b]? = some r) :
    segmentsOf [a, b] = [(min a b, max a b)] ∧ r ∉ segmentRows rows (min a b, max a b) ∧ segmentRows rows (min a a, max a a) = [] := by
  refine ⟨by simp [segmentsOf], ?_, ?_⟩
  · intro hm
    unfold segmentRows at hm
    have hm' := List.mem_of_mem_drop hm
    obtain ⟨j, hj⟩ := List.getElem?_of_mem hm'
    rw [List.getElem?_take] at hj
    split at hj
    · rename_i hlt
      have h1 := List.getElem?_eq_some_iff.mp hj
      have h2 := List.getElem?_eq_some_iff.mp hr
      obtain ⟨p1, q1⟩ := h1
      obtain ⟨p2, q2⟩ := h2
      have := (List.Nodup.getElem_inj_iff hrows).mp (q1.trans q2.symm)
      simp only at hlt
      omega
    · cases hj
  · unfold segmentRows
    simp only [min_self, max_self]
    apply List.drop_eq_nil_of_le
    rw [List.length_take]
    omega

private theorem split_unique {c : Char} : ∀ {l₁ l₂ r₁ r₂ : Str}, c ∉ l₁ → c ∉ l₂ → l₁ ++ c :: r₁ = l₂ ++ c :: r₂ → l₁ = l₂ ∧ r₁ = r₂
  | [], [], _, _, _, _, h => by simpa using h
  | [], d :: l₂, _, _, _, h2, h => by
    simp only [List.nil_append, List.cons_append, List.cons.injEq] at h
    exact absurd h.1 (fun e => h2 (by simp [e]))
  | d :: l₁, [], _, _, h1, _, h => by
    simp only [List.nil_append, List.cons_append, List.cons.injEq] at h
    exact absurd h.1.symm (fun e => h1 (by simp [e]))
  | d :: l₁, e :: l₂, _, _, h1, h2, h => by
    simp only [List.cons_append, List.cons.injEq] at h
    obtain ⟨a, b⟩ := split_unique (fun hc => h1 (by simp [hc])) (fun hc => h2 (by simp [hc])) h.2
    exact ⟨by rw [h.1, a], b⟩

private theorem digitC_ne : ∀ a < 10, digitC a ≠ '_' ∧ digitC a ≠ '-' ∧ digitC a ≠ '.' ∧ (digitC a = '0' → a = 0) := by decide

private theorem natStr_clean (n : ℕ) : '_' ∉ natStr n ∧ '-' ∉ natStr n ∧ '.' ∉ natStr n := by
  unfold natStr
  split
  · decide
  · have key : ∀ c ∈ (Nat.digits 10 n).reverse.map digitC, c ≠ '_' ∧ c ≠ '-' ∧ c ≠ '.' := by
      intro c hc
      obtain ⟨d, hd, rfl⟩ := List.mem_map.mp hc
      have := digitC_ne d (Nat.digits_lt_base (by norm_num) (List.mem_reverse.mp hd))
      exact ⟨this.1, this.2.1, this.2.2.1⟩
    exact ⟨fun h => (key _ h).1 rfl, fun h => (key _ h).2.1 rfl, fun h => (key _ h).2.2 rfl⟩

private theorem natStr_inj (m n : ℕ) (h : natStr m = natStr n) : m = n := by
  rw [← runVal_natStr m, h, runVal_natStr]

/-- **C106, part.** No segment overwrites the file of another: the name tells the number and the two ends of the segment. -/
theorem C106_names_partial (i j : ℕ) (s t : ℕ × ℕ) (h : segmentName i s = segmentName j t) : i = j ∧ s = t := by
  unfold segmentName at h
  simp only [List.append_assoc, List.append_cancel_left_eq] at h
  obtain ⟨h1, h2⟩ := split_unique (natStr_clean i).1 (natStr_clean j).1 h
  obtain ⟨h3, h4⟩ := split_unique (natStr_clean s.1).2.1 (natStr_clean t.1).2.1 h2
  obtain ⟨h5, -⟩ := split_unique (natStr_clean s.2).2.2 (natStr_clean t.2).2.2 h4
  exact ⟨natStr_inj _ _ h1, Prod.ext (natStr_inj _ _ h3) (natStr_inj _ _ h5)⟩

/-! ### Non-vacuity -/

example : segmentsOf [40, 10, 50, 70, 5] = [(10, 40), (50, 70)] := by decide
example : segmentName 3 (10, 400) = "segment_s3_10-400.dat".toList := by decide +kernel
example : ([3, 5, 9] : List ℕ).Nodup ∧ ([3, 5, 9] : List ℕ)[max 0 2]? = some 9 := by decide

end Shipgrav
