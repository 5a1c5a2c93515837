import Verif.Lemmas.Fwf
import Verif.Model.Bgm
import Verif.Lemmas.MapM

/-! Lemmas about the BGM readers. -/

namespace Shipgrav
open Spec

/-- A line with something but blanks is a record. -/
theorem csvRecords_keep (delim : Char) (lines : List Str) (h : ∀ l ∈ lines, ∃ c ∈ l, csvBlank c = false) : csvRecords delim lines = lines := by
  unfold csvRecords
  rw [List.filter_eq_self]
  intro l hl
  have : l.all csvBlank = false := List.all_eq_false.2 (by
    obtain ⟨c, hc, hb⟩ := h l hl
    exact ⟨c, hc, by simp [hb]⟩)
  rw [this]
  rfl

theorem csvRecords_blank (delim : Char) (u v : List Str) (b : Str) (hb : ∀ c ∈ b, c = ' ' ∨ c = '\t') (hd : b.head? ≠ some delim) :
    csvRecords delim (u ++ b :: v) = csvRecords delim (u ++ v) := by
  have h : (b.all csvBlank && b.head? != some delim) = true := by
    rw [Bool.and_eq_true, List.all_eq_true]
    refine ⟨?_, by simpa using hd⟩
    intro c hc
    rcases hb c hc with rfl | rfl <;> decide
  unfold csvRecords
  rw [List.filter_append, List.filter_append, List.filter_cons_of_neg (by simp [h])]

theorem blank_of_space {s : Str} (h : s.all isSpace = false) : s.all csvBlank = false := by
  rw [List.all_eq_false] at h ⊢
  obtain ⟨c, hc, h⟩ := h
  refine ⟨c, hc, fun hb => h ?_⟩
  unfold csvBlank at hb
  rcases Bool.or_eq_true_iff.1 hb with e | e <;> rw [eq_of_beq e] <;> decide

theorem strip_ne_nil {s : Str} {c : Char} (hc : c ∈ s) (h : isSpace c = false) : strip s ≠ [] := by
  have h1 : lstrip s ≠ [] := by
    unfold lstrip
    intro e
    have := List.dropWhile_eq_nil_iff.1 e c hc
    rw [h] at this
    cases this
  have h2 : ∃ d ∈ lstrip s, isSpace d = false := by
    obtain ⟨d, t, ht⟩ := List.exists_cons_of_ne_nil h1
    refine ⟨d, by rw [ht]; simp, ?_⟩
    have := List.head?_dropWhile_not isSpace s
    unfold lstrip at ht
    rw [ht] at this
    simpa using this
  obtain ⟨d, hd, hs⟩ := h2
  unfold strip rstrip
  intro e
  have := List.dropWhile_eq_nil_iff.1 (List.reverse_eq_nil_iff.1 e) d (List.mem_reverse.2 hd)
  rw [hs] at this
  cases this

/-! ### Blank lines in fixed-width files -/

theorem fwfGo_more (mask : ℕ → Bool) (f : ℕ) : ∀ i st, mask (i + f) = false → fwfGo mask (f + 1) i st = fwfGo mask f i st := by
  induction f with
  | zero =>
    intro i st h
    rw [Nat.add_zero] at h
    cases st <;> simp [fwfGo, h]
  | succ f ih =>
    intro i st h
    have e : mask (i + 1 + f) = false := by rw [← h]; congr 1; omega
    cases st with
    | none =>
      conv_lhs => rw [fwfGo, ih _ _ e, ih _ _ e]
      conv_rhs => rw [fwfGo]
    | some a =>
      conv_lhs => rw [fwfGo, ih _ _ e, ih _ _ e]
      conv_rhs => rw [fwfGo]

theorem fwfGo_long (mask : ℕ → Bool) (m k : ℕ) (h : ∀ i, m ≤ i → mask i = false) : fwfGo mask (m + k) 0 none = fwfGo mask m 0 none := by
  induction k with
  | zero => rfl
  | succ k ih => rw [← Nat.add_assoc, fwfGo_more _ _ _ _ (h _ (by omega)), ih]

theorem foldl_max_insert (x : ℕ) (v : List ℕ) : ∀ (u : List ℕ) (a : ℕ), (u ++ x :: v).foldl max a = max x ((u ++ v).foldl max a) := by
  have push : ∀ (v : List ℕ) (a : ℕ), v.foldl max (max a x) = max x (v.foldl max a) := by
    intro v
    induction v with
    | nil => intro a; exact max_comm _ _
    | cons y v ih => intro a; rw [List.foldl_cons, List.foldl_cons, max_right_comm, ih]
  intro u
  induction u with
  | nil => intro a; exact push v a
  | cons y u ih => intro a; exact ih _

theorem fwfRuns_blank (u v : List Str) (b : Str) (hb : ∀ c ∈ b, c = ' ' ∨ c = '\t') :
    fwfGo (fwfMask (u ++ b :: v)) (((u ++ b :: v).map List.length).foldl max 0) 0 none =
      fwfGo (fwfMask (u ++ v)) (((u ++ v).map List.length).foldl max 0) 0 none := by
  have hm : fwfMask (u ++ b :: v) = fwfMask (u ++ v) := by
    funext i
    unfold fwfMask
    rw [List.any_append, List.any_append, List.any_cons]
    congr 1
    cases h : b[i]? with
    | none => rfl
    | some c => rcases hb c (List.mem_of_getElem? h) with rfl | rfl <;> rfl
  rw [hm, List.map_append, List.map_cons, foldl_max_insert, ← List.map_append]
  set m := ((u ++ v).map List.length).foldl max 0 with hmdef
  obtain ⟨k, hk⟩ := Nat.exists_eq_add_of_le (le_max_right b.length m)
  rw [hk]
  refine fwfGo_long _ _ _ fun i hi => fwfMask_false _ _ fun r hr c hc => ?_
  have h1 := (le_foldl_max ((u ++ v).map List.length) 0).2 _ (List.mem_map.2 ⟨r, hr, rfl⟩)
  rw [List.getElem?_eq_none (by rw [← hmdef] at h1; omega)] at hc
  cases hc

/-- A blank line does not move the fields, if it is not among the rows that are looked at, or all rows are. -/
theorem fwfEdges_blank (u v : List Str) (b : Str) (hb : ∀ c ∈ b, c = ' ' ∨ c = '\t') (h : 100 ≤ u.length ∨ u.length + v.length < 100) :
    fwfEdges (u ++ b :: v) = fwfEdges (u ++ v) := by
  unfold fwfEdges
  rcases h with h | h
  · rw [List.take_append_of_le_length h, List.take_append_of_le_length h]
  · rw [List.take_of_length_le (by simp; omega), List.take_of_length_le (by simp; omega)]
    exact fwfRuns_blank u v b hb

theorem fwfRecords_blank (edges : List (ℕ × ℕ)) (u v : List Str) (b : Str) (hb : ∀ c ∈ b, c = ' ' ∨ c = '\t') :
    fwfRecords edges (u ++ b :: v) = fwfRecords edges (u ++ v) := by
  have h : ∀ e : ℕ × ℕ, fwfField e b = [] := by
    intro e
    have hs : ∀ c ∈ slice e.1 e.2 b, (['\n', '\r', '\t', ' '] : Str).contains c = true := by
      intro c hc
      rcases hb c (List.mem_of_mem_take (List.mem_of_mem_drop hc)) with rfl | rfl <;> decide
    unfold fwfField stripChars rstripChars
    rw [List.dropWhile_eq_nil_iff.2 hs]
    rfl
  unfold fwfRecords
  rw [List.filter_append, List.filter_append, List.filter_cons_of_neg]
  rw [Bool.not_eq_true, List.any_eq_false]
  intro e _
  rw [h e]
  decide

/-- Records of three fields have no leading columns. -/
theorem leadingCols_three (delim : Char) (recs : List Str) (hne : recs ≠ []) (h : ∀ r ∈ recs, (splitC delim r).length = 3) :
    leadingCols delim recs = .ok 0 := by
  obtain ⟨r0, t, rfl⟩ := List.exists_cons_of_ne_nil hne
  unfold leadingCols
  simp only [h r0 (by simp)]
  rw [if_neg]
  · rfl
  · rintro ⟨r, hr, hlt⟩
    rw [h r hr] at hlt
    simp at hlt

theorem splitC_append_any (c : Char) (a b : Str) : splitC c (a ++ c :: b) = splitC c a ++ splitC c b := by
  induction a with
  | nil => simp [splitC]
  | cons x a ih =>
    by_cases h : x = c
    · subst h
      simp [splitC, ih]
    · rw [List.cons_append]
      rw [splitC, if_neg h, ih]
      conv_rhs => rw [splitC, if_neg h]
      cases hs : splitC c a with
      | nil => exact absurd hs (splitC_ne_nil c a)
      | cons y t => simp

theorem countText_ok (chan : Str) (w n : ℕ) (hw : 1 ≤ w) (hn : n < 10 ^ w) : countText (chan ++ ':' :: zpad w n) = .ok (n : ℤ) := by
  unfold countText
  rw [splitC_append_any, splitC_notMem _ _ (zpad_no ':' (by decide) _ _)]
  unfold pyLast
  rw [List.getLast?_concat]
  show pyInt (zpad w n) = _
  unfold pyInt
  rw [parseInt_zpad w n hw hn]

theorem splitC_rest (c : Char) (a rest : Str) (ha : c ∉ a) (hr : Rest c rest) : ∃ t, splitC c (a ++ rest) = a :: t := by
  rcases hr with rfl | ⟨r, rfl⟩
  · rw [List.append_nil, splitC_notMem _ _ ha]; exact ⟨[], rfl⟩
  · rw [splitC_append _ _ _ ha]; exact ⟨_, rfl⟩

/-- The loop reads the files one by one and concatenates. -/
theorem bgmLoop_eq (read : TableReader) (scale : ℚ) (files : List (List Str)) : ∀ dats,
    bgmLoop (some read) scale files dats = (do
      let ts ← files.mapM (fun f => read f >>= addGravity scale)
      (concat (dats ++ ts)).map Ret.val) := by
  induction files with
  | nil =>
    intro dats
    rw [bgmLoop]
    simp only [List.mapM_nil, pure_bind, List.append_nil]
  | cons f fs ih =>
    intro dats
    rw [bgmLoop]
    simp only [List.mapM_cons]
    cases hr : read f with
    | error e => rfl
    | ok t =>
      cases hg : addGravity scale t with
      | error e => simp [hg, bind, Except.bind]
      | ok t' =>
        show (addGravity scale t >>= fun dat => bgmLoop (some read) scale fs (dats ++ [dat])) = _
        rw [hg]
        show bgmLoop (some read) scale fs (dats ++ [t']) = _
        rw [ih]
        have hfg : (read f >>= addGravity scale) = .ok t' := by rw [hr]; exact hg
        cases hm : List.mapM (fun f => read f >>= addGravity scale) fs with
        | error e =>
          rw [← hr, hfg]; rfl
        | ok ts =>
          rw [← hr, hfg]
          show (concat (dats ++ [t'] ++ ts)).map Ret.val = (concat (dats ++ t' :: ts)).map Ret.val
          rw [List.append_assoc]
          rfl

theorem bgmLoop_single (read : TableReader) (scale : ℚ) (f : List Str) :
    bgmLoop (some read) scale [f] [] = (read f >>= addGravity scale).map Ret.val := by
  rw [bgmLoop_eq, mapM_single]
  cases h : (read f >>= addGravity scale) with
  | error e => rfl
  | ok t => simp [bind, Except.bind, Except.map, concat_single]

theorem mapM_mulVal (scale : ℚ) (l : List Val) (gs : List Val) (h : l.mapM (mulVal scale) = .ok gs) :
    gs.length = l.length ∧ ∀ (k : ℕ) v g, l[k]? = some v → gs[k]? = some g →
      (∃ q, v = .num q ∧ g = .num (scale * q)) ∨ (v = .nan ∧ g = .nan) := by
  rw [mapM_ok_iff] at h
  induction h with
  | nil => simp
  | @cons a b as bs hab _ ih =>
    refine ⟨by simp [ih.1], ?_⟩
    intro k v g hv hg
    cases k with
    | zero =>
      simp at hv hg
      subst hv hg
      cases a with
      | num q =>
        simp only [mulVal] at hab
        injection hab with hab
        exact Or.inl ⟨q, rfl, hab.symm⟩
      | nan =>
        simp only [mulVal] at hab
        injection hab with hab
        exact Or.inr ⟨rfl, hab.symm⟩
      | text _ => simp [mulVal] at hab
      | time _ => simp [mulVal] at hab
    | succ k =>
      simp at hv hg
      exact ih.2 k v g hv hg

theorem addGravity_ok (scale : ℚ) (t t' : Table) (h : addGravity scale t = .ok t') :
    "counts".toList ∈ t.cols ∧ ∃ gs, (t.col "counts".toList).mapM (mulVal scale) = .ok gs ∧ gs.length = t.rows.length ∧
      t' = t.set "rgrav".toList gs := by
  unfold addGravity Table.get at h
  split at h
  · rename_i hc
    refine ⟨hc, ?_⟩
    simp only [bind, Except.bind] at h
    cases hm : (t.col "counts".toList).mapM (mulVal scale) with
    | error e => rw [hm] at h; cases h
    | ok gs =>
      rw [hm] at h
      simp only [pure, Except.pure] at h
      injection h with h
      refine ⟨gs, rfl, ?_, h.symm⟩
      rw [(mapM_mulVal scale _ gs hm).1, Table.col_length]
  · cases h

/-- Adding gravity to a table of numeric counts. -/
theorem addGravity_nums {ι : Type} (scale : ℚ) (t : Table) (xs : List ι) (n : ι → ℚ) (hc : "counts".toList ∈ t.cols)
    (hv : t.col "counts".toList = xs.map fun i => .num (n i)) :
    addGravity scale t = .ok (t.set "rgrav".toList (xs.map fun i => .num (scale * n i))) := by
  unfold addGravity Table.get
  rw [if_pos hc]
  simp only [bind, Except.bind]
  rw [hv, mapM_map_ok (fun i => Val.num (n i)) (mulVal scale) (fun i => Val.num (scale * n i)) xs (fun i _ => rfl)]
  rfl

end Shipgrav
