import Verif.Model.Other
import Verif.Spec.Other
import Verif.Lemmas.Dgs

/-! C45, C46: `read_other_stuff`. -/

namespace Shipgrav
open Spec

private theorem flatten_lines (lines : List Str) : (lines.map (· ++ ['\n'])).flatten = joinC '\n' (lines ++ [[]]) := by
  induction lines with
  | nil => rfl
  | cons a l ih =>
    rw [List.map_cons, List.flatten_cons, ih]
    cases l <;> simp [joinC]

private theorem readLines_eq {lines : List Str} {data : Str} (h : FileOf lines data) : readLines data = lines := by
  obtain ⟨hf, h | ⟨h, hne, hl⟩⟩ := h
  · have : splitC '\n' data = lines ++ [[]] := by
      rw [h, flatten_lines]
      apply splitC_joinC _ _ (by simp)
      intro f hm
      rcases List.mem_append.1 hm with hm | hm
      · exact hf f hm
      · rw [List.mem_singleton] at hm; subst hm; simp
    unfold readLines
    simp only
    rw [this]
    simp
  · unfold readLines
    simp only
    rw [h, splitC_joinC _ _ hne hf, if_neg hl]

private theorem tagLoop_eq (tag : Str) (rest : List Str) : ∀ ln lines,
    tagLoop tag ln rest lines = lines ++ ((ln :: rest.map rstrip).dropLast).filter (hasSub tag) := by
  induction rest with
  | nil => intro ln lines; simp [tagLoop]
  | cons next rest ih =>
    intro ln lines
    rw [tagLoop, ih]
    rw [show (ln :: (next :: rest).map rstrip).dropLast = ln :: (rstrip next :: rest.map rstrip).dropLast from rfl, List.filter_cons]
    split <;> simp

private theorem rstrip_split (s : Str) : ∃ w, s = rstrip s ++ w ∧ ∀ c ∈ w, isSpace c = true := by
  refine ⟨(s.reverse.takeWhile isSpace).reverse, ?_, ?_⟩
  · unfold rstrip
    rw [← List.reverse_append, List.takeWhile_append_dropWhile, List.reverse_reverse]
  · intro c hc
    rw [List.mem_reverse] at hc
    exact List.mem_takeWhile_imp hc

private theorem hasSub_rstrip (tag s : Str) (ht : ∀ c ∈ tag, isSpace c = false) : hasSub tag (rstrip s) = decide (tag <:+: s) := by
  unfold hasSub
  rw [decide_eq_decide]
  obtain ⟨w, hw, hsp⟩ := rstrip_split s
  constructor
  · intro h
    rw [hw]
    exact h.trans (List.prefix_append _ _).isInfix
  · rintro ⟨a, b, hab⟩
    rcases List.eq_nil_or_concat tag with rfl | ⟨t, c, rfl⟩
    · exact List.nil_infix
    rw [hw] at hab
    rcases List.append_eq_append_iff.1 hab with ⟨z, hz, -⟩ | ⟨z, hz, hz'⟩
    · exact ⟨a, z, hz.symm⟩
    · rcases List.eq_nil_or_concat z with rfl | ⟨z', d, rfl⟩
      · rw [List.append_nil] at hz
        exact ⟨a, [], by rw [List.append_nil]; exact hz⟩
      · exfalso
        have hcd : c = d := by
          have := congrArg List.getLast? hz
          simpa [List.concat_eq_append] using this
        have h1 := ht c (by simp)
        have h2 := hsp d (by rw [hz']; simp)
        rw [hcd, h2] at h1
        cases h1

private theorem tagLines_eq {lines : List Str} {data : Str} (h : FileOf lines data) (tag : Str) (ht : ∀ c ∈ tag, isSpace c = false) :
    tagLines tag data = (tagged tag lines.dropLast).map rstrip := by
  unfold tagLines
  rw [readLines_eq h]
  cases lines with
  | nil => rfl
  | cons first rest =>
    simp only
    rw [tagLoop_eq, List.nil_append]
    have : (rstrip first :: rest.map rstrip).dropLast = ((first :: rest).dropLast).map rstrip := by
      rw [← List.map_cons (f := rstrip), List.map_dropLast]
    rw [this, List.filter_map]
    unfold tagged
    congr 1
    apply List.filter_congr
    intro s _
    rw [Function.comp_apply, hasSub_rstrip tag s ht]
    congr

/-- The result once the checks have passed. -/
private theorem other_eq {I : Type} (format : List (Str × Str)) (fields : List (Str × I)) (data tag fmt : Str)
    (hd : ¬ startsWith ['$'] tag = true) (hf : format.lookup tag = some fmt) (hne : data ≠ []) (hs : hasSub tag data = true) :
    readOther format fields data tag = ((tagLines tag data).mapM (tagFields ('$' :: tag)) >>= fun recs =>
      frameOf (otherCols fmt) (recs.map Prod.snd) >>= fun df =>
        .ok (df.set "mystery".toList (recs.map fun r => numericOr (some r.1)), colInfo fields (otherCols fmt))) := by
  unfold readOther
  simp only [if_neg hd, hf]
  rw [if_neg hne]
  simp only [hs, if_true]
  rfl

/-- C46.  The tag may be given with or without the dollar sign. -/
theorem C46_dollar_optional {I : Type} (format : List (Str × Str)) (fields : List (Str × I)) (data tag : Str) (hd : tag.head? ≠ some '$') :
    readOther format fields data ('$' :: tag) = readOther format fields data tag := by
  have h1 : startsWith ['$'] ('$' :: tag) = true := rfl
  have h2 : startsWith ['$'] tag = false := by
    cases tag with
    | nil => rfl
    | cons c t =>
      simp only [List.head?_cons, ne_eq, Option.some.injEq] at hd
      simp [startsWith, List.isPrefixOf, Ne.symm hd]
  unfold readOther
  simp only [h1, h2, if_true, Bool.false_eq_true, if_false, List.drop_one, List.tail_cons]

/-- C46.  A tag that is not in the yaml file, or not in the (non-empty) data file, raises `AssertionError`. -/
theorem C46_absent_tag {I : Type} (format : List (Str × Str)) (fields : List (Str × I)) (data tag : Str) (hd : tag.head? ≠ some '$')
    (hne : data ≠ []) (h : (∀ fmt, (tag, fmt) ∉ format) ∨ ¬ tag <:+: data) :
    readOther format fields data tag = .error .assertionError := by
  have h2 : startsWith ['$'] tag = false := by
    cases tag with
    | nil => rfl
    | cons c t =>
      simp only [List.head?_cons, ne_eq, Option.some.injEq] at hd
      simp [startsWith, List.isPrefixOf, Ne.symm hd]
  unfold readOther
  simp only [h2, Bool.false_eq_true, if_false]
  cases hl : format.lookup tag with
  | none => rfl
  | some fmt =>
    simp only
    rw [if_neg hne]
    rcases h with h | h
    · exfalso
      rw [List.lookup_eq_some_iff] at hl
      obtain ⟨l1, l2, rfl, -⟩ := hl
      exact h fmt (by simp)
    · have : hasSub tag data = false := by unfold hasSub; simpa using h
      simp only [this, Bool.false_eq_true, if_false]

private theorem frame_rows (names : List Str) (rows : List (List Str)) (F : Table) (h : frameOf names rows = .ok F) :
    F.rows.length = rows.length := by
  unfold frameOf at h
  split at h
  · cases h
  · injection h with h
    subst h
    exact Table.ofCols_length _ _

private theorem ok_checks {I : Type} (format : List (Str × Str)) (fields : List (Str × I)) (data tag : Str) (R : Table × List (Str × I))
    (hd : ¬ startsWith ['$'] tag = true) (h : readOther format fields data tag = .ok R) :
    ∃ fmt, format.lookup tag = some fmt ∧ data ≠ [] ∧ hasSub tag data = true := by
  unfold readOther at h
  simp only [if_neg hd] at h
  cases hl : format.lookup tag with
  | none => rw [hl] at h; cases h
  | some fmt =>
    refine ⟨fmt, rfl, ?_⟩
    rw [hl] at h
    simp only at h
    by_cases hne : data = []
    · rw [if_pos hne] at h; cases h
    · rw [if_neg hne] at h
      refine ⟨hne, ?_⟩
      by_cases hs : hasSub tag data = true
      · exact hs
      · simp only [hs, Bool.false_eq_true, if_false] at h
        cases h

/-- C45 (in part).  The returned frame has one row for every tagged line except that the last line of the file is ignored.  Missing:
the last line. -/
theorem C45_rows_partial {I : Type} (format : List (Str × Str)) (fields : List (Str × I)) (lines : List Str) (data tag : Str)
    (hfile : FileOf lines data) (ht : ∀ c ∈ tag, isSpace c = false) (hd : tag.head? ≠ some '$') (F : Table) (info : List (Str × I))
    (h : readOther format fields data tag = .ok (F, info)) : F.rows.length = (tagged tag lines.dropLast).length := by
  have hd' : ¬ startsWith ['$'] tag = true := by
    cases tag with
    | nil => simp [startsWith, List.isPrefixOf]
    | cons c t =>
      simp only [List.head?_cons, ne_eq, Option.some.injEq] at hd
      simp [startsWith, List.isPrefixOf, Ne.symm hd]
  obtain ⟨fmt, h1, h2, h3⟩ := ok_checks format fields data tag _ hd' h
  rw [other_eq format fields data tag fmt hd' h1 h2 h3, tagLines_eq hfile tag ht] at h
  cases hm : ((tagged tag lines.dropLast).map rstrip).mapM (tagFields ('$' :: tag)) with
  | error e => rw [hm] at h; cases h
  | ok recs =>
    rw [hm] at h
    replace h : (frameOf (otherCols fmt) (recs.map Prod.snd) >>= fun df =>
        .ok (df.set "mystery".toList (recs.map fun r => numericOr (some r.1)), colInfo fields (otherCols fmt))) = .ok (F, info) := h
    cases hfr : frameOf (otherCols fmt) (recs.map Prod.snd) with
    | error e => rw [hfr] at h; cases h
    | ok df =>
      rw [hfr] at h
      injection h with h
      injection h with h _
      have hl := frame_rows _ _ _ hfr
      rw [List.length_map] at hl
      rw [mapM_ok_iff] at hm
      have := hm.length_eq
      rw [List.length_map] at this
      rw [← h, Table.set_rows_length _ _ _ (by rw [hl, List.length_map]), hl, ← this]

/-- C45 is false: whenever the last line is tagged there is one row too few. -/
theorem C45_last_line_lost {I : Type} (format : List (Str × Str)) (fields : List (Str × I)) (lines : List Str) (last data tag : Str)
    (hfile : FileOf (lines ++ [last]) data) (ht : ∀ c ∈ tag, isSpace c = false) (hd : tag.head? ≠ some '$') (hlast : tag <:+: last)
    (F : Table) (info : List (Str × I)) (h : readOther format fields data tag = .ok (F, info)) :
    F.rows.length + 1 = (tagged tag (lines ++ [last])).length := by
  rw [C45_rows_partial format fields _ data tag hfile ht hd F info h, List.dropLast_concat]
  unfold tagged
  rw [List.filter_append, List.length_append]
  simp [hlast]

/-! ### Fields -/

/-- Trailing empty fields. -/
private def trimmed (fs : List Str) : List Str := (fs.reverse.dropWhile (· = [])).reverse

private theorem joinC_concat (c : Char) (gs : List Str) (g : Str) (h : gs ≠ []) : joinC c (gs ++ [g]) = joinC c gs ++ c :: g := by
  induction gs with
  | nil => exact absurd rfl h
  | cons a gs ih =>
    cases gs with
    | nil => rfl
    | cons b gs =>
      have := ih (by simp)
      simp only [List.cons_append, joinC] at this ⊢
      rw [this]
      simp

private theorem rstrip_commas (fs : List Str) (hc : ∀ f ∈ fs, ',' ∉ f) (h0 : fs.head? ≠ some []) (hne : fs ≠ []) :
    rstripChars [','] (joinC ',' fs) = joinC ',' (trimmed fs) ∧ trimmed fs ≠ [] := by
  induction fs using List.reverseRecOn with
  | nil => exact absurd rfl hne
  | append_singleton gs g ih =>
    by_cases hg : g = []
    · subst hg
      have hgs : gs ≠ [] := by rintro rfl; simp at h0
      have h0' : gs.head? ≠ some [] := by
        obtain ⟨a, t, rfl⟩ := List.exists_cons_of_ne_nil hgs
        simpa using h0
      obtain ⟨i1, i2⟩ := ih (fun f hf => hc f (by simp [hf])) h0' hgs
      have e : trimmed (gs ++ [[]]) = trimmed gs := by
        unfold trimmed
        simp
      rw [e]
      refine ⟨?_, i2⟩
      rw [← i1, joinC_concat _ _ _ hgs]
      unfold rstripChars
      simp
    · have e : trimmed (gs ++ [g]) = gs ++ [g] := by
        unfold trimmed
        simp [hg]
      rw [e]
      refine ⟨?_, by simp⟩
      obtain ⟨g', d, rfl⟩ := (List.eq_nil_or_concat g).resolve_left hg
      have hd : d ≠ ',' := by
        rintro rfl
        exact hc (g' ++ [',']) (by simp) (by simp)
      have : ∃ p, joinC ',' (gs ++ [g' ++ [d]]) = p ++ [d] := by
        cases gs with
        | nil => exact ⟨g', rfl⟩
        | cons a gs => exact ⟨joinC ',' (a :: gs) ++ ',' :: g', by rw [joinC_concat _ _ _ (by simp)]; simp⟩
      obtain ⟨p, hp⟩ := this
      rw [List.concat_eq_append] at *
      rw [hp]
      unfold rstripChars
      simp [hd]

private theorem trimmed_prefix (fs : List Str) : ∃ k, fs = trimmed fs ++ List.replicate k [] := by
  refine ⟨(fs.reverse.takeWhile (· = [])).length, ?_⟩
  have h : fs.reverse.takeWhile (· = []) = List.replicate (fs.reverse.takeWhile (· = [])).length [] := by
    apply List.eq_replicate_of_mem
    intro b hb
    have := List.mem_takeWhile_imp hb
    simpa using this
  have h2 := List.takeWhile_append_dropWhile (p := fun s : Str => decide (s = [])) (l := fs.reverse)
  have h3 := congrArg List.reverse h2
  rw [List.reverse_append, List.reverse_reverse] at h3
  rw [h, List.reverse_replicate] at h3
  exact h3.symm

private theorem trimmed_get (fs : List Str) (j : ℕ) : numericOr (trimmed fs)[j]? = numericOr (some (fs.getD j [])) := by
  obtain ⟨k, hk⟩ := trimmed_prefix fs
  by_cases hj : j < (trimmed fs).length
  · have : fs.getD j [] = (trimmed fs)[j] := by
      rw [List.getD_eq_getElem?_getD]
      have : fs[j]? = (trimmed fs ++ List.replicate k [])[j]? := congrArg (fun l => l[j]?) hk
      rw [this, List.getElem?_append_left hj, List.getElem?_eq_getElem hj]
      rfl
    rw [this, List.getElem?_eq_getElem hj]
  · have h1 : (trimmed fs)[j]? = none := List.getElem?_eq_none (by omega)
    have h2 : fs.getD j [] = [] := by
      rw [List.getD_eq_getElem?_getD]
      have : fs[j]? = (trimmed fs ++ List.replicate k [])[j]? := congrArg (fun l => l[j]?) hk
      rw [this, List.getElem?_append_right (by omega), List.getElem?_replicate]
      split <;> rfl
    rw [h1, h2]
    rfl

private theorem rstrip_line (tag pre : Str) (fs : List Str) (blanks : Str) (hb : ∀ c ∈ blanks, isSpace c = true)
    (hl : ∀ c, (joinC ',' fs).getLast? = some c → isSpace c = false) (hne : joinC ',' fs ≠ []) :
    rstrip (tagLine tag pre fs blanks) = pre ++ ('$' :: tag ++ (',' :: joinC ',' fs)) := by
  obtain ⟨p, d, hp⟩ := (List.eq_nil_or_concat (joinC ',' fs)).resolve_left hne
  rw [List.concat_eq_append] at hp
  have hd : isSpace d = false := hl d (by rw [hp]; simp)
  unfold tagLine rstrip
  rw [hp]
  have : (pre ++ ('$' :: tag ++ (',' :: ((p ++ [d]) ++ blanks)))).reverse = blanks.reverse ++ (d :: (pre ++ ('$' :: tag ++ (',' :: p))).reverse) := by
    simp
  rw [this, List.dropWhile_append_of_pos (by intro c hc; exact hb c (by simpa using hc)), List.dropWhile_cons, if_neg (by simp [hd])]
  simp

private theorem dollar_infix (tag pre : Str) (hp : '$' ∉ pre) : ¬ ('$' :: tag) <:+: pre ++ ('$' :: tag).dropLast := by
  rintro ⟨a, b, hab⟩
  have hlen := congrArg List.length hab
  simp only [List.length_append, List.length_cons, List.length_dropLast] at hlen
  have ha : a.length < pre.length := by omega
  have := congrArg (fun l => l[a.length]?) hab
  rw [List.append_assoc, List.getElem?_append_right (le_refl _), List.getElem?_append_left ha] at this
  simp at this
  apply hp
  exact List.mem_of_getElem? this.symm

private theorem tagFields_line (tag pre : Str) (fs : List Str) (hp : '$' ∉ pre) (hf : ∀ f ∈ fs, ',' ∉ f ∧ '$' ∉ f)
    (h0 : fs.head? ≠ some []) (hne : fs ≠ []) :
    tagFields ('$' :: tag) (pre ++ ('$' :: tag ++ (',' :: joinC ',' fs))) = .ok (pre, trimmed fs) := by
  have hjd : '$' ∉ joinC ',' fs := by
    have : ∀ gs : List Str, (∀ f ∈ gs, '$' ∉ f) → '$' ∉ joinC ',' gs := by
      intro gs
      induction gs with
      | nil => intro _; simp [joinC]
      | cons a gs ih =>
        intro h
        cases gs with
        | nil => rw [joinC]; exact h a (by simp)
        | cons b gs =>
          rw [joinC]
          · intro hm
            rcases List.mem_append.1 hm with hm | hm
            · exact h a (by simp) hm
            · rcases List.mem_cons.1 hm with hm | hm
              · revert hm; decide
              · exact ih (fun f hf => h f (by simp [hf])) hm
          · simp
    exact this fs (fun f h => (hf f h).2)
  have hs : splitS ('$' :: tag) (pre ++ ('$' :: tag ++ (',' :: joinC ',' fs))) = [pre, ',' :: joinC ',' fs] := by
    rw [← List.append_assoc, splitS_first ('$' :: tag) pre _ (by simp) (dollar_infix tag pre hp), splitS_none]
    rintro ⟨a, b, hab⟩
    have : '$' ∈ (',' :: joinC ',' fs) := by rw [← hab]; simp
    rcases List.mem_cons.1 this with h | h
    · revert h; decide
    · exact hjd h
  have h1 : (',' :: joinC ',' fs).dropWhile ([','].contains ·) = joinC ',' fs := by
    obtain ⟨a, t, rfl⟩ := List.exists_cons_of_ne_nil hne
    have ha : a ≠ [] := by simpa using h0
    obtain ⟨c, a', rfl⟩ := List.exists_cons_of_ne_nil ha
    have hc : c ≠ ',' := by rintro rfl; exact (hf (',' :: a') (by simp)).1 (by simp)
    have : ∃ r, joinC ',' ((c :: a') :: t) = c :: r := by
      cases t with
      | nil => exact ⟨a', rfl⟩
      | cons b t => exact ⟨a' ++ ',' :: joinC ',' (b :: t), rfl⟩
    obtain ⟨r, hr⟩ := this
    rw [hr]
    simp [hc]
  have h2 := rstrip_commas fs (fun f h => (hf f h).1) h0 hne
  unfold tagFields
  simp only
  rw [hs]
  show (Except.ok (pre, splitC ',' (stripChars [','] (',' :: joinC ',' fs))) : Except PyErr _) = _
  unfold stripChars
  rw [h1, h2.1, splitC_joinC ',' _ h2.2]
  intro f hfm
  obtain ⟨k, hk⟩ := trimmed_prefix fs
  exact (hf f (by rw [hk]; exact List.mem_append_left _ hfm)).1

private theorem foldl_max_le (l : List ℕ) (m a : ℕ) (ha : a ≤ m) (h : ∀ x ∈ l, x ≤ m) : l.foldl max a ≤ m := by
  induction l generalizing a with
  | nil => exact ha
  | cons x l ih => exact ih (max a x) (by have := h x (by simp); omega) (fun y hy => h y (by simp [hy]))

private theorem le_foldl_max' (l : List ℕ) (a : ℕ) : a ≤ l.foldl max a ∧ ∀ x ∈ l, x ≤ l.foldl max a := by
  induction l generalizing a with
  | nil => simp
  | cons x l ih =>
    obtain ⟨i1, i2⟩ := ih (max a x)
    refine ⟨le_trans (le_max_left _ _) i1, ?_⟩
    intro y hy
    rcases List.mem_cons.1 hy with rfl | hy
    · exact le_trans (le_max_right _ _) i1
    · exact i2 y hy

private theorem lookup_zipIdx (names : List Str) (hn : names.Nodup) (g : ℕ → List Val) (c : Str) (j : ℕ) (hj : names[j]? = some c) :
    (names.zipIdx.map fun c => (c.1, g c.2)).lookup c = some (g j) := by
  have gen : ∀ (names : List Str) (k j : ℕ), names.Nodup → names[j]? = some c →
      ((names.zipIdx k).map fun c => (c.1, g c.2)).lookup c = some (g (k + j)) := by
    intro names
    induction names with
    | nil => intro k j _ h; simp at h
    | cons a names ih =>
      intro k j hnd h
      rw [List.zipIdx_cons, List.map_cons, List.lookup_cons]
      cases j with
      | zero =>
        simp only [List.getElem?_cons_zero, Option.some.injEq] at h
        subst h
        simp
      | succ j =>
        simp only [List.getElem?_cons_succ] at h
        have hne : c ≠ a := by
          rintro rfl
          exact (List.nodup_cons.1 hnd).1 (List.mem_of_getElem? h)
        have : (c == a) = false := by simpa using hne
        simp only [this]
        rw [ih (k + 1) j (List.nodup_cons.1 hnd).2 h]
        congr 2
        omega
  have := gen names 0 j hn hj
  simpa using this

/-- The name that a piece `{name}` of the format stands for. -/
def noBraces (piece : Str) : Str := piece.filter fun c => c ≠ '{' ∧ c ≠ '}'

private theorem filter_joinC (q : Char → Bool) (hq : q ',' = true) (gs : List Str) :
    (joinC ',' gs).filter q = joinC ',' (gs.map fun g => g.filter q) := by
  induction gs with
  | nil => rfl
  | cons a gs ih =>
    cases gs with
    | nil => rfl
    | cons b gs =>
      have e : ∀ (x y : Str) (l : List Str), joinC ',' (x :: y :: l) = x ++ ',' :: joinC ',' (y :: l) := fun _ _ _ => rfl
      rw [e, List.filter_append, List.filter_cons_of_pos (by simpa using hq), ih]
      simp only [List.map_cons]
      rw [e]

private theorem otherCols_text (head : Str) (pieces : List Str) (hp : ∀ p ∈ head :: pieces, ',' ∉ p) :
    otherCols (joinC ',' (head :: pieces)) = pieces.map noBraces := by
  unfold otherCols
  rw [filter_joinC _ (by decide), splitC_joinC ',' _ (by simp)]
  · rfl
  · intro f hf hc
    obtain ⟨g, hg, rfl⟩ := List.mem_map.1 hf
    exact hp g hg (List.mem_of_mem_filter hc)

/-- C46.  The column information, whatever the data file: for the columns in their order, the entry of `fields` under the part of the
name before a colon; columns without an entry are left out. -/
theorem C46_column_info {I : Type} (format : List (Str × Str)) (fields : List (Str × I)) (data tag : Str) (hd : tag.head? ≠ some '$')
    (head : Str) (pieces : List Str) (hp : ∀ p ∈ head :: pieces, ',' ∉ p)
    (hfmt : format.lookup tag = some (joinC ',' (head :: pieces))) (F : Table) (info : List (Str × I))
    (h : readOther format fields data tag = .ok (F, info)) :
    info = (pieces.map noBraces).flatMap fun c => match fields.lookup (c.takeWhile (· ≠ ':')) with
      | some v => [(c, v)]
      | none => [] := by
  have hd' : ¬ startsWith ['$'] tag = true := by
    cases tag with
    | nil => simp [startsWith, List.isPrefixOf]
    | cons c t =>
      simp only [List.head?_cons, ne_eq, Option.some.injEq] at hd
      simp [startsWith, List.isPrefixOf, Ne.symm hd]
  obtain ⟨fmt, h1, h2, h3⟩ := ok_checks format fields data tag _ hd' h
  rw [hfmt, Option.some.injEq] at h1
  subst h1
  rw [other_eq format fields data tag _ hd' hfmt h2 h3, otherCols_text head pieces hp] at h
  cases hm : (tagLines tag data).mapM (tagFields ('$' :: tag)) with
  | error e => rw [hm] at h; cases h
  | ok recs =>
    rw [hm] at h
    replace h : (frameOf (pieces.map noBraces) (recs.map Prod.snd) >>= fun df =>
        .ok (df.set "mystery".toList (recs.map fun r => numericOr (some r.1)), colInfo fields (pieces.map noBraces))) = .ok (F, info) := h
    cases hfr : frameOf (pieces.map noBraces) (recs.map Prod.snd) with
    | error e => rw [hfr] at h; cases h
    | ok df =>
      rw [hfr] at h
      injection h with h
      injection h with _ h
      rw [← h]
      unfold colInfo
      generalize pieces.map noBraces = names
      induction names with
      | nil => rfl
      | cons c names ih =>
        rw [List.filterMap_cons, List.flatMap_cons, ih, splitC_head]
        simp only
        cases fields.lookup (c.takeWhile (· ≠ ':')) <;> rfl

/-- C46 (in part).  If the first field of every tagged line is not empty, the fields after the tag go to the columns of those names in
order, converted to numbers where they are numbers and to NaN where they are empty, and the text before the tag to `mystery`
(also converted if it is a number).  Missing: lines whose first field is empty. -/
theorem C46_fields_partial {I ι : Type} (format : List (Str × Str)) (fields : List (Str × I)) (lines : List Str) (data tag fmt : Str)
    (hfile : FileOf lines data) (ht : ∀ c ∈ tag, isSpace c = false) (hd : tag.head? ≠ some '$') (hsub : tag <:+: data)
    (hfmt : format.lookup tag = some fmt) (head : Str) (pieces : List Str) (hp : ∀ p ∈ head :: pieces, ',' ∉ p)
    (htext : fmt = joinC ',' (head :: pieces)) (names : List Str) (hnames : names = pieces.map noBraces) (hn : names.Nodup)
    (hm : "mystery".toList ∉ names)
    (xs : List ι) (pre blanks : ι → Str) (fs : ι → List Str)
    (hlines : tagged tag lines.dropLast = xs.map fun i => tagLine tag (pre i) (fs i) (blanks i))
    (hx : ∀ i ∈ xs, '$' ∉ pre i ∧ (∀ c ∈ blanks i, isSpace c = true) ∧ (∀ f ∈ fs i, ',' ∉ f ∧ '$' ∉ f) ∧
      (fs i).length = names.length ∧ (fs i).head? ≠ some [] ∧ ∀ c, (joinC ',' (fs i)).getLast? = some c → isSpace c = false)
    (hlast : ∃ i ∈ xs, ∃ f, (fs i).getLast? = some f ∧ f ≠ []) :
    ∃ F info, readOther format fields data tag = .ok (F, info) ∧ F.cols = names ++ ["mystery".toList] ∧
      (∀ (j : ℕ) c, names[j]? = some c → F.col c = xs.map fun i => numericOr (some ((fs i).getD j []))) ∧
      F.col "mystery".toList = xs.map fun i => numericOr (some (pre i)) := by
  have hnames' : otherCols fmt = names := by rw [htext, otherCols_text head pieces hp, hnames]
  clear hnames htext
  subst hnames'
  have hd' : ¬ startsWith ['$'] tag = true := by
    cases tag with
    | nil => simp [startsWith, List.isPrefixOf]
    | cons c t =>
      simp only [List.head?_cons, ne_eq, Option.some.injEq] at hd
      simp [startsWith, List.isPrefixOf, Ne.symm hd]
  obtain ⟨i0, hi0, f0, hf0, hf0'⟩ := hlast
  have hfs : ∀ i ∈ xs, fs i ≠ [] := by
    have h0 : fs i0 ≠ [] := by intro h; rw [h] at hf0; simp at hf0
    intro i hi h
    have h1 := (hx i hi).2.2.2.1
    have h2 := (hx i0 hi0).2.2.2.1
    rw [h] at h1
    rw [← h1] at h2
    exact h0 (List.length_eq_zero_iff.1 h2)
  have hj : ∀ i ∈ xs, joinC ',' (fs i) ≠ [] := by
    intro i hi h
    obtain ⟨a, t, he⟩ := List.exists_cons_of_ne_nil (hfs i hi)
    have ha : a ≠ [] := by
      have := (hx i hi).2.2.2.2.1
      rw [he] at this
      simpa using this
    rw [he] at h
    cases t with
    | nil => exact ha h
    | cons b t => simp [joinC, ha] at h
  have hne : data ≠ [] := by
    rintro rfl
    have hl := readLines_eq hfile
    have : readLines [] = [] := by decide
    rw [this] at hl
    rw [← hl] at hlines
    simp [tagged] at hlines
    rw [hlines] at hi0
    cases hi0
  have hrec : ((tagged tag lines.dropLast).map rstrip).mapM (tagFields ('$' :: tag)) = .ok (xs.map fun i => (pre i, trimmed (fs i))) := by
    rw [hlines, List.map_map]
    apply mapM_map_ok
    intro i hi
    obtain ⟨h1, h2, h3, h4, h5, h6⟩ := hx i hi
    simp only [Function.comp_def]
    rw [rstrip_line tag _ _ _ h2 h6 (hj i hi)]
    exact tagFields_line tag _ _ h1 h3 h5 (hfs i hi)
  have hlen : ∀ i ∈ xs, (trimmed (fs i)).length ≤ (otherCols fmt).length := by
    intro i hi
    obtain ⟨k, hk⟩ := trimmed_prefix (fs i)
    have := congrArg List.length hk
    rw [(hx i hi).2.2.2.1, List.length_append] at this
    omega
  have hlen0 : (trimmed (fs i0)).length = (otherCols fmt).length := by
    rw [← (hx i0 hi0).2.2.2.1]
    obtain ⟨g, f, he⟩ := (List.eq_nil_or_concat (fs i0)).resolve_left (hfs i0 hi0)
    rw [List.concat_eq_append] at he
    rw [he] at hf0
    simp at hf0
    subst hf0
    rw [he]
    unfold trimmed
    simp [hf0']
  have hframe : frameOf (otherCols fmt) ((xs.map fun i => (pre i, trimmed (fs i))).map Prod.snd) =
      .ok (Table.ofCols xs.length ((otherCols fmt).zipIdx.map fun c => (c.1, xs.map fun i => numericOr (some ((fs i).getD c.2 []))))) := by
    unfold frameOf
    rw [if_neg]
    · simp only [List.map_map, List.length_map]
      congr 3
      funext c
      congr 1
      apply List.map_congr_left
      intro i _
      exact trimmed_get (fs i) c.2
    · rintro ⟨-, h⟩
      apply h
      simp only [List.map_map]
      apply le_antisymm
      · apply foldl_max_le _ _ _ (Nat.zero_le _)
        intro n hn
        obtain ⟨i, hi, rfl⟩ := List.mem_map.1 hn
        exact hlen i hi
      · rw [← hlen0]
        exact (le_foldl_max' _ _).2 _ (List.mem_map.2 ⟨i0, hi0, rfl⟩)
  have hl : (xs.map fun i => numericOr (some (pre i))).length = (Table.ofCols xs.length ((otherCols fmt).zipIdx.map fun c =>
      (c.1, xs.map fun i => numericOr (some ((fs i).getD c.2 []))))).rows.length := by
    rw [Table.ofCols_length, List.length_map]
  have hc : (Table.ofCols xs.length ((otherCols fmt).zipIdx.map fun c =>
      (c.1, xs.map fun i => numericOr (some ((fs i).getD c.2 []))))).cols = otherCols fmt := by
    unfold Table.ofCols
    simp only [List.map_map]
    show (otherCols fmt).zipIdx.map Prod.fst = _
    exact List.zipIdx_map_fst _ _
  refine ⟨(Table.ofCols xs.length ((otherCols fmt).zipIdx.map fun c => (c.1, xs.map fun i => numericOr (some ((fs i).getD c.2 []))))).set
    "mystery".toList (xs.map fun i => numericOr (some (pre i))), colInfo fields (otherCols fmt), ?_, ?_, ?_, ?_⟩
  · rw [other_eq format fields data tag fmt hd' hfmt hne (by unfold hasSub; simpa using hsub), tagLines_eq hfile tag ht, hrec]
    show (frameOf (otherCols fmt) ((xs.map fun i => (pre i, trimmed (fs i))).map Prod.snd) >>= fun df => _) = _
    rw [hframe]
    simp only [List.map_map]
    rfl
  · unfold Table.set
    simp only
    rw [hc, if_neg hm]
  · intro j c hjc
    rw [Table.set_col _ _ _ hl, if_neg]
    · exact Table.ofCols_col _ _ _ _ (lookup_zipIdx _ hn (fun j => xs.map fun i => numericOr (some ((fs i).getD j []))) c j hjc) (by simp)
    · rintro rfl
      exact hm (List.mem_of_getElem? hjc)
  · rw [Table.set_col _ _ _ hl, if_pos rfl]

/-- C46.  What the conversion does: a number becomes that number, … -/
theorem C46_number (s : Str) (q : ℚ) (h : NumText s q) : numericOr (some s) = .num q := by
  have hn := numText_parse h
  unfold numText at hn
  unfold numericOr
  simp only
  split at hn
  · cases hn
  · rename_i hna
    rw [if_neg (by rintro rfl; exact hna (by decide))]
    split at hn
    · cases hn
    · rename_i hu
      rw [if_neg hu]
      cases hp : parseFloat s with
      | none => rw [hp] at hn; cases hn
      | some v =>
        rw [hp] at hn
        cases v with
        | fin r => simp only [Option.some.injEq, Val.num.injEq] at hn; subst hn; rfl
        | inf b => simp at hn
        | nan => simp at hn

/-- C46.  … and a text with a character that no number has stays. -/
theorem C46_text (s : Str) (h : '$' ∈ s ∨ ':' ∈ s ∨ '/' ∈ s ∨ '*' ∈ s ∨ 'U' ∈ s) : numericOr (some s) = .text s := by
  have hne : s ≠ [] := by rintro rfl; simp at h
  have hp : parseFloat s = none := by
    rcases h with h | h | h | h | h
    · exact parseFloat_foreign _ s h (by decide)
    · exact parseFloat_foreign _ s h (by decide)
    · exact parseFloat_foreign _ s h (by decide)
    · exact parseFloat_foreign _ s h (by decide)
    · exact parseFloat_foreign _ s h (by decide)
  unfold numericOr
  simp only
  rw [if_neg hne, hp]
  split <;> rfl

private theorem kept (s : Str) : CellOf s (numericOr (some s)) where
  number := C46_number s
  empty := by rintro rfl; rfl
  text := by
    rintro ⟨c, hc, hf⟩
    unfold numericOr
    simp only
    rw [if_neg (by rintro rfl; cases hc), parseFloat_foreign c s hc hf]
    split <;> rfl

/-- C46 (in part).  The same, field by field: one row per tagged line, in order; its value in the column of the j-th name is the j-th field of the
line, and that in `mystery` is the text before the tag.  Missing: lines whose first field is empty. -/
theorem C46_values_partial {I ι : Type} (format : List (Str × Str)) (fields : List (Str × I)) (lines : List Str) (data tag fmt : Str)
    (hfile : FileOf lines data) (ht : ∀ c ∈ tag, isSpace c = false) (hd : tag.head? ≠ some '$') (hsub : tag <:+: data)
    (hfmt : format.lookup tag = some fmt) (head : Str) (pieces : List Str) (hp : ∀ p ∈ head :: pieces, ',' ∉ p)
    (htext : fmt = joinC ',' (head :: pieces)) (names : List Str) (hnames : names = pieces.map noBraces) (hn : names.Nodup)
    (hm : "mystery".toList ∉ names)
    (xs : List ι) (pre blanks : ι → Str) (fs : ι → List Str)
    (hlines : tagged tag lines.dropLast = xs.map fun i => tagLine tag (pre i) (fs i) (blanks i))
    (hx : ∀ i ∈ xs, '$' ∉ pre i ∧ (∀ c ∈ blanks i, isSpace c = true) ∧ (∀ f ∈ fs i, ',' ∉ f ∧ '$' ∉ f) ∧
      (fs i).length = names.length ∧ (fs i).head? ≠ some [] ∧ ∀ c, (joinC ',' (fs i)).getLast? = some c → isSpace c = false)
    (hlast : ∃ i ∈ xs, ∃ f, (fs i).getLast? = some f ∧ f ≠ []) :
    ∃ F info, readOther format fields data tag = .ok (F, info) ∧ F.cols = names ++ ["mystery".toList] ∧
      (∀ (j : ℕ) c, names[j]? = some c → List.Forall₂ (fun i v => ∃ f, (fs i)[j]? = some f ∧ CellOf f v) xs (F.col c)) ∧
      List.Forall₂ (fun i v => CellOf (pre i) v) xs (F.col "mystery".toList) := by
  obtain ⟨F, info, h1, h2, h3, h4⟩ := C46_fields_partial format fields lines data tag fmt hfile ht hd hsub hfmt head pieces hp htext names hnames
    hn hm xs pre blanks fs hlines hx hlast
  refine ⟨F, info, h1, h2, ?_, ?_⟩
  · intro j c hj
    rw [h3 j c hj, List.forall₂_map_right_iff, List.forall₂_same]
    intro i hi
    have hlt : j < (fs i).length := by
      rw [(hx i hi).2.2.2.1]
      exact (List.getElem?_eq_some_iff.1 hj).1
    refine ⟨(fs i)[j], List.getElem?_eq_getElem hlt, ?_⟩
    rw [List.getD_eq_getElem _ _ hlt]
    exact kept _
  · rw [h4, List.forall₂_map_right_iff, List.forall₂_same]
    exact fun i _ => kept _

private def exFormat : List (Str × Str) := [("PASHR".toList, "$PASHR,{a},{b}".toList)]
private def exShift : Str := "x $PASHR,1,2\ny $PASHR,,5\nend\n".toList

/-- C46 is false for lines whose first field is empty: the other fields move one column to the left.  Here the second line has nothing
in the first field and 5 in the second one, but the frame says the opposite. -/
theorem C46_empty_first_field_refuted : ∃ (F : Table), readOther (I := Unit) exFormat [] exShift "PASHR".toList = .ok (F, []) ∧
    F.col "a".toList = [.num 1, .num 5] ∧ F.col "b".toList = [.num 2, .nan] := by
  have h : (tagLines "PASHR".toList exShift).mapM (tagFields ('$' :: "PASHR".toList)) =
      .ok [("x ".toList, ["1".toList, "2".toList]), ("y ".toList, ["5".toList])] := by decide +kernel
  have hcols : (otherCols "$PASHR,{a},{b}".toList).zipIdx.map (fun c => (c.1,
      [["1".toList, "2".toList], ["5".toList]].map fun r => numericOr r[c.2]?)) =
      [("a".toList, [.num 1, .num 5]), ("b".toList, [.num 2, .nan])] := by decide +kernel
  have hframe : frameOf (otherCols "$PASHR,{a},{b}".toList) [["1".toList, "2".toList], ["5".toList]] =
      .ok (Table.ofCols 2 [("a".toList, [.num 1, .num 5]), ("b".toList, [.num 2, .nan])]) := by
    unfold frameOf
    rw [if_neg (by decide +kernel), hcols]
    rfl
  refine ⟨(Table.ofCols 2 [("a".toList, [.num 1, .num 5]), ("b".toList, [.num 2, .nan])]).set "mystery".toList
    ([("x ".toList, ["1".toList, "2".toList]), ("y ".toList, ["5".toList])].map fun r => numericOr (some r.1)), ?_, ?_, ?_⟩
  · rw [other_eq exFormat [] exShift "PASHR".toList "$PASHR,{a},{b}".toList (by decide) (by decide) (by decide) (by decide +kernel), h]
    have e : [("x ".toList, ["1".toList, "2".toList]), ("y ".toList, ["5".toList])].map Prod.snd =
      [["1".toList, "2".toList], ["5".toList]] := rfl
    simp only [bind, Except.bind]
    rw [e, hframe]
    have ci : colInfo ([] : List (Str × Unit)) (otherCols "$PASHR,{a},{b}".toList) = [] := by decide +kernel
    rw [ci]
  · decide +kernel
  · decide +kernel

/-! ### The hypotheses can be met -/

private def exLines : List Str := ["12:00 $PASHR,1.5,2\r".toList, "junk".toList, "$PASHR,7,".toList, "$PASHR,8,9".toList]
private def exFile : Str := "12:00 $PASHR,1.5,2\r\njunk\n$PASHR,7,\n$PASHR,8,9".toList

private theorem exFileOf : FileOf exLines exFile := ⟨by decide, Or.inr ⟨by decide +kernel, by decide, by decide⟩⟩

example := C46_fields_partial (I := Unit) exFormat [] exLines exFile "PASHR".toList "$PASHR,{a},{b}".toList exFileOf (by decide) (by decide)
  (by decide +kernel) (by decide) "$PASHR".toList ["{a}".toList, "{b}".toList] (by decide) (by decide +kernel) ["a".toList, "b".toList] (by decide +kernel) (by decide) (by decide)
  [("12:00 ".toList, ["1.5".toList, "2".toList], "\r".toList), ([], ["7".toList, []], [])]
  (fun x => x.1) (fun x => x.2.2) (fun x => x.2.1) (by decide +kernel) (by decide) ⟨_, List.mem_cons_self, "2".toList, by decide, by decide⟩

example := C46_values_partial (I := Unit) exFormat [] exLines exFile "PASHR".toList "$PASHR,{a},{b}".toList exFileOf (by decide) (by decide)
  (by decide +kernel) (by decide) "$PASHR".toList ["{a}".toList, "{b}".toList] (by decide) (by decide +kernel) ["a".toList, "b".toList] (by decide +kernel) (by decide) (by decide)
  [("12:00 ".toList, ["1.5".toList, "2".toList], "\r".toList), ([], ["7".toList, []], [])]
  (fun x => x.1) (fun x => x.2.2) (fun x => x.2.1) (by decide +kernel) (by decide) ⟨_, List.mem_cons_self, "2".toList, by decide, by decide⟩

example : ∃ F info, readOther (I := Unit) exFormat [] exFile "$PASHR".toList = .ok (F, info) ∧ F.rows.length = 2 := by
  obtain ⟨F, info, h, -⟩ := C46_fields_partial (I := Unit) exFormat [] exLines exFile "PASHR".toList "$PASHR,{a},{b}".toList exFileOf (by decide)
    (by decide) (by decide +kernel) (by decide) "$PASHR".toList ["{a}".toList, "{b}".toList] (by decide) (by decide +kernel) ["a".toList, "b".toList] (by decide +kernel) (by decide) (by decide)
    [("12:00 ".toList, ["1.5".toList, "2".toList], "\r".toList), ([], ["7".toList, []], [])]
    (fun x => x.1) (fun x => x.2.2) (fun x => x.2.1) (by decide +kernel) (by decide) ⟨_, List.mem_cons_self, "2".toList, by decide, by decide⟩
  refine ⟨F, info, ?_, ?_⟩
  · rw [← h]; exact C46_dollar_optional _ _ _ "PASHR".toList (by decide)
  · rw [C45_rows_partial exFormat [] exLines exFile _ exFileOf (by decide) (by decide) F info h]
    decide +kernel

example : ∃ F info, readOther exFormat [("b".toList, 7)] exFile "PASHR".toList = .ok (F, info) ∧ info = [("b".toList, 7)] := by
  obtain ⟨F, info, h, -⟩ := C46_fields_partial exFormat [("b".toList, 7)] exLines exFile "PASHR".toList "$PASHR,{a},{b}".toList exFileOf
    (by decide) (by decide) (by decide +kernel) (by decide) "$PASHR".toList ["{a}".toList, "{b}".toList] (by decide) (by decide +kernel)
    ["a".toList, "b".toList] (by decide +kernel) (by decide) (by decide)
    [("12:00 ".toList, ["1.5".toList, "2".toList], "\r".toList), ([], ["7".toList, []], [])]
    (fun x => x.1) (fun x => x.2.2) (fun x => x.2.1) (by decide +kernel) (by decide) ⟨_, List.mem_cons_self, "2".toList, by decide, by decide⟩
  refine ⟨F, info, h, ?_⟩
  rw [C46_column_info exFormat _ exFile "PASHR".toList (by decide) "$PASHR".toList ["{a}".toList, "{b}".toList] (by decide) (by decide +kernel)
    F info h]
  decide +kernel

example := C45_last_line_lost (I := Unit) exFormat [] (exLines.dropLast) "$PASHR,8,9".toList exFile "PASHR".toList exFileOf (by decide) (by decide)
  (by decide +kernel)

end Shipgrav
