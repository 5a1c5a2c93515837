import Verif.Model.Serial
import Verif.Spec.Serial
import Verif.Spec.Other
import Verif.Props.DgsRaw
import Verif.Props.Toml

/-! C115, C116: clean-up of serial files and calibration of their channels. -/

namespace Shipgrav
open Spec

/-! ### Lines -/

private theorem joinC_snoc (c : Char) (gs : List Str) (g : Str) (h : gs ≠ []) : joinC c (gs ++ [g]) = joinC c gs ++ c :: g := by
  induction gs with
  | nil => exact absurd rfl h
  | cons a gs ih =>
    cases gs with
    | nil => rfl
    | cons b gs =>
      have := ih (by simp)
      simp only [List.cons_append, joinC] at this ⊢
      rw [this]
      simp

private theorem textOf_joinC (lines : List Str) (tail : Str) : serialText lines tail = joinC '\n' (lines ++ [tail]) := by
  unfold serialText
  induction lines with
  | nil => rfl
  | cons a l ih =>
    rw [List.map_cons, List.flatten_cons, List.append_assoc, ih]
    cases l <;> simp [joinC]

private theorem split_text (lines : List Str) (tail : Str) (h : ∀ l ∈ lines, '\n' ∉ l) (ht : '\n' ∉ tail) :
    splitC '\n' (serialText lines tail) = lines ++ [tail] := by
  rw [textOf_joinC, splitC_joinC]
  · simp
  · intro f hf
    rcases List.mem_append.1 hf with hf | hf
    · exact h f hf
    · rw [List.mem_singleton] at hf; subst hf; exact ht

private theorem readlines_text (lines : List Str) (tail : Str) (h : ∀ l ∈ lines, '\n' ∉ l) (ht : '\n' ∉ tail) :
    readlines (serialText lines tail) = lines.map (· ++ ['\n']) ++ (if tail = [] then [] else [tail]) := by
  unfold readlines
  rw [split_text lines tail h ht, List.dropLast_concat]
  simp

private theorem count_joinC (fs : List Str) (hne : fs ≠ []) (h : ∀ f ∈ fs, ',' ∉ f) : (joinC ',' fs).count ',' + 1 = fs.length := by
  induction fs with
  | nil => exact absurd rfl hne
  | cons a fs ih =>
    cases fs with
    | nil => simpa [joinC] using List.count_eq_zero.2 (h a (by simp))
    | cons b fs =>
      have := ih (by simp) (fun f hf => h f (by simp [hf]))
      have ha := List.count_eq_zero.2 (h a (by simp))
      rw [show joinC ',' (a :: b :: fs) = a ++ ',' :: joinC ',' (b :: fs) from rfl, List.count_append, List.count_cons_self, ha]
      simp only [List.length_cons] at this ⊢
      omega

private theorem split_length (s : Str) : (splitC ',' s).length = s.count ',' + 1 := by
  have := count_joinC (splitC ',' s) (splitC_ne_nil _ _) (splitC_no_sep ',' s)
  rw [joinC_splitC] at this
  exact this.symm

private theorem keep_iff (l : Str) : keepLine l = decide (Kept l) := by
  unfold keepLine Kept hasSub
  rw [split_length]
  by_cases h1 : "AT1M".toList <:+: l <;> by_cases h2 : l.count ',' = 18 <;> simp [h1, h2]

private theorem kept_feed (l : Str) : Kept (l ++ ['\n']) ↔ Kept l := by
  unfold Kept
  rw [List.infix_concat_iff, List.count_append]
  have h : ¬ "AT1M".toList <:+ l ++ ['\n'] := by
    rintro ⟨a, h⟩
    have := congrArg List.getLast? h
    rw [show "AT1M".toList = ['A', 'T', '1'] ++ ['M'] from rfl, ← List.append_assoc] at this
    simp at this
  rw [or_iff_right h]
  simp

private theorem not_kept_nil : ¬ Kept [] := by decide

private theorem cleaned_text (lines : List Str) (tail : Str) (h : ∀ l ∈ lines, '\n' ∉ l) (ht : '\n' ∉ tail) :
    ((readlines (serialText lines tail)).filter keepLine).flatten = recordsOf lines tail := by
  rw [readlines_text lines tail h ht, List.filter_append, List.flatten_append, List.filter_map]
  unfold recordsOf serialText
  congr 1
  · refine congrArg List.flatten (congrArg (List.map _) ?_)
    apply List.filter_congr
    intro l _
    rw [Function.comp_apply, keep_iff]
    exact decide_eq_decide.2 (kept_feed l)
  · by_cases h0 : tail = []
    · subst h0
      simp [not_kept_nil]
    · rw [if_neg h0]
      by_cases hk : Kept tail
      · rw [if_pos hk, List.filter_cons_of_pos (by rw [keep_iff]; simpa using hk)]; simp
      · rw [if_neg hk, List.filter_cons_of_neg (by rw [keep_iff]; simpa using hk)]; simp

private theorem text_exists (s : Str) : ∃ lines tail, (∀ l ∈ lines, '\n' ∉ l) ∧ '\n' ∉ tail ∧ s = serialText lines tail := by
  obtain ⟨lines, tail, h⟩ := (List.eq_nil_or_concat (splitC '\n' s)).resolve_left (splitC_ne_nil _ _)
  rw [List.concat_eq_append] at h
  have hn := splitC_no_sep '\n' s
  rw [h] at hn
  refine ⟨lines, tail, fun l hl => hn l (by simp [hl]), hn tail (by simp), ?_⟩
  rw [textOf_joinC, ← h, joinC_splitC]

/-! ### Paths -/

private theorem cleaned_split (p : Str) :
    splitC '/' (cleanedPath p) = (splitC '/' p).dropLast ++ ["clean_".toList ++ (splitC '/' p).getLastD []] := by
  unfold cleanedPath
  simp only
  have hn := splitC_no_sep '/' p
  have hne := splitC_ne_nil '/' p
  rw [splitC_joinC]
  · simp
  · intro f hf
    rcases List.mem_append.1 hf with hf | hf
    · exact hn f (List.dropLast_subset _ hf)
    · rw [List.mem_singleton] at hf
      subst hf
      intro hm
      rcases List.mem_append.1 hm with hm | hm
      · revert hm; decide
      · rw [List.getLastD_eq_getLast?, List.getLast?_eq_some_getLast hne] at hm
        exact hn _ (List.getLast_mem hne) hm

private theorem cleaned_injective (p q : Str) (h : cleanedPath p = cleanedPath q) : p = q := by
  have h' := congrArg (splitC '/') h
  rw [cleaned_split, cleaned_split] at h'
  obtain ⟨h1, h2⟩ := List.append_inj' h' rfl
  have h3 : (splitC '/' p).getLastD [] = (splitC '/' q).getLastD [] := by simpa using h2
  have e : splitC '/' p = splitC '/' q := by
    rw [← List.dropLast_append_getLast (splitC_ne_nil '/' p), ← List.dropLast_append_getLast (splitC_ne_nil '/' q), h1]
    rw [List.getLastD_eq_getLast?, List.getLastD_eq_getLast?, List.getLast?_eq_some_getLast (splitC_ne_nil '/' p),
      List.getLast?_eq_some_getLast (splitC_ne_nil '/' q)] at h3
    simpa using h3
  rw [← joinC_splitC '/' p, ← joinC_splitC '/' q, e]

private theorem cleaned_dir (dir name : Str) (hd : dir = [] ∨ dir.getLast? = some '/') (hn : '/' ∉ name) :
    cleanedPath (dir ++ name) = dir ++ ("clean_".toList ++ name) := by
  unfold cleanedPath
  simp only
  rcases hd with rfl | hd
  · rw [List.nil_append, splitC_notMem '/' name hn]
    rfl
  · obtain ⟨d, c, rfl⟩ := (List.eq_nil_or_concat dir).resolve_left (by rintro rfl; simp at hd)
    rw [List.concat_eq_append] at hd ⊢
    have hc : c = '/' := by simpa using hd
    subst hc
    rw [List.append_assoc, List.singleton_append, splitC_append_any, splitC_notMem '/' name hn, List.dropLast_concat,
      joinC_snoc '/' _ _ (splitC_ne_nil _ _), joinC_splitC]
    simp

private theorem cleanPath_iff (p x : Str) : CleanPath p x ↔ x = cleanedPath p := by
  constructor
  · rintro ⟨dir, name, hd, hn, rfl, rfl⟩
    exact (cleaned_dir dir name hd hn).symm
  · rintro rfl
    obtain ⟨ds, name, h⟩ := (List.eq_nil_or_concat (splitC '/' p)).resolve_left (splitC_ne_nil _ _)
    rw [List.concat_eq_append] at h
    have hn : '/' ∉ name := splitC_no_sep '/' p name (by rw [h]; simp)
    have hp : p = joinC '/' (ds ++ [name]) := by rw [← h, joinC_splitC]
    by_cases h0 : ds = []
    · subst h0
      have : p = [] ++ name := hp
      exact ⟨[], name, Or.inl rfl, hn, this, by rw [this]; exact cleaned_dir [] name (Or.inl rfl) hn⟩
    · rw [joinC_snoc '/' ds name h0] at hp
      have : p = (joinC '/' ds ++ ['/']) ++ name := by rw [hp]; simp
      exact ⟨joinC '/' ds ++ ['/'], name, Or.inr (by simp), hn, this,
        by rw [this]; exact cleaned_dir _ name (Or.inr (by simp)) hn⟩

/-! ### The loop -/

private theorem step_keeps (fs fs' : Files) (p : Str) (h : cleanOne fs p = some fs') (x t : Str) (hx : fs x = some t) : fs' x = some t := by
  unfold cleanOne at h
  simp only at h
  cases ho : fs (cleanedPath p) with
  | some t' => rw [ho] at h; simp only [Option.some.injEq] at h; rw [← h]; exact hx
  | none =>
    rw [ho] at h
    cases hp : fs p with
    | none => rw [hp] at h; cases h
    | some text =>
      rw [hp] at h
      simp only [Option.some.injEq] at h
      rw [← h, Function.update_of_ne]
      · exact hx
      · rintro rfl; rw [ho] at hx; cases hx

private theorem step_other (fs fs' : Files) (p : Str) (h : cleanOne fs p = some fs') (x : Str) (hx : cleanedPath p ≠ x) : fs' x = fs x := by
  unfold cleanOne at h
  simp only at h
  cases ho : fs (cleanedPath p) with
  | some t' => rw [ho] at h; simp only [Option.some.injEq] at h; rw [← h]
  | none =>
    rw [ho] at h
    cases hp : fs p with
    | none => rw [hp] at h; cases h
    | some text =>
      rw [hp] at h
      simp only [Option.some.injEq] at h
      rw [← h, Function.update_of_ne (Ne.symm hx)]

private theorem step_new (fs fs' : Files) (p text : Str) (h : cleanOne fs p = some fs') (hp : fs p = some text)
    (ho : fs (cleanedPath p) = none) : fs' (cleanedPath p) = some ((readlines text).filter keepLine).flatten := by
  unfold cleanOne at h
  simp only [ho, hp, Option.some.injEq] at h
  rw [← h, Function.update_self]

private theorem step_some (fs : Files) (p : Str) : cleanOne fs p = none ↔ fs (cleanedPath p) = none ∧ fs p = none := by
  unfold cleanOne
  simp only
  cases fs (cleanedPath p) <;> cases fs p <;> simp

private theorem step_has (fs fs' : Files) (p : Str) (h : cleanOne fs p = some fs') : fs' (cleanedPath p) ≠ none := by
  cases ho : fs (cleanedPath p) with
  | some t => rw [step_keeps fs fs' p h _ t ho]; simp
  | none =>
    cases hp : fs p with
    | none => rw [(step_some fs p).2 ⟨ho, hp⟩] at h; cases h
    | some text => rw [step_new fs fs' p text h hp ho]; simp

private theorem fold_keeps (paths : List Str) : ∀ fs fs' : Files, paths.foldlM cleanOne fs = some fs' → ∀ x t, fs x = some t → fs' x = some t := by
  induction paths with
  | nil => intro fs fs' h x t hx; simp only [List.foldlM_nil, pure, Option.some.injEq] at h; rw [← h]; exact hx
  | cons p paths ih =>
    intro fs fs' h x t hx
    rw [List.foldlM_cons] at h
    cases hs : cleanOne fs p with
    | none => rw [hs] at h; cases h
    | some fs1 => rw [hs] at h; exact ih fs1 fs' h x t (step_keeps fs fs1 p hs x t hx)

private theorem fold_other (paths : List Str) : ∀ fs fs' : Files, paths.foldlM cleanOne fs = some fs' →
    ∀ x, (∀ p ∈ paths, cleanedPath p ≠ x) → fs' x = fs x := by
  induction paths with
  | nil => intro fs fs' h x _; simp only [List.foldlM_nil, pure, Option.some.injEq] at h; rw [← h]
  | cons p paths ih =>
    intro fs fs' h x hx
    rw [List.foldlM_cons] at h
    cases hs : cleanOne fs p with
    | none => rw [hs] at h; cases h
    | some fs1 =>
      rw [hs] at h
      rw [ih fs1 fs' h x (fun q hq => hx q (by simp [hq])), step_other fs fs1 p hs x (hx p (by simp))]

private theorem fold_has (paths : List Str) : ∀ fs fs' : Files, paths.foldlM cleanOne fs = some fs' →
    ∀ p ∈ paths, fs' (cleanedPath p) ≠ none := by
  induction paths with
  | nil => intro fs fs' _ p hp; cases hp
  | cons p paths ih =>
    intro fs fs' h q hq
    rw [List.foldlM_cons] at h
    cases hs : cleanOne fs p with
    | none => rw [hs] at h; cases h
    | some fs1 =>
      rw [hs] at h
      rcases List.mem_cons.1 hq with rfl | hq
      · obtain ⟨t, ht⟩ := Option.ne_none_iff_exists'.1 (step_has fs fs1 q hs)
        rw [fold_keeps paths fs1 fs' h _ t ht]; simp
      · exact ih fs1 fs' h q hq

private theorem fold_new (paths : List Str) : ∀ fs fs' : Files, paths.foldlM cleanOne fs = some fs' →
    ∀ p ∈ paths, ∀ text, fs p = some text → fs (cleanedPath p) = none →
      fs' (cleanedPath p) = some ((readlines text).filter keepLine).flatten := by
  induction paths with
  | nil => intro fs fs' _ p hp; cases hp
  | cons p paths ih =>
    intro fs fs' h q hq text ht ho
    rw [List.foldlM_cons] at h
    cases hs : cleanOne fs p with
    | none => rw [hs] at h; cases h
    | some fs1 =>
      rw [hs] at h
      by_cases hpq : p = q
      · subst hpq
        exact fold_keeps paths fs1 fs' h _ _ (step_new fs fs1 p text hs ht ho)
      · have hq : q ∈ paths := by
          rcases List.mem_cons.1 hq with rfl | hq
          · exact absurd rfl hpq
          · exact hq
        exact ih fs1 fs' h q hq text (step_keeps fs fs1 p hs q text ht)
          (by rw [step_other fs fs1 p hs _ (fun e => hpq (cleaned_injective p q e))]; exact ho)

private theorem fold_none (paths : List Str) : ∀ fs : Files, (∀ p ∈ paths, cleanedPath p ∉ paths) →
    (paths.foldlM cleanOne fs = none ↔ ∃ p ∈ paths, fs p = none ∧ fs (cleanedPath p) = none) := by
  have gen : ∀ (paths all : List Str) (fs : Files), paths ⊆ all → (∀ p ∈ all, cleanedPath p ∉ all) →
      (paths.foldlM cleanOne fs = none ↔ ∃ p ∈ paths, fs p = none ∧ fs (cleanedPath p) = none) := by
    intro paths all
    induction paths with
    | nil => intro fs _ _; simp
    | cons p paths ih =>
      intro fs hsub hd
      rw [List.foldlM_cons]
      cases hs : cleanOne fs p with
      | none =>
        obtain ⟨h1, h2⟩ := (step_some fs p).1 hs
        exact iff_of_true rfl ⟨p, by simp, h2, h1⟩
      | some fs1 =>
        have hp : ¬ (fs (cleanedPath p) = none ∧ fs p = none) := by rw [← step_some, hs]; simp
        show paths.foldlM cleanOne fs1 = none ↔ _
        rw [ih fs1 (fun q hq => hsub (by simp [hq])) hd]
        have e : ∀ q ∈ all, fs1 q = fs q := fun q hq => step_other fs fs1 p hs q (by
          rintro rfl; exact hd p (hsub (by simp)) hq)
        constructor
        · rintro ⟨q, hq, h1, h2⟩
          have hqp : p ≠ q := by rintro rfl; exact step_has fs fs1 p hs h2
          refine ⟨q, by simp [hq], by rw [← e q (hsub (by simp [hq]))]; exact h1, ?_⟩
          rw [← step_other fs fs1 p hs _ (fun e => hqp (cleaned_injective p q e))]
          exact h2
        · rintro ⟨q, hq, h1, h2⟩
          have hqp : p ≠ q := by rintro rfl; exact hp ⟨h2, h1⟩
          have hq' : q ∈ paths := by
            rcases List.mem_cons.1 hq with rfl | h
            · exact absurd rfl hqp
            · exact h
          refine ⟨q, hq', by rw [e q (hsub hq)]; exact h1, ?_⟩
          rw [step_other fs fs1 p hs _ (fun e => hqp (cleaned_injective p q e))]
          exact h2
  intro fs hd
  exact gen paths paths fs (fun _ h => h) hd

private theorem clean_eq {fs : Files} {paths : List Str} {fs' : Files} {out : List Str} (h : cleanSerial fs paths = some (fs', out)) :
    paths.foldlM cleanOne fs = some fs' ∧ out = (paths.map cleanedPath).mergeSort (fun a b => decide (a ≤ b)) := by
  unfold cleanSerial at h
  cases hf : paths.foldlM cleanOne fs with
  | none => rw [hf] at h; cases h
  | some g =>
    rw [hf] at h
    simp only [Option.map_some, Option.some.injEq, Prod.mk.injEq] at h
    exact ⟨by rw [h.1], h.2.symm⟩

/-- C115.  Whatever files exist, no file is changed or removed, and the only new ones are the cleaned files of the given ones. -/
theorem C115_others_untouched (fs : Files) (paths : List Str) (fs' : Files) (out : List Str) (h : cleanSerial fs paths = some (fs', out)) :
    (∀ x t, fs x = some t → fs' x = some t) ∧ ∀ x, (∀ p ∈ paths, ¬ CleanPath p x) → fs' x = fs x :=
  ⟨fold_keeps paths fs fs' (clean_eq h).1, fun x hx =>
    fold_other paths fs fs' (clean_eq h).1 x (fun p hp e => hx p hp ((cleanPath_iff p x).2 e.symm))⟩

/-- C115.  A cleaned file that did not exist before has exactly the records of its file, in order, character for character. -/
theorem C115_records (fs : Files) (paths : List Str) (fs' : Files) (out : List Str) (h : cleanSerial fs paths = some (fs', out))
    (p x : Str) (hp : p ∈ paths) (hx : CleanPath p x) (hnew : fs x = none) (lines : List Str) (tail : Str)
    (hl : ∀ l ∈ lines, '\n' ∉ l) (ht : '\n' ∉ tail) (htext : fs p = some (serialText lines tail)) :
    fs' x = some (recordsOf lines tail) := by
  rw [cleanPath_iff] at hx
  subst hx
  rw [fold_new paths fs fs' (clean_eq h).1 p hp _ htext hnew, cleaned_text lines tail hl ht]

/-- C115.  The list that is handed on: the paths of the cleaned files, sorted; all of them exist. -/
theorem C115_list (fs : Files) (paths : List Str) (fs' : Files) (out : List Str) (h : cleanSerial fs paths = some (fs', out)) :
    (∃ xs, List.Forall₂ CleanPath paths xs ∧ out.Perm xs) ∧ out.Pairwise (· ≤ ·) ∧ ∀ x ∈ out, fs' x ≠ none := by
  obtain ⟨h1, h2⟩ := clean_eq h
  have hperm : out.Perm (paths.map cleanedPath) := by rw [h2]; exact List.mergeSort_perm _ _
  refine ⟨⟨paths.map cleanedPath, ?_, hperm⟩, ?_, ?_⟩
  · rw [List.forall₂_map_right_iff, List.forall₂_same]
    intro p _
    exact (cleanPath_iff p _).2 rfl
  · rw [h2]
    have := List.pairwise_mergeSort (le := fun a b : Str => decide (a ≤ b))
      (fun a b c hab hbc => by simp only [decide_eq_true_eq] at *; exact List.le_trans hab hbc)
      (fun a b => by simpa using List.le_total a b) (paths.map cleanedPath)
    simpa using this
  · intro x hx
    obtain ⟨p, hp, rfl⟩ := List.mem_map.1 (hperm.mem_iff.1 hx)
    exact fold_has paths fs fs' h1 p hp

/-- C115.  Running it again changes nothing. -/
theorem C115_twice (fs : Files) (paths : List Str) (fs' : Files) (out : List Str) (h : cleanSerial fs paths = some (fs', out)) :
    cleanSerial fs' paths = some (fs', out) := by
  obtain ⟨h1, h2⟩ := clean_eq h
  have : ∀ ps : List Str, (∀ p ∈ ps, fs' (cleanedPath p) ≠ none) → ps.foldlM cleanOne fs' = some fs' := by
    intro ps
    induction ps with
    | nil => intro _; rfl
    | cons p ps ih =>
      intro hp
      obtain ⟨t, ht⟩ := Option.ne_none_iff_exists'.1 (hp p (by simp))
      have e : cleanOne fs' p = some fs' := by unfold cleanOne; simp only [ht]
      rw [List.foldlM_cons, e]
      exact ih (fun q hq => hp q (by simp [hq]))
  unfold cleanSerial
  rw [this paths (fold_has paths fs fs' h1), h2]
  rfl

/-- C115.  It raises exactly if one of the files does not exist and has not been cleaned before (none of the files being the cleaned file
of another one). -/
theorem C115_raises_iff (fs : Files) (paths : List Str) (hd : ∀ p ∈ paths, ∀ x ∈ paths, ¬ CleanPath p x) :
    cleanSerial fs paths = none ↔ ∃ p ∈ paths, fs p = none ∧ ∀ x, CleanPath p x → fs x = none := by
  unfold cleanSerial
  rw [Option.map_eq_none_iff, fold_none paths fs (fun p hp hx => hd p hp _ hx ((cleanPath_iff p _).2 rfl))]
  simp only [cleanPath_iff, forall_eq]

/-- C115.  The cleaned file is not brought up to date: if the file changes after a first run, a second run leaves the records of the old
file in place. -/
theorem C115_stale (fs : Files) (p x : Str) (hx : CleanPath p x) (hnew : fs x = none) (lines : List Str) (tail : Str)
    (hl : ∀ l ∈ lines, '\n' ∉ l) (ht : '\n' ∉ tail) (htext : fs p = some (serialText lines tail)) (changed : Str) :
    ∃ fs₁ fs₂, cleanSerial fs [p] = some (fs₁, [x]) ∧ cleanSerial (Function.update fs₁ p (some changed)) [p] = some (fs₂, [x]) ∧
      fs₂ p = some changed ∧ fs₂ x = some (recordsOf lines tail) := by
  rw [cleanPath_iff] at hx
  subst hx
  have hne : cleanedPath p ≠ p := by
    intro e; rw [e, htext] at hnew; cases hnew
  refine ⟨Function.update fs (cleanedPath p) (some (recordsOf lines tail)), Function.update (Function.update fs (cleanedPath p)
    (some (recordsOf lines tail))) p (some changed), ?_, ?_, ?_, ?_⟩
  · unfold cleanSerial cleanOne
    simp only [List.foldlM_cons, List.foldlM_nil, hnew, htext, List.map_cons, List.map_nil, List.mergeSort_singleton,
      cleaned_text lines tail hl ht]
    rfl
  · unfold cleanSerial cleanOne
    simp only [List.foldlM_cons, List.foldlM_nil, List.map_cons, List.map_nil, List.mergeSort_singleton]
    rw [Function.update_of_ne hne, Function.update_self]
    rfl
  · rw [Function.update_self]
  · rw [Function.update_of_ne hne, Function.update_self]

/-- C115.  End to end: a serial file in which broken lines stand between proper records is cleaned and read as the table of the proper
records. -/
theorem C115_read {ι : Type} (dates : Dates) (fs : Files) (p x : Str) (hx : CleanPath p x) (hnew : fs x = none)
    (lines : List Str) (tail : Str) (hl : ∀ l ∈ lines, '\n' ∉ l) (ht : '\n' ∉ tail) (hk : ¬ Kept tail)
    (htext : fs p = some (serialText lines tail)) (xs : List ι) (hne : xs ≠ []) (rec : ι → List Str) (q : ι → ℕ → ℚ) (s : ι → Sample)
    (hrec : ∀ i ∈ xs, RawRecord (rec i) (q i) ∧ (s i).Valid ∧ (s i).f = 0 ∧ 2000 ≤ (s i).y ∧ q i 18 = stampNumber (s i) ∧
      WholeText ((rec i).getD 18 []))
    (hlines : (lines.filter fun l => decide (Kept l)) = xs.map fun i => joinC ',' (rec i)) :
    ∃ fs' text F, cleanSerial fs [p] = some (fs', [x]) ∧ fs' x = some text ∧ FileOf (xs.map fun i => joinC ',' (rec i)) text ∧
      readDgsRaw dates (.one (xs.map fun i => joinC ',' (rec i))) "Ride".toList false = .ok F ∧
      F.cols = rawColumns.map Prod.fst ++ ["date_time".toList] ∧ RawTable xs rec q F ∧
      F.col "date_time".toList = xs.map fun i => .time (s i).instant := by
  obtain ⟨fs', -, h1, -⟩ := C115_stale fs p x hx hnew lines tail hl ht htext []
  have h2 := C115_records fs [p] fs' [x] h1 p x (by simp) hx hnew lines tail hl ht htext
  obtain ⟨F, hF⟩ := C43_synced dates "Ride".toList (by decide) (by decide) xs hne rec q s hrec
  refine ⟨fs', _, F, h1, h2, ⟨?_, Or.inl ?_⟩, hF⟩
  · rw [← hlines]
    intro l hl'
    exact hl l (List.mem_of_mem_filter hl')
  · unfold recordsOf serialText
    rw [if_neg hk, hlines, List.append_nil]

/-! ### Calibration -/

private theorem drop_to (pre rest : List ConfStmt) (t : Str) (h : ConfStmt.table t ∉ pre) :
    ((pre ++ (.table t :: rest)).dropWhile (· ≠ .table t)).drop 1 = rest := by
  rw [List.dropWhile_append_of_pos (by intro a ha; simp only [ne_eq, decide_not, Bool.not_eq_eq_eq_not, Bool.not_true, decide_eq_false_iff_not]; rintro rfl; exact h ha)]
  simp

private theorem confGet_has {doc : List ConfStmt} {table key : Str} {v : ConfVal} (h : ConfHas doc table key v) :
    confGet doc table key = .ok v := by
  obtain ⟨pre, body, post, rfl, h1, h2, h3, h4⟩ := h
  unfold confGet
  simp only
  rw [drop_to pre (body ++ post) table h1, List.takeWhile_append_of_pos (by intro a ha; obtain ⟨k, w, rfl⟩ := h2 a ha; rfl),
    List.findSome?_append]
  have : body.findSome? (entryVal key) = some v := by
    clear h1
    induction body with
    | nil => cases h3
    | cons s body ih =>
      obtain ⟨k, w, rfl⟩ := h2 _ List.mem_cons_self
      rw [List.findSome?_cons]
      by_cases hk : k = key
      · subst hk
        have : w = v := h4 w (by simp)
        subst this
        simp [entryVal]
      · simp only [entryVal, if_neg hk]
        refine ih (fun s hs => h2 s (by simp [hs])) ?_ (fun w hw => h4 w (by simp [hw]))
        rcases List.mem_cons.1 h3 with h | h
        · simp only [ConfStmt.pair.injEq] at h; exact absurd h.1.symm hk
        · exact h
  rw [this]
  rfl

private theorem confGet_lacks {doc : List ConfStmt} {table key : Str} (h : ConfLacks doc table key) :
    confGet doc table key = .error .keyError := by
  unfold confGet
  rcases h with h | ⟨pre, body, post, rfl, h1, h2, h3⟩
  · have : doc.dropWhile (· ≠ .table table) = [] := by
      rw [List.dropWhile_eq_nil_iff]
      intro a ha
      simp only [ne_eq, decide_not, Bool.not_eq_eq_eq_not, Bool.not_true, decide_eq_false_iff_not]
      rintro rfl
      exact h ha
    simp only [this, List.drop_nil, List.takeWhile_nil, List.findSome?_nil]
  · simp only
    rw [drop_to pre (body ++ post) table h1, List.takeWhile_append_of_pos (by intro a ha; obtain ⟨k, w, rfl, -⟩ := h2 a ha; rfl)]
    have hp : post.takeWhile isEntry = [] := by
      rcases h3 with rfl | ⟨t, rest, rfl⟩ <;> rfl
    rw [hp, List.append_nil]
    have : body.findSome? (entryVal key) = none := by
      rw [List.findSome?_eq_none_iff]
      intro s hs
      obtain ⟨k, w, rfl, hk⟩ := h2 s hs
      simp [entryVal, hk]
    rw [this]

private theorem affine_numeric (gain offset : ℚ) (v : Val) (h : Numeric v) : affineVal gain offset v = .ok (onNum (fun q => q * gain + offset) v) := by
  rcases h with rfl | ⟨q, rfl⟩ <;> rfl

private theorem onNum_numeric (f : ℚ → ℚ) (v : Val) (h : Numeric v) : Numeric (onNum f v) := by
  rcases h with rfl | ⟨q, rfl⟩
  · exact Or.inl rfl
  · exact Or.inr ⟨_, rfl⟩

private theorem channel_ok (doc : List ConfStmt) (c : Channel) (g o : ℚ) (t : Table) (hc : c.raw ∈ t.cols) (hv : ∀ v ∈ t.col c.raw, Numeric v)
    (hg : ConfHas doc "Sensor".toList c.gain (.num g)) (ho : ConfHas doc "Sensor".toList c.offset (.num o)) :
    calChannel doc c.counts c.raw c.cal c.gain c.offset t = .ok (t.set c.cal ((t.col c.raw).map (onNum fun q => q * g / c.counts + o))) := by
  unfold calChannel Table.get
  rw [if_pos hc, confGet_has hg, confGet_has ho]
  have := mapM_map_ok (fun v : Val => v) (affineVal (g / c.counts) o) (onNum fun q => q * (g / c.counts) + o) (t.col c.raw)
    (fun v h => affine_numeric _ _ v (hv v h))
  rw [List.map_id'] at this
  simp only [bind, Except.bind, confNum, this, pure, Except.pure]
  have e : (fun q => q * (g / c.counts) + o) = fun q => q * g / c.counts + o := by
    funext q; rw [mul_div_assoc]
  rw [e]

private def calAll (doc : List ConfStmt) (cs : List Channel) (t : Table) : Except PyErr Table :=
  cs.foldlM (fun t c => calChannel doc c.counts c.raw c.cal c.gain c.offset t) t

private theorem calibrate_eq (doc : List ConfStmt) (t : Table) :
    calibrate doc t = (calAll doc channels t >>= fun t => do
      let v ← t.get "grav_cal".toList
      return t.set "grav".toList (← v.mapM (affineVal 1 (9688957718 / 10000)))) := by
  unfold calAll channels calibrate
  simp only [List.foldlM_cons, List.foldlM_nil, bind_assoc, show (2 : ℚ) ^ 23 - 1 = 8388607 by norm_num, pure_bind]

private theorem calAll_ok (doc : List ConfStmt) (g o : Channel → ℚ) (cs : List Channel) : ∀ t : Table,
    (∀ c ∈ cs, c.raw ∈ t.cols ∧ (∀ v ∈ t.col c.raw, Numeric v) ∧ ConfHas doc "Sensor".toList c.gain (.num (g c)) ∧
      ConfHas doc "Sensor".toList c.offset (.num (o c))) →
    (∀ c ∈ cs, ∀ d ∈ cs, c.raw ≠ d.cal) → (cs.map Channel.cal).Nodup → (∀ c ∈ cs, c.cal ∉ t.cols) →
    ∃ F, calAll doc cs t = .ok F ∧ F.rows.length = t.rows.length ∧ F.cols = t.cols ++ cs.map Channel.cal ∧
      (∀ c ∈ cs, F.col c.cal = (t.col c.raw).map (onNum fun q => q * g c / c.counts + o c)) ∧
      ∀ x, x ∉ cs.map Channel.cal → F.col x = t.col x := by
  induction cs with
  | nil => intro t _ _ _ _; exact ⟨t, rfl, rfl, by simp, by simp, fun _ _ => rfl⟩
  | cons c cs ih =>
    intro t h1 h2 h3 h4
    obtain ⟨a1, a2, a3, a4⟩ := h1 c (by simp)
    have hlen : ((t.col c.raw).map (onNum fun q => q * g c / c.counts + o c)).length = t.rows.length := by
      rw [List.length_map, Table.col_length]
    have hcols : (t.set c.cal ((t.col c.raw).map (onNum fun q => q * g c / c.counts + o c))).cols = t.cols ++ [c.cal] := by
      unfold Table.set
      simp only
      rw [if_neg (h4 c (by simp))]
    rw [List.map_cons, List.nodup_cons] at h3
    obtain ⟨F, f1, f2, f3, f4, f5⟩ := ih (t.set c.cal ((t.col c.raw).map (onNum fun q => q * g c / c.counts + o c))) (by
        intro d hd
        obtain ⟨b1, b2, b3, b4⟩ := h1 d (by simp [hd])
        refine ⟨by rw [hcols]; simp [b1], ?_, b3, b4⟩
        rw [Table.set_col _ _ _ hlen, if_neg (h2 d (by simp [hd]) c (by simp))]
        exact b2)
      (fun d hd e he => h2 d (by simp [hd]) e (by simp [he])) h3.2 (by
        intro d hd
        rw [hcols, List.mem_append, List.mem_singleton]
        rintro (h | h)
        · exact h4 d (by simp [hd]) h
        · exact h3.1 (h ▸ List.mem_map_of_mem hd))
    refine ⟨F, ?_, by rw [f2, Table.set_rows_length _ _ _ hlen], by rw [f3, hcols]; simp, ?_, ?_⟩
    · unfold calAll
      rw [List.foldlM_cons, channel_ok doc c (g c) (o c) t a1 a2 a3 a4]
      exact f1
    · intro d hd
      rcases List.mem_cons.1 hd with rfl | hd
      · rw [f5 _ h3.1, Table.set_col _ _ _ hlen, if_pos rfl]
      · rw [f4 d hd, Table.set_col _ _ _ hlen, if_neg (h2 d (by simp [hd]) c (by simp))]
    · intro x hx
      rw [List.map_cons, List.mem_cons, not_or] at hx
      rw [f5 x hx.2, Table.set_col _ _ _ hlen, if_neg hx.1]

private theorem calAll_missing (doc : List ConfStmt) (g o : Channel → ℚ) (cs : List Channel) : ∀ t : Table,
    (∀ c ∈ cs, c.raw ∈ t.cols ∧ (∀ v ∈ t.col c.raw, Numeric v) ∧
      (ConfHas doc "Sensor".toList c.gain (.num (g c)) ∨ ConfLacks doc "Sensor".toList c.gain) ∧
      (ConfHas doc "Sensor".toList c.offset (.num (o c)) ∨ ConfLacks doc "Sensor".toList c.offset)) →
    (∀ c ∈ cs, ∀ d ∈ cs, c.raw ≠ d.cal) →
    (∃ c ∈ cs, ConfLacks doc "Sensor".toList c.gain ∨ ConfLacks doc "Sensor".toList c.offset) →
    calAll doc cs t = .error .keyError := by
  induction cs with
  | nil => intro t _ _ h; simp at h
  | cons c cs ih =>
    intro t h1 h2 h3
    obtain ⟨a1, a2, a3, a4⟩ := h1 c (by simp)
    unfold calAll
    rw [List.foldlM_cons]
    by_cases hg : ConfLacks doc "Sensor".toList c.gain
    · unfold calChannel Table.get
      rw [if_pos a1, confGet_lacks hg]
      rfl
    have hg' := a3.resolve_right hg
    by_cases ho : ConfLacks doc "Sensor".toList c.offset
    · unfold calChannel Table.get
      rw [if_pos a1, confGet_has hg', confGet_lacks ho]
      rfl
    have ho' := a4.resolve_right ho
    rw [channel_ok doc c (g c) (o c) t a1 a2 hg' ho']
    have hlen : ((t.col c.raw).map (onNum fun q => q * g c / c.counts + o c)).length = t.rows.length := by
      rw [List.length_map, Table.col_length]
    refine ih (t.set c.cal ((t.col c.raw).map (onNum fun q => q * g c / c.counts + o c))) ?_
      (fun d hd e he => h2 d (by simp [hd]) e (by simp [he])) ?_
    · intro d hd
      obtain ⟨b1, b2, b3, b4⟩ := h1 d (by simp [hd])
      refine ⟨?_, ?_, b3, b4⟩
      · unfold Table.set
        simp only
        split
        · exact b1
        · simp [b1]
      · rw [Table.set_col _ _ _ hlen, if_neg (h2 d (by simp [hd]) c (by simp))]
        exact b2
    · obtain ⟨d, hd, h⟩ := h3
      rcases List.mem_cons.1 hd with rfl | hd
      · exact absurd h (by tauto)
      · exact ⟨d, hd, h⟩

/-- C116.  With gains and offsets for all channels, every calibrated column is `counts · gain / full scale + offset`, NaN staying NaN; `grav`
is the calibrated gravity plus the bias; all other columns are as before. -/
theorem C116_calibrated (doc : List ConfStmt) (t : Table) (g o : Channel → ℚ)
    (hraw : ∀ c ∈ channels, c.raw ∈ t.cols ∧ ∀ v ∈ t.col c.raw, Numeric v)
    (hconf : ∀ c ∈ channels, ConfHas doc "Sensor".toList c.gain (.num (g c)) ∧ ConfHas doc "Sensor".toList c.offset (.num (o c)))
    (hnew : ∀ x ∈ channels.map Channel.cal ++ ["grav".toList], x ∉ t.cols) :
    ∃ F, calibrate doc t = .ok F ∧ F.cols = t.cols ++ channels.map Channel.cal ++ ["grav".toList] ∧
      (∀ c ∈ channels, F.col c.cal = (t.col c.raw).map (onNum fun q => q * g c / c.counts + o c)) ∧
      F.col "grav".toList = (F.col "grav_cal".toList).map (onNum fun q => q + 968895.7718) ∧
      ∀ x ∈ t.cols, F.col x = t.col x := by
  obtain ⟨F, f1, f2, f3, f4, f5⟩ := calAll_ok doc g o channels t (fun c hc => ⟨(hraw c hc).1, (hraw c hc).2, hconf c hc⟩)
    (by decide) (by decide) (fun c hc => hnew _ (List.mem_append_left _ (List.mem_map_of_mem hc)))
  have hgc : "grav_cal".toList ∈ F.cols := by
    rw [f3]; exact List.mem_append_right _ (by decide)
  have hnum : ∀ v ∈ F.col "grav_cal".toList, Numeric v := by
    have := f4 ⟨"Gravity".toList, "grav_cal".toList, "GravCal".toList, "g0".toList, 2 ^ 23 - 1⟩ (by simp [channels])
    simp only at this
    rw [this]
    intro v hv
    obtain ⟨w, hw, rfl⟩ := List.mem_map.1 hv
    exact onNum_numeric _ _ ((hraw ⟨"Gravity".toList, "grav_cal".toList, "GravCal".toList, "g0".toList, 2 ^ 23 - 1⟩ (by simp [channels])).2 w hw)
  have hm := mapM_map_ok (fun v : Val => v) (affineVal 1 (9688957718 / 10000)) (onNum fun q => q * 1 + 9688957718 / 10000)
    (F.col "grav_cal".toList) (fun v h => affine_numeric _ _ v (hnum v h))
  rw [List.map_id'] at hm
  have e : (fun q : ℚ => q * 1 + 9688957718 / 10000) = fun q => q + 968895.7718 := by funext q; norm_num
  rw [e] at hm
  have hlen : ((F.col "grav_cal".toList).map (onNum fun q => q + 968895.7718)).length = F.rows.length := by
    rw [List.length_map, Table.col_length]
  have hg : "grav".toList ∉ F.cols := by
    rw [f3, List.mem_append]
    rintro (h | h)
    · exact hnew _ (by simp) h
    · revert h; decide
  refine ⟨F.set "grav".toList ((F.col "grav_cal".toList).map (onNum fun q => q + 968895.7718)), ?_, ?_, ?_, ?_, ?_⟩
  · rw [calibrate_eq, f1]
    simp only [bind, Except.bind, Table.get, if_pos hgc, hm, pure, Except.pure]
  · unfold Table.set
    simp only
    rw [if_neg hg, f3]
  · intro c hc
    rw [Table.set_col _ _ _ hlen, if_neg (by revert c; decide)]
    exact f4 c hc
  · rw [Table.set_col _ _ _ hlen, Table.set_col _ _ _ hlen, if_pos rfl, if_neg (by decide)]
  · intro x hx
    rw [Table.set_col _ _ _ hlen, if_neg (by rintro rfl; exact hnew _ (by simp) hx)]
    exact f5 x (fun h => hnew x (List.mem_append_left _ h) hx)

/-- C116.  If the configuration lacks a gain or an offset, `KeyError` is raised. -/
theorem C116_missing_key (doc : List ConfStmt) (t : Table) (g o : Channel → ℚ)
    (hraw : ∀ c ∈ channels, c.raw ∈ t.cols ∧ ∀ v ∈ t.col c.raw, Numeric v)
    (hconf : ∀ c ∈ channels, (ConfHas doc "Sensor".toList c.gain (.num (g c)) ∨ ConfLacks doc "Sensor".toList c.gain) ∧
      (ConfHas doc "Sensor".toList c.offset (.num (o c)) ∨ ConfLacks doc "Sensor".toList c.offset))
    (hmiss : ∃ c ∈ channels, ConfLacks doc "Sensor".toList c.gain ∨ ConfLacks doc "Sensor".toList c.offset) :
    calibrate doc t = .error .keyError := by
  rw [calibrate_eq, calAll_missing doc g o channels t (fun c hc => ⟨(hraw c hc).1, (hraw c hc).2, hconf c hc⟩) (by decide) hmiss]
  rfl

/-- C116.  End to end from the ini file of the meter: the file is converted, read as TOML, and its gains and offsets are those applied. -/
theorem C116_from_ini (es : List IniEntry) (hp : ∀ e ∈ es, e.Proper ∧ e.Clean) (hn : (confPaths [] (es.filterMap IniEntry.meaning)).Nodup)
    (t : Table) (g o : Channel → ℚ) (hraw : ∀ c ∈ channels, c.raw ∈ t.cols ∧ ∀ v ∈ t.col c.raw, Numeric v)
    (hconf : ∀ c ∈ channels, ConfHas (es.filterMap IniEntry.meaning) "Sensor".toList c.gain (.num (g c)) ∧
      ConfHas (es.filterMap IniEntry.meaning) "Sensor".toList c.offset (.num (o c)))
    (hnew : ∀ x ∈ channels.map Channel.cal ++ ["grav".toList], x ∉ t.cols) :
    ∃ w doc F, cleanIni (joinC '\n' (es.map IniEntry.line)) = (w, none) ∧ tomlDoc w = some doc ∧ calibrate doc t = .ok F ∧
      (∀ c ∈ channels, F.col c.cal = (t.col c.raw).map (onNum fun q => q * g c / c.counts + o c)) ∧
      ∀ x ∈ t.cols, F.col x = t.col x := by
  obtain ⟨w, h1, h2⟩ := C108_document_partial es hp hn
  obtain ⟨F, f1, -, f3, -, f5⟩ := C116_calibrated _ t g o hraw hconf hnew
  exact ⟨w, _, F, h1, h2, f1, f3, f5⟩

/-! ### The hypotheses can be met -/

private def exSample : Sample := ⟨2022, 7, 1, 12, 17, 33, 1, 0, 1, 0⟩
private theorem exSample_valid : exSample.Valid :=
  ⟨by decide, by decide, by decide, by decide, by decide, by decide, by decide, by decide⟩

private def exLine : Str := joinC ',' (exRaw "$AT1M_u" "20220701121733")

private def exLines : List Str := ["$AT1M_u,1,2".toList, exLine, "1,2,3,4,5,6,7,8,9,10,11,12,13,14,15,16,17,18,19".toList, exLine]

private def exFiles : Files := fun x => if x = "raw/a.dat".toList then some (serialText exLines "$AT1".toList) else none

private theorem exClean : CleanPath "raw/a.dat".toList "raw/clean_a.dat".toList :=
  ⟨"raw/".toList, "a.dat".toList, Or.inr (by decide), by decide, by decide, by decide⟩

example : exLines.filter (fun l => decide (Kept l)) = [exLine, exLine] := by decide +kernel

example (dates : Dates) := C115_read dates exFiles _ _ exClean (by decide +kernel) exLines "$AT1".toList (by decide +kernel) (by decide) (by decide +kernel)
  (by decide +kernel) [(), ()] (by simp) (fun _ => exRaw "$AT1M_u" "20220701121733") (fun _ => exTs 20220701121733) (fun _ => exSample)
  (fun _ _ => ⟨exRecord _ _ 14 _ (Or.inl (by decide)) (by decide) (by decide +kernel) (by decide) (by decide), exSample_valid, rfl, by decide, by
    show ((20220701121733 : ℕ) : ℚ) = _; congr 1, ⟨0, 0, 14, 20220701121733, by decide +kernel, by decide⟩⟩) (by decide +kernel)

example := C115_raises_iff exFiles ["raw/a.dat".toList, "raw/b.dat".toList] (by
  intro p hp x hx
  rw [cleanPath_iff]
  revert p x
  decide +kernel)

private def exKeys : List Str := channels.map Channel.gain ++ channels.map Channel.offset

private def exIni : List IniEntry :=
  .section "Sensor".toList [] none :: exKeys.map fun k => .pair k [' '] [' '] (.number "2.5".toList) [] none

private theorem exHas (k : Str) (h : k ∈ exKeys) : ConfHas (exIni.filterMap IniEntry.meaning) "Sensor".toList k (.num (5 / 2)) := by
  refine ⟨[], exKeys.map fun k => .pair k (.num (5 / 2)), [], by decide +kernel, by simp, ?_, List.mem_map_of_mem h, ?_⟩
  · intro s hs
    obtain ⟨k, _, rfl⟩ := List.mem_map.1 hs
    exact ⟨_, _, rfl⟩
  · intro w hw
    obtain ⟨k', _, e⟩ := List.mem_map.1 hw
    simp only [ConfStmt.pair.injEq] at e
    exact e.2.symm

private def exTable : Table := Table.ofCols 2 (channels.map fun c => (c.raw, [.num 3, .nan]))

private theorem exTable_ok : ∀ c ∈ channels, c.raw ∈ exTable.cols ∧ ∀ v ∈ exTable.col c.raw, Numeric v := by
  intro c hc
  have h : ∀ c ∈ channels, c.raw ∈ exTable.cols ∧ exTable.col c.raw = [.num 3, .nan] := by
    intro c hc
    refine ⟨by revert c; decide +kernel, by revert c; decide +kernel⟩
  refine ⟨(h c hc).1, ?_⟩
  rw [(h c hc).2]
  intro v hv
  simp only [List.mem_cons, List.not_mem_nil, or_false] at hv
  rcases hv with rfl | rfl
  · exact Or.inr ⟨3, rfl⟩
  · exact Or.inl rfl

example := C116_from_ini exIni (by
    intro e he
    rcases List.mem_cons.1 he with rfl | he
    · refine ⟨⟨by decide, by simp, by simp⟩, ?_⟩
      show Untouched _; unfold Untouched; decide
    · obtain ⟨k, hk, rfl⟩ := List.mem_map.1 he
      have h1 : ∀ k ∈ exKeys, isBareKey k = true ∧ ¬"//".toList <:+: k ∧ '\t' ∉ k ∧ ¬"TRUE".toList <:+: k ∧ ¬"FALSE".toList <:+: k := by
        decide +kernel
      refine ⟨⟨(h1 k hk).1, by decide, ⟨⟨5 / 2, by decide +kernel⟩, by decide⟩, by simp⟩, (h1 k hk).2, by show tomlNumber _ ≠ none; decide +kernel⟩)
  (by decide +kernel) exTable (fun _ => 5 / 2) (fun _ => 5 / 2) exTable_ok
  (fun c hc => ⟨exHas _ (List.mem_append_left _ (List.mem_map_of_mem hc)), exHas _ (List.mem_append_right _ (List.mem_map_of_mem hc))⟩)
  (by decide +kernel)

example := C116_missing_key [.table "Other".toList] exTable (fun _ => 0) (fun _ => 0) exTable_ok
  (fun _ _ => ⟨Or.inr (Or.inl (by decide)), Or.inr (Or.inl (by decide))⟩)
  ⟨_, List.mem_cons_self, Or.inl (Or.inl (by decide))⟩

end Shipgrav
