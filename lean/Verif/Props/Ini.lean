import Verif.Lemmas.Ini
import Mathlib.Data.List.Forall2

/-! Properties C09–C13 of `clean_ini_to_toml` (utils.py 108–175). -/

namespace Shipgrav
open Spec

/-! ## C09 -/

/-- C09: the output path of `p.ini` is `p.toml`, whatever `p` ends with. -/
theorem C09_output_path (p : Str) : iniOutPath (p ++ ".ini".toList) = p ++ ".toml".toList := by
  unfold iniOutPath rstripChars
  rw [List.reverse_append, show (".ini".toList).reverse = ['i', 'n', 'i', '.'] from rfl]
  simp [List.dropWhile]

/-! ## Helper: the substitutions -/

private theorem replaceGo_spec (old new : Str) (ho : old ≠ []) (s : Str) : Replaced old new s (replaceS old new s) := by
  induction hl : s.length using Nat.strong_induction_on generalizing s with
  | _ n ih =>
    cases s with
    | nil => exact .nil
    | cons c cs =>
      unfold replaceS
      rw [replaceGo]
      split
      · rename_i h
        obtain ⟨t, ht⟩ := List.isPrefixOf_iff_prefix.1 h
        have hskip : ∀ (k : ℕ) (a b : Str), a.length = k → replaceGo old new k (a ++ b) = replaceGo old new 0 b := by
          intro k
          induction k with
          | zero => intro a b ha; rw [List.length_eq_zero_iff.1 ha]; rfl
          | succ k ihk =>
            intro a b ha
            cases a with
            | nil => simp at ha
            | cons x a => rw [List.cons_append, replaceGo]; exact ihk a b (by simpa using ha)
        cases old with
        | nil => exact absurd rfl ho
        | cons o os =>
          have e : cs = os ++ t := by simpa using (List.cons.inj ht).2.symm
          rw [← ht, e, hskip _ os t (by simp)]
          refine .hit t _ (by simp) (ih t.length ?_ t rfl)
          rw [← hl, e]; simp; omega
      · rename_i h
        refine .miss c cs _ (fun hp => h (List.isPrefixOf_iff_prefix.2 hp)) (ih cs.length ?_ cs rfl)
        rw [← hl]; simp

private theorem iniSubst_spec (s : Str) : IniSubstituted s (iniSubst s) :=
  ⟨_, _, _, replaceGo_spec _ _ (by decide) _, replaceGo_spec _ _ (by decide) _, replaceGo_spec _ _ (by decide) _,
    replaceGo_spec _ _ (by decide) _⟩

private theorem _root_.Shipgrav.Spec.Replaced.unique {old new s t t' : Str} (h : Replaced old new s t) (h' : Replaced old new s t') :
    t = t' := by
  induction hl : s.length using Nat.strong_induction_on generalizing s t t' with
  | _ n ih =>
    cases h with
    | nil =>
      generalize hs : ([] : Str) = s' at h'
      cases h' with
      | nil => rfl
      | hit s2 t2 ho _ =>
        have := congrArg List.length hs
        have h0 := List.length_pos_of_ne_nil ho
        rw [List.length_append, List.length_nil] at this
        omega
      | miss => cases hs
    | hit s1 t1 ho h1 =>
      generalize hs : old ++ s1 = s' at h'
      cases h' with
      | nil =>
        have := congrArg List.length hs
        have h0 := List.length_pos_of_ne_nil ho
        rw [List.length_append, List.length_nil] at this
        omega
      | hit s2 t2 _ h2 =>
        have e := List.append_cancel_left hs
        subst e
        rw [ih s1.length (by
          have := List.length_pos_of_ne_nil ho
          rw [← hl]; simp; omega) h1 h2 rfl]
      | miss c s2 t2 hm h2 => exact absurd ⟨s1, hs⟩ hm
    | miss c s1 t1 hm h1 =>
      generalize hs : c :: s1 = s' at h'
      cases h' with
      | nil => cases hs
      | hit s2 t2 _ h2 => exact absurd ⟨s2, hs.symm⟩ hm
      | miss c2 s2 t2 _ h2 =>
        cases hs
        rw [ih s1.length (by rw [← hl]; simp) h1 h2 rfl]

/-! ## C10 -/

private theorem takeWhile_all {α : Type} (f : α → Option Str) (ls : List α) (h : ¬ ∃ l ∈ ls, f l = none) :
    (ls.map f).takeWhile Option.isSome = ls.map f := by
  rw [List.takeWhile_eq_self_iff]
  intro o ho
  obtain ⟨l, hl, rfl⟩ := List.mem_map.1 ho
  rw [Option.isSome_iff_ne_none]
  exact fun e => h ⟨l, hl, e⟩

private theorem cleanIni_ok (text w : Str) (h : cleanIni text = (w, none)) :
    ∃ outs : List Str, w = outs.flatMap (fun o => o ++ ['\n']) ∧
      List.Forall₂ (fun ln o => iniCleanLine (iniSubst ln) = some o) (splitC '\n' text) outs := by
  unfold cleanIni at h
  rw [iniLoop_eq, iniSubst_lines] at h
  have h2 : ¬ ∃ l ∈ (splitC '\n' text).map iniSubst, iniCleanLine l = none := by
    intro hex
    rw [if_pos hex] at h
    cases h
  rw [takeWhile_all _ _ h2] at h
  have hw := (Prod.mk.inj h).1
  refine ⟨((splitC '\n' text).map iniSubst).map (fun l => (iniCleanLine l).getD []), ?_, ?_⟩
  · rw [← hw]; simp [List.flatMap_map]
  · rw [List.map_map, List.forall₂_map_right_iff, List.forall₂_same]
    intro l hl
    have : iniCleanLine (iniSubst l) ≠ none := fun e => h2 ⟨_, List.mem_map.2 ⟨l, hl, rfl⟩, e⟩
    obtain ⟨o, ho⟩ := Option.ne_none_iff_exists'.1 this
    simp [ho]

private theorem splitC_flatMap (outs : List Str) (h : ∀ o ∈ outs, '\n' ∉ o) :
    splitC '\n' (outs.flatMap (fun o => o ++ ['\n'])) = outs ++ [[]] := by
  induction outs with
  | nil => rfl
  | cons o os ih =>
    rw [List.flatMap_cons, List.append_assoc, List.singleton_append, splitC_append _ _ _ (h o (by simp)),
      ih (fun x hx => h x (by simp [hx]))]
    rfl

private theorem outs_no_newline (text : Str) (outs : List Str)
    (h : List.Forall₂ (fun ln o => iniCleanLine (iniSubst ln) = some o) (splitC '\n' text) outs) :
    ∀ o ∈ outs, '\n' ∉ o := by
  have hlines : ∀ l ∈ (splitC '\n' text).map iniSubst, '\n' ∉ l := by
    rw [← iniSubst_lines]; exact splitC_no_sep _ _
  intro o ho
  obtain ⟨n, hn, rfl⟩ := List.getElem_of_mem ho
  have hlen := h.length_eq
  have := h.get (i := n) (by omega) hn
  simp only [List.get_eq_getElem] at this
  exact iniCleanLine_no_newline _ _ (hlines _ (List.mem_map.2 ⟨_, List.getElem_mem _, rfl⟩)) this

/-- C10: if the conversion succeeds, the output file's lines are, one for one and in order, the cleaned lines of the
input (plus the empty piece after the final newline); cleaning a line is substituting in it, then applying
`Spec.iniCleanLine`. -/
theorem C10_line_by_line (text w : Str) (h : cleanIni text = (w, none)) :
    ∃ outs : List Str, splitC '\n' w = outs ++ [[]] ∧
      List.Forall₂ (fun ln o => ∃ s, IniSubstituted ln s ∧ iniCleanLine s = some o) (splitC '\n' text) outs := by
  obtain ⟨outs, hw, hf⟩ := cleanIni_ok text w h
  refine ⟨outs, ?_, ?_⟩
  · rw [hw]; exact splitC_flatMap outs (outs_no_newline text outs hf)
  · exact hf.imp fun ln o ho => ⟨_, iniSubst_spec ln, ho⟩

/-- C10: the substituted text of a line is determined (so the statement above pins the output down). -/
theorem C10_substitution_unique (s t t' : Str) (h : IniSubstituted s t) (h' : IniSubstituted s t') : t = t' := by
  obtain ⟨a, b, c, h1, h2, h3, h4⟩ := h
  obtain ⟨a', b', c', h1', h2', h3', h4'⟩ := h'
  obtain rfl := h1.unique h1'
  obtain rfl := h2.unique h2'
  obtain rfl := h3.unique h3'
  exact h4.unique h4'

/-- C10: number of lines. -/
theorem C10_line_count (text w : Str) (h : cleanIni text = (w, none)) :
    (splitC '\n' w).length = (splitC '\n' text).length + 1 := by
  obtain ⟨outs, hw, hf⟩ := C10_line_by_line text w h
  rw [hw, List.length_append, ← hf.length_eq]; rfl

/-! ## C11 -/

/-- C11: which lines are fatal, and what is on disk then. The text splits as `good ++ bad :: later` with every line of
`good` cleanable and `bad` — after substitution and `$` removal — non-empty, not starting with `[` or `#`, and without
`=`. The file then holds exactly the cleaned lines of `good`. -/
theorem C11_failure (text w : Str) (e : PyErr) (h : cleanIni text = (w, some e)) :
    e = .indexError ∧ ∃ good bad later outs, splitC '\n' text = good ++ bad :: later ∧
      (∃ s, IniSubstituted bad s ∧ iniDollar s ≠ [] ∧ (iniDollar s).head? ≠ some '[' ∧ (iniDollar s).head? ≠ some '#' ∧
        '=' ∉ iniDollar s) ∧
      List.Forall₂ (fun ln o => ∃ s, IniSubstituted ln s ∧ iniCleanLine s = some o) good outs ∧
      w = outs.flatMap (fun o => o ++ ['\n']) := by
  unfold cleanIni at h
  rw [iniSubst_lines] at h
  generalize splitC '\n' text = lines at h
  have hcases : ∀ s, iniCleanLine s = none → iniDollar s ≠ [] ∧ (iniDollar s).head? ≠ some '[' ∧
      (iniDollar s).head? ≠ some '#' ∧ '=' ∉ iniDollar s := by
    intro s hs
    unfold iniCleanLine at hs
    simp only at hs
    split_ifs at hs with h1 h2
    · unfold iniPassLine at h1
      push Not at h1
      exact ⟨h1.1, h1.2.1, h1.2.2, h2⟩
  induction lines generalizing w with
  | nil => simp [iniLoop] at h
  | cons l ls ih =>
    rw [List.map_cons, iniLoop, iniLine_eq] at h
    rcases Option.eq_none_or_eq_some (iniCleanLine (iniSubst l)) with hl | ⟨o, hl⟩
    · rw [hl] at h
      simp only [Prod.mk.injEq, Option.some.injEq] at h
      exact ⟨h.2.symm, [], l, ls, [], rfl, ⟨_, iniSubst_spec l, hcases _ hl⟩, .nil, by rw [← h.1]; rfl⟩
    · rw [hl] at h
      simp only at h
      obtain ⟨w', hw'⟩ : ∃ w', iniLoop (ls.map iniSubst) = (w', some e) := by
        generalize iniLoop (ls.map iniSubst) = r at h
        exact ⟨r.1, by rw [← (Prod.mk.inj h).2]⟩
      rw [hw'] at h
      obtain ⟨he, good, bad, later, outs, h1, h2, h3, h4⟩ := ih w' hw'
      exact ⟨he, l :: good, bad, later, o :: outs, by rw [h1]; rfl, h2, .cons ⟨_, iniSubst_spec l, hl⟩ h3, by
        rw [← (Prod.mk.inj h).1, h4]; simp⟩

/-- C11: conversely, one such line anywhere makes the conversion fail. -/
theorem C11_bad_line_fails (text : Str) (bad s : Str) (hb : bad ∈ splitC '\n' text) (hs : IniSubstituted bad s)
    (h0 : iniDollar s ≠ []) (h1 : (iniDollar s).head? ≠ some '[') (h2 : (iniDollar s).head? ≠ some '#')
    (h3 : '=' ∉ iniDollar s) : (cleanIni text).2 = some .indexError := by
  unfold cleanIni
  rw [iniLoop_eq, iniSubst_lines]
  show (if _ then _ else _) = _
  rw [if_pos]
  refine ⟨iniSubst bad, List.mem_map.2 ⟨bad, hb, rfl⟩, ?_⟩
  rw [C10_substitution_unique _ _ _ (iniSubst_spec bad) hs]
  unfold iniCleanLine
  simp only
  rw [if_neg, if_pos h3]
  unfold iniPassLine
  push Not
  exact ⟨h0, h1, h2⟩

/-! ## C12 -/

/-- C12: cleaning a cleaned file changes nothing but appends one more newline. -/
theorem C12_idempotent (text w : Str) (h : cleanIni text = (w, none))
    (hd : ∀ l ∈ splitC '\n' text, l.head? ≠ some '$') : cleanIni w = (w ++ ['\n'], none) := by
  obtain ⟨outs, hw, hf⟩ := cleanIni_ok text w h
  have hsubst_head : ∀ l : Str, l.head? ≠ some '$' → (iniSubst l).head? ≠ some '$' := by
    have one : ∀ (old new l : Str), new.head? ≠ some '$' → new ≠ [] → l.head? ≠ some '$' →
        (replaceS old new l).head? ≠ some '$' := by
      intro old new l hn hne hl
      unfold replaceS
      cases l with
      | nil => simp [replaceGo]
      | cons c cs =>
        rw [replaceGo]
        split
        · cases new with
          | nil => exact absurd rfl hne
          | cons n ns => simpa using hn
        · simpa using hl
    intro l hl
    unfold iniSubst
    exact one _ _ _ (by decide) (by decide) (one _ _ _ (by decide) (by decide) (one _ _ _ (by decide) (by decide)
      (one _ _ _ (by decide) (by decide) hl)))
  -- every output line is stable and clean
  have hgood : ∀ o ∈ outs, Stable o ∧ iniCleanLine o = some o := by
    intro o ho
    obtain ⟨n, hn, rfl⟩ := List.getElem_of_mem ho
    have hlen := hf.length_eq
    have hg := hf.get (i := n) (by omega) hn
    simp only [List.get_eq_getElem] at hg
    have hhd := hsubst_head _ (hd _ (List.getElem_mem (by omega : n < (splitC '\n' text).length)))
    exact ⟨iniCleanLine_stable _ _ hhd (iniSubst_stable _) hg, iniCleanLine_idem _ _ hhd hg⟩
  unfold cleanIni
  rw [iniSubst_lines, hw, splitC_flatMap outs (outs_no_newline text outs hf)]
  have hmap : (outs ++ [[]]).map iniSubst = outs ++ [[]] := by
    rw [List.map_append]
    congr 1
    conv_rhs => rw [← List.map_id outs]
    apply List.map_congr_left
    intro o ho
    exact iniSubst_of_stable o (hgood o ho).1
  rw [hmap]
  clear hmap hw hf h
  induction outs with
  | nil => rfl
  | cons o os ih =>
    rw [List.cons_append, iniLoop, iniLine_eq, (hgood o (by simp)).2]
    simp only
    rw [ih (fun x hx => hgood x (by simp [hx]))]
    simp

/-! ## C13 -/

/-- C13 refuted, in general: on a line `k=a#c` whose value `a` is an unquoted string, the comment `c` is always
dropped — the file written depends only on `k` and `a`. -/
theorem C13_comment_always_dropped (k a c : Str) (hk : '=' ∉ k) (ha : '=' ∉ a ∧ '#' ∉ a)
    (hk1 : k.head? ≠ some '[') (hk2 : k.head? ≠ some '#') (hk3 : k.head? ≠ some '$')
    (hn : '\n' ∉ k ++ '=' :: (a ++ '#' :: c))
    (hsub : IniSubstituted (k ++ '=' :: (a ++ '#' :: c)) (k ++ '=' :: (a ++ '#' :: c)))
    (hv : ¬ iniPlainValue (strip a)) :
    cleanIni (k ++ '=' :: (a ++ '#' :: c)) = (k ++ "= \"".toList ++ strip a ++ "\"\n".toList, none) := by
  have hs : iniSubst (k ++ '=' :: (a ++ '#' :: c)) = k ++ '=' :: (a ++ '#' :: c) :=
    C10_substitution_unique _ _ _ (iniSubst_spec _) hsub
  unfold cleanIni
  rw [hs, splitC_notMem _ _ hn, iniLoop, iniLine_eq]
  have hhead : (k ++ '=' :: (a ++ '#' :: c)).head? = some '=' ∨ (k ++ '=' :: (a ++ '#' :: c)).head? = k.head? := by
    cases k with
    | nil => left; rfl
    | cons x k => right; rfl
  have hdol : iniDollar (k ++ '=' :: (a ++ '#' :: c)) = k ++ '=' :: (a ++ '#' :: c) := by
    unfold iniDollar
    rw [if_neg]
    rcases hhead with h | h <;> rw [h]
    · decide
    · exact hk3
  have hkw : ∀ x ∈ k, decide (x ≠ '=') = true := by
    intro x hx; simp only [ne_eq, decide_not, Bool.not_eq_eq_eq_not, Bool.not_true, decide_eq_false_iff_not]
    rintro rfl; exact hk hx
  have hkey : iniKey (k ++ '=' :: (a ++ '#' :: c)) = k := by
    unfold iniKey
    rw [List.takeWhile_append_of_pos hkw]
    simp
  have hval : iniValue (k ++ '=' :: (a ++ '#' :: c)) = strip a := by
    unfold iniValue
    rw [List.dropWhile_append_of_pos hkw]
    have : (List.dropWhile (fun x => decide (x ≠ '=')) ('=' :: (a ++ '#' :: c))).drop 1 = a ++ '#' :: c := by simp
    rw [this, List.takeWhile_append_of_pos]
    · simp
    · intro x hx
      simp only [decide_eq_true_eq]
      exact ⟨by rintro rfl; exact ha.1 hx, by rintro rfl; exact ha.2 hx⟩
  have hcl : iniCleanLine (k ++ '=' :: (a ++ '#' :: c)) = some (k ++ "= \"".toList ++ strip a ++ "\"".toList) := by
    unfold iniCleanLine
    simp only [hdol]
    rw [if_neg, if_neg (by simp), hval, if_neg hv, hkey]
    unfold iniPassLine
    push Not
    refine ⟨by simp, ?_, ?_⟩ <;> rcases hhead with h | h <;> rw [h]
    · decide
    · exact hk1
    · decide
    · exact hk2
  rw [hcl]
  simp [iniLoop]

/-- C13 refuted by a witness: `ship=Thompson # the vessel` loses its comment. -/
theorem C13_refuted : ∃ w, cleanIni "ship=Thompson # the vessel".toList = (w, none) ∧ ¬ "vessel".toList <:+: w :=
  ⟨"ship= \"Thompson\"\n".toList, by decide +kernel, by decide⟩

/-- C13, what does hold (`_partial`): a line whose value is a boolean, a number or already quoted is written
unchanged, comment included. Missing: unquoted strings, see above. -/
theorem C13_comment_kept_partial (l : Str) (hn : '\n' ∉ l) (hsub : IniSubstituted l l) (hd : l.head? ≠ some '$')
    (he : '=' ∈ l) (hv : iniPlainValue (iniValue l)) : cleanIni l = (l ++ ['\n'], none) := by
  have hs : iniSubst l = l := C10_substitution_unique _ _ _ (iniSubst_spec _) hsub
  unfold cleanIni
  rw [hs, splitC_notMem _ _ hn, iniLoop, iniLine_eq]
  have hcl : iniCleanLine l = some l := by
    unfold iniCleanLine iniDollar
    simp only [hd, if_false]
    split_ifs <;> first | rfl | simp_all
  rw [hcl]
  rfl

/-! ## Non-vacuity -/

example : cleanIni "[a]\nx=TRUE // c\n$k=$v\n".toList
    = ("[a]\nx=true # c\nk= \"v\"\n\n".toList, none) := by decide +kernel

example : cleanIni "x=1\njunk\ny=2".toList = ("x=1\n".toList, some .indexError) := by decide +kernel

example : ∃ w, cleanIni "[a]\nship=Thompson\n// c".toList = (w, none) ∧ cleanIni w = (w ++ ['\n'], none) :=
  ⟨"[a]\nship= \"Thompson\"\n# c\n".toList, by decide +kernel, C12_idempotent "[a]\nship=Thompson\n// c".toList _ (by decide +kernel) (by decide)⟩

/-- Why `$` lines are excluded from C12: removing `$` can create new text to substitute. -/
example : ∃ w w', cleanIni "$a=TR$UE".toList = (w, none) ∧ cleanIni w = (w', none) ∧ w' ≠ w ++ ['\n'] :=
  ⟨"a= \"TRUE\"\n".toList, "a= \"true\"\n\n".toList, by decide +kernel, by decide +kernel, by decide⟩

end Shipgrav
