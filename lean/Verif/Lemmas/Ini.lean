import Verif.Model.Ini
import Verif.Spec.Ini
import Verif.Lemmas.Str
import Mathlib.Tactic.SplitIfs
import Mathlib.Tactic.Tauto

namespace Shipgrav
open Spec

theorem startsWith_single (c : Char) (s : Str) : startsWith [c] s = decide (s.head? = some c) := by
  cases s with
  | nil => simp [startsWith]
  | cons x xs =>
    by_cases h : c = x
    · subst h; simp [startsWith]
    · have h' : x ≠ c := fun e => h e.symm
      simp [startsWith, List.isPrefixOf, h, h']

/-- The model line equals the spec line. -/
theorem iniLine_eq (ln : Str) : iniLine ln = match iniCleanLine ln with
    | some o => .ok o
    | none => .error .indexError := by
  have hd : (if startsWith "$".toList ln then ln.filter (· ≠ '$') else ln) = iniDollar ln := by
    unfold iniDollar
    rw [show "$".toList = ['$'] from rfl, startsWith_single]
    simp
  unfold iniLine iniCleanLine
  rw [hd]
  generalize iniDollar ln = l
  have hpass : (startsWith "[".toList l || startsWith "#".toList l || l == []) = decide (iniPassLine l) := by
    rw [show "[".toList = ['['] from rfl, show "#".toList = ['#'] from rfl, startsWith_single, startsWith_single]
    unfold iniPassLine
    by_cases h1 : l = [] <;> by_cases h2 : l.head? = some '[' <;> by_cases h3 : l.head? = some '#' <;> simp [h1, h2, h3]
  simp only [hpass, decide_eq_true_eq]
  by_cases hp : iniPassLine l
  · simp only [hp, if_true]
  · simp only [hp, if_false]
    by_cases he : '=' ∈ l
    · have h1 : pyGet (splitC '=' l) 1 = .ok (((l.dropWhile (· ≠ '=')).drop 1).takeWhile (· ≠ '=')) := by
        unfold pyGet; rw [splitC_second, if_pos he]
      have h0 : pyGet (splitC '=' l) 0 = .ok (iniKey l) := by
        unfold pyGet; rw [splitC_head]; rfl
      rw [h1]
      simp only [he, not_true_eq_false, if_false]
      have hval : strip ((((l.dropWhile (· ≠ '=')).drop 1).takeWhile (· ≠ '=')).takeWhile (· ≠ '#')) = iniValue l := by
        unfold iniValue
        rw [List.takeWhile_takeWhile]
        congr 2
        funext c
        by_cases hc1 : c = '=' <;> by_cases hc2 : c = '#' <;> simp [hc1, hc2]
      generalize hr : ((l.dropWhile (· ≠ '=')).drop 1).takeWhile (· ≠ '=') = r at hval
      have hpair : iniSplitComment r = .ok (r.takeWhile (· ≠ '#'), []) := by
        unfold iniSplitComment
        by_cases hh : '#' ∈ r
        · rw [if_pos (by simpa using hh)]
          have : pyGet (splitC '#' r) 0 = .ok (r.takeWhile (· ≠ '#')) := by
            unfold pyGet; rw [splitC_head]
          rw [this]
          show Except.ok (_, joinC '=' ((splitC '#' (r.takeWhile (· ≠ '#'))).drop 1)) = _
          rw [splitC_notMem _ _ (notMem_takeWhile '#' r)]
          rfl
        · rw [if_neg (by simpa using hh), takeWhile_eq_self_of_notMem '#' r hh]
          rfl
      show (iniSplitComment r >>= fun p => iniRequote l (strip p.1) p.2) = _
      rw [hpair]
      show iniRequote l (strip (r.takeWhile (· ≠ '#'))) [] = _
      rw [hval]
      unfold iniRequote
      rw [h0]
      generalize iniValue l = v
      rw [show "\"".toList = ['"'] from rfl, startsWith_single]
      unfold iniPlainValue
      by_cases hb1 : v = "true".toList
      · subst hb1; simp
      by_cases hb2 : v = "false".toList
      · subst hb2; simp
      have hb1' : (v == "true".toList) = false := by simpa using hb1
      have hb2' : (v == "false".toList) = false := by simpa using hb2
      by_cases hq : v.head? = some '"'
      · simp [hb1', hb2', hq]
      rcases Option.eq_none_or_eq_some (parseFloat v) with hf | ⟨f, hf⟩
      · simp only [hb1, hb2, hq, hb1', hb2', hf]
        simp [bind, Except.bind, pure, Except.pure]
      · simp only [hb1, hb2, hq, hb1', hb2', hf]; simp
    · have h1 : pyGet (splitC '=' l) 1 = .error .indexError := by
        unfold pyGet; rw [splitC_second, if_neg he]
      rw [h1]
      simp only [he, not_false_eq_true, if_true]
      rfl

theorem iniLoop_eq (lines : List Str) :
    iniLoop lines = (((lines.map iniCleanLine).takeWhile Option.isSome).flatMap (fun o => o.getD [] ++ ['\n']),
      if ∃ l ∈ lines, iniCleanLine l = none then some .indexError else none) := by
  induction lines with
  | nil => simp [iniLoop]
  | cons l ls ih =>
    rw [iniLoop, iniLine_eq]
    rcases Option.eq_none_or_eq_some (iniCleanLine l) with h | ⟨o, h⟩
    · simp [h]
    · simp only [h, ih]
      simp [h]

theorem iniSubst_lines (text : Str) : splitC '\n' (iniSubst text) = (splitC '\n' text).map iniSubst := by
  unfold iniSubst
  simp only
  rw [splitC_replaceS _ _ _ _ (by decide) (by decide) (by decide),
    splitC_replaceS _ _ _ _ (by decide) (by decide) (by decide),
    splitC_replaceS _ _ _ _ (by decide) (by decide) (by decide),
    splitC_replaceS _ _ _ _ (by decide) (by decide) (by decide)]
  simp only [List.map_map]
  rfl

/-- A text that the substitutions leave alone. -/
def Stable (s : Str) : Prop :=
  ¬ "//".toList <:+: s ∧ ¬ "\t".toList <:+: s ∧ ¬ "TRUE".toList <:+: s ∧ ¬ "FALSE".toList <:+: s

theorem iniSubst_stable (s : Str) : Stable (iniSubst s) := by
  unfold iniSubst
  simp only
  generalize hs1 : replaceS "//".toList "#".toList s = s1
  have h1 : ¬ "//".toList <:+: s1 := by
    rw [← hs1]; exact replaceGo_no_occ _ _ (by decide) (by decide) (by decide) _ _
  generalize hs2 : replaceS "\t".toList "  ".toList s1 = s2
  have h2 : ¬ "\t".toList <:+: s2 := by
    rw [← hs2]; exact replaceGo_no_occ _ _ (by decide) (by decide) (by decide) _ _
  have h21 : ¬ "//".toList <:+: s2 := by
    rw [← hs2]; exact replaceGo_keeps_no_occ _ _ _ (by decide) (by decide) (by decide) _ _ h1
  generalize hs3 : replaceS "TRUE".toList "true".toList s2 = s3
  have h3 : ¬ "TRUE".toList <:+: s3 := by
    rw [← hs3]; exact replaceGo_no_occ _ _ (by decide) (by decide) (by decide) _ _
  have h31 : ¬ "//".toList <:+: s3 := by
    rw [← hs3]; exact replaceGo_keeps_no_occ _ _ _ (by decide) (by decide) (by decide) _ _ h21
  have h32 : ¬ "\t".toList <:+: s3 := by
    rw [← hs3]; exact replaceGo_keeps_no_occ _ _ _ (by decide) (by decide) (by decide) _ _ h2
  refine ⟨?_, ?_, ?_, ?_⟩
  · exact replaceGo_keeps_no_occ _ _ _ (by decide) (by decide) (by decide) _ _ h31
  · exact replaceGo_keeps_no_occ _ _ _ (by decide) (by decide) (by decide) _ _ h32
  · exact replaceGo_keeps_no_occ _ _ _ (by decide) (by decide) (by decide) _ _ h3
  · exact replaceGo_no_occ _ _ (by decide) (by decide) (by decide) _ _

theorem iniSubst_of_stable (s : Str) (h : Stable s) : iniSubst s = s := by
  obtain ⟨h1, h2, h3, h4⟩ := h
  unfold iniSubst
  simp only
  rw [replaceS_of_no_occ _ _ _ h1, replaceS_of_no_occ _ _ _ h2, replaceS_of_no_occ _ _ _ h3, replaceS_of_no_occ _ _ _ h4]

/-- An occurrence across a separator that the pattern avoids lies on one side. -/
theorem infix_append_sep (p a b : Str) (c : Char) (hc : c ∉ p) (hp : p ≠ []) (h : p <:+: a ++ c :: b) :
    p <:+: a ∨ p <:+: b := by
  induction a with
  | nil =>
    rw [List.nil_append, List.infix_cons_iff] at h
    rcases h with h | h
    · exfalso
      cases p with
      | nil => exact hp rfl
      | cons x p => rw [List.cons_prefix_cons] at h; exact hc (by simp [h.1])
    · exact Or.inr h
  | cons x a ih =>
    rw [List.cons_append, List.infix_cons_iff] at h
    rcases h with h | h
    · left
      have := isPrefixOf_append_sep p (x :: a) b c hc
      rw [List.cons_append, List.isPrefixOf_iff_prefix.2 h] at this
      exact (List.isPrefixOf_iff_prefix.1 this.symm).isInfix
    · rcases ih h with h | h
      · exact Or.inl (h.trans (List.suffix_cons x a).isInfix)
      · exact Or.inr h

theorem strip_infix (s : Str) : strip s <:+: s := by
  unfold strip rstrip lstrip
  have h1 : (s.dropWhile isSpace) <:+ s := List.dropWhile_suffix _
  have h2 : ((s.dropWhile isSpace).reverse.dropWhile isSpace).reverse <+: s.dropWhile isSpace := by
    have := (List.dropWhile_suffix isSpace (l := (s.dropWhile isSpace).reverse))
    rw [← List.reverse_prefix] at this
    simpa using this
  exact h2.isInfix.trans h1.isInfix

theorem iniKey_prefix (l : Str) : iniKey l <+: l := List.takeWhile_prefix _

theorem iniValue_infix (l : Str) : iniValue l <:+: l := by
  unfold iniValue
  refine (strip_infix _).trans ?_
  refine (List.takeWhile_prefix _).isInfix.trans ?_
  exact (List.drop_suffix _ _).isInfix.trans (List.dropWhile_suffix _).isInfix

theorem iniValue_no (l : Str) : '=' ∉ iniValue l ∧ '#' ∉ iniValue l := by
  unfold iniValue
  constructor <;>
  · intro h
    have h2 := (strip_infix _).subset h
    have := List.mem_takeWhile_imp h2
    simp at this

/-- No leading blank. -/
theorem strip_quote (v : Str) : strip (' ' :: '"' :: v ++ ['"']) = '"' :: v ++ ['"'] := by
  have h1 : lstrip (' ' :: '"' :: v ++ ['"']) = '"' :: v ++ ['"'] := by
    simp [lstrip, isSpace]
  unfold strip
  rw [h1]
  unfold rstrip
  simp [isSpace]

/-- Cleaning a cleaned line again changes nothing, provided the line did not start with `$`. -/
theorem iniCleanLine_idem (l o : Str) (hd : l.head? ≠ some '$') (h : iniCleanLine l = some o) :
    iniCleanLine o = some o := by
  have hl : iniDollar l = l := by simp [iniDollar, hd]
  have h0 := h
  unfold iniCleanLine at h
  simp only [hl] at h
  by_cases hp : iniPassLine l
  · rw [if_pos hp] at h; cases h; exact h0
  rw [if_neg hp] at h
  by_cases he : '=' ∈ l
  swap
  · rw [if_pos he] at h; cases h
  rw [if_neg (by simpa using he)] at h
  by_cases hv : iniPlainValue (iniValue l)
  · rw [if_pos hv] at h; cases h; exact h0
  rw [if_neg hv] at h
  obtain ⟨hv1, hv2⟩ := iniValue_no l
  generalize iniValue l = v at h hv hv1 hv2
  have hk : '=' ∉ iniKey l := notMem_takeWhile '=' l
  have hkp : iniKey l <+: l := iniKey_prefix l
  generalize iniKey l = k at h hk hkp
  have ho : o = k ++ '=' :: (' ' :: '"' :: v ++ ['"']) := by
    have : o = k ++ "= \"".toList ++ v ++ "\"".toList := (Option.some.inj h).symm
    rw [this]; simp
  have hhead : o.head? = some '=' ∨ o.head? = l.head? := by
    rw [ho]
    cases k with
    | nil => left; rfl
    | cons a k =>
      right
      obtain ⟨t, rfl⟩ := hkp
      rfl
  have hne : l ≠ [] := by rintro rfl; simp at he
  have hod : iniDollar o = o := by
    unfold iniDollar
    rw [if_neg]
    rcases hhead with h' | h' <;> rw [h']
    · decide
    · exact hd
  have hop : ¬ iniPassLine o := by
    unfold iniPassLine at hp ⊢
    push Not at hp ⊢
    refine ⟨by rw [ho]; simp, ?_, ?_⟩ <;> rcases hhead with h' | h' <;> rw [h']
    · decide
    · exact hp.2.1
    · decide
    · exact hp.2.2
  have hoe : '=' ∈ o := by rw [ho]; simp
  have hov : iniValue o = '"' :: v ++ ['"'] := by
    unfold iniValue
    have h1 : (o.dropWhile (· ≠ '=')).drop 1 = ' ' :: '"' :: v ++ ['"'] := by
      rw [ho, List.dropWhile_append_of_pos]
      · simp
      · intro x hx
        simp only [ne_eq, decide_not, Bool.not_eq_eq_eq_not, Bool.not_true, decide_eq_false_iff_not]
        rintro rfl; exact hk hx
    rw [h1]
    have h2 : (' ' :: '"' :: v ++ ['"']).takeWhile (fun c => decide (c ≠ '=' ∧ c ≠ '#')) = ' ' :: '"' :: v ++ ['"'] := by
      rw [List.takeWhile_eq_self_iff]
      intro x hx
      simp only [List.cons_append, List.mem_cons, List.mem_append, List.not_mem_nil, or_false] at hx
      simp only [decide_eq_true_eq]
      rcases hx with rfl | rfl | hx | rfl
      · decide
      · decide
      · exact ⟨by rintro rfl; exact hv1 hx, by rintro rfl; exact hv2 hx⟩
      · decide
    rw [h2, strip_quote]
  unfold iniCleanLine
  simp only [hod]
  rw [if_neg hop, if_neg (by simpa using hoe), hov, if_pos]
  unfold iniPlainValue
  right; right; left; rfl

/-- Cleaned lines are stable under the substitutions. -/
theorem iniCleanLine_stable (l o : Str) (hd : l.head? ≠ some '$') (hs : Stable l) (h : iniCleanLine l = some o) :
    Stable o := by
  have hl : iniDollar l = l := by simp [iniDollar, hd]
  unfold iniCleanLine at h
  simp only [hl] at h
  split_ifs at h
  · cases h; exact hs
  · cases h; exact hs
  · have ho : o = iniKey l ++ '=' :: (' ' :: ('"' :: (iniValue l ++ '"' :: []))) := by
      rw [← Option.some.inj h]; simp
    have key : ∀ p : Str, '=' ∉ p → ' ' ∉ p → '"' ∉ p → p ≠ [] → ¬ p <:+: l → ¬ p <:+: o := by
      intro p h1 h2 h3 h4 h5 h6
      rw [ho] at h6
      rcases infix_append_sep p _ _ '=' h1 h4 h6 with h6 | h6
      · exact h5 (h6.trans (iniKey_prefix l).isInfix)
      rcases infix_append_sep p [] _ ' ' h2 h4 h6 with h6 | h6
      · exact h4 (by simpa using h6)
      rcases infix_append_sep p [] _ '"' h3 h4 h6 with h6 | h6
      · exact h4 (by simpa using h6)
      rcases infix_append_sep p _ _ '"' h3 h4 h6 with h6 | h6
      · exact h5 (h6.trans (iniValue_infix l))
      · exact h4 (by simpa using h6)
    obtain ⟨h1, h2, h3, h4⟩ := hs
    exact ⟨key _ (by decide) (by decide) (by decide) (by decide) h1, key _ (by decide) (by decide) (by decide) (by decide) h2,
      key _ (by decide) (by decide) (by decide) (by decide) h3, key _ (by decide) (by decide) (by decide) (by decide) h4⟩

theorem iniCleanLine_no_newline (l o : Str) (hl : '\n' ∉ l) (h : iniCleanLine l = some o) : '\n' ∉ o := by
  have hd : '\n' ∉ iniDollar l := by
    unfold iniDollar
    split
    · intro h'; exact hl (List.mem_filter.1 h').1
    · exact hl
  unfold iniCleanLine at h
  simp only at h
  split_ifs at h
  · cases h; exact hd
  · cases h; exact hd
  · cases h
    have h1 : '\n' ∉ iniKey (iniDollar l) := fun h' => hd ((iniKey_prefix _).subset h')
    have h2 : '\n' ∉ iniValue (iniDollar l) := fun h' => hd ((iniValue_infix _).subset h')
    simp [h1, h2]

end Shipgrav
