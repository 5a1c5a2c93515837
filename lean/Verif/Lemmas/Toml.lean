import Verif.Spec.Toml
import Verif.Lemmas.Ini
import Verif.Lemmas.Fmt
import Mathlib.Tactic.Ring
import Mathlib.Tactic.FieldSimp

/-! Lemmas about the TOML reader and about the substitutions of `clean_ini_to_toml`. -/

namespace Shipgrav
open Spec

theorem iniSubst_sep (a b : Str) (c : Char) (h : c ∉ "//\tTRUEFALSE".toList) : iniSubst (a ++ c :: b) = iniSubst a ++ c :: iniSubst b := by
  have h' : c ≠ '/' ∧ c ≠ '\t' ∧ c ≠ 'T' ∧ c ≠ 'R' ∧ c ≠ 'U' ∧ c ≠ 'E' ∧ c ≠ 'F' ∧ c ≠ 'A' ∧ c ≠ 'L' ∧ c ≠ 'S' := by
    simp at h; tauto
  unfold iniSubst
  simp only
  rw [replaceS_append_sep _ _ _ _ _ (by simp; tauto) (by decide), replaceS_append_sep _ _ _ _ _ (by simp; tauto) (by decide),
    replaceS_append_sep _ _ _ _ _ (by simp; tauto) (by decide), replaceS_append_sep _ _ _ _ _ (by simp; tauto) (by decide)]

theorem iniSubst_nil : iniSubst [] = [] := rfl

theorem replaceS_tab (a b : Str) : replaceS "\t".toList "  ".toList (a ++ '\t' :: b)
    = replaceS "\t".toList "  ".toList a ++ ' ' :: ' ' :: replaceS "\t".toList "  ".toList b := by
  unfold replaceS
  induction a with
  | nil => simp [replaceGo]
  | cons x a ih =>
    rw [List.cons_append, replaceGo, replaceGo]
    by_cases hx : ("\t".toList).isPrefixOf (x :: (a ++ '\t' :: b)) = true
    · have hx' : ("\t".toList).isPrefixOf (x :: a) = true := by simpa using hx
      rw [if_pos hx, if_pos hx']
      show _ ++ replaceGo _ _ 0 _ = _ ++ replaceGo _ _ 0 _ ++ _
      rw [ih]; simp
    · have hx' : ¬ ("\t".toList).isPrefixOf (x :: a) = true := by simpa using hx
      rw [if_neg hx, if_neg hx', ih]; rfl

theorem iniSubst_tab (a b : Str) : iniSubst (a ++ '\t' :: b) = iniSubst a ++ ' ' :: ' ' :: iniSubst b := by
  unfold iniSubst
  simp only
  rw [replaceS_append_sep "//".toList _ _ _ _ (by decide) (by decide), replaceS_tab]
  generalize replaceS "\t".toList "  ".toList (replaceS "//".toList "#".toList a) = x
  generalize replaceS "\t".toList "  ".toList (replaceS "//".toList "#".toList b) = y
  have key : ∀ old new : Str, ' ' ∉ old → old ≠ [] → replaceS old new (x ++ ' ' :: ' ' :: y) = replaceS old new x ++ ' ' :: ' ' :: replaceS old new y := by
    intro old new h h0
    rw [replaceS_append_sep _ _ _ _ _ h h0]
    have := replaceS_append_sep old new [] y ' ' h h0
    rw [List.nil_append] at this
    rw [this]; rfl
  rw [key _ _ (by decide) (by decide)]
  generalize replaceS "TRUE".toList "true".toList x = x'
  generalize replaceS "TRUE".toList "true".toList y = y'
  rw [replaceS_append_sep _ _ _ _ _ (by decide) (by decide)]
  have := replaceS_append_sep "FALSE".toList "false".toList [] y' ' ' (by decide) (by decide)
  rw [List.nil_append] at this
  rw [this]; rfl

/-- Blanks, with every tab made two of them. -/
def expandTabs (p : Str) : Str := p.flatMap fun c => if c = '\t' then [' ', ' '] else [c]

theorem expandTabs_blank (p : Str) (h : ∀ x ∈ p, isBlank x = true) : ∀ x ∈ expandTabs p, x = ' ' := by
  intro x hx
  unfold expandTabs at hx
  obtain ⟨c, hc, hx⟩ := List.mem_flatMap.1 hx
  have := h c hc
  simp [isBlank] at this
  rcases this with rfl | rfl <;> simp at hx <;> exact hx

/-- Blanks separate. -/
theorem iniSubst_pad (a p b : Str) (h : ∀ x ∈ p, isBlank x = true) (hp : p ≠ [] ∨ a = [] ∨ b = []) :
    iniSubst (a ++ p ++ b) = iniSubst a ++ expandTabs p ++ iniSubst b := by
  induction p generalizing a with
  | nil =>
    rcases hp with hp | rfl | rfl
    · exact absurd rfl hp
    · simp [expandTabs, iniSubst_nil]
    · simp [expandTabs, iniSubst_nil]
  | cons c p ih =>
    have hc := h c (by simp)
    have hr := ih [] (fun x hx => h x (by simp [hx])) (Or.inr (Or.inl rfl))
    rw [List.nil_append, iniSubst_nil, List.nil_append] at hr
    simp [isBlank] at hc
    rcases hc with rfl | rfl
    · rw [show a ++ ' ' :: p ++ b = a ++ ' ' :: (p ++ b) by simp, iniSubst_sep _ _ _ (by decide), hr]
      simp [expandTabs]
    · rw [show a ++ '\t' :: p ++ b = a ++ '\t' :: (p ++ b) by simp, iniSubst_tab, hr]
      simp [expandTabs]

theorem replaceS_hit (old new b : Str) (h : old ≠ []) : replaceS old new (old ++ b) = new ++ replaceS old new b := by
  unfold replaceS
  cases old with
  | nil => exact absurd rfl h
  | cons o os =>
    have hskip : ∀ (k : ℕ) (a b : Str), a.length = k → replaceGo (o :: os) new k (a ++ b) = replaceGo (o :: os) new 0 b := by
      intro k
      induction k with
      | zero => intro a b ha; rw [List.length_eq_zero_iff.1 ha]; rfl
      | succ k ihk =>
        intro a b ha
        cases a with
        | nil => simp at ha
        | cons x a => rw [List.cons_append, replaceGo]; exact ihk a b (by simpa using ha)
    rw [List.cons_append, replaceGo, if_pos (by rw [List.isPrefixOf_iff_prefix, ← List.cons_append]; exact List.prefix_append _ _)]
    rw [show (o :: os).length - 1 = os.length by simp, hskip _ _ _ rfl]

theorem iniSubst_slashes (b : Str) : ∃ b', iniSubst ("//".toList ++ b) = '#' :: b' ∧ b' = iniSubst b := by
  refine ⟨_, ?_, rfl⟩
  unfold iniSubst
  simp only
  rw [replaceS_hit _ _ _ (by decide)]
  generalize replaceS "//".toList "#".toList b = y
  have key : ∀ (old new y : Str), '#' ∉ old → old ≠ [] → replaceS old new ('#' :: y) = '#' :: replaceS old new y := by
    intro old new y h h0
    have := replaceS_append_sep old new [] y '#' h h0
    rw [List.nil_append] at this
    rw [this]; rfl
  rw [show "#".toList ++ y = '#' :: y from rfl, key _ _ _ (by decide) (by decide), key _ _ _ (by decide) (by decide), key _ _ _ (by decide) (by decide)]

theorem iniSubst_comment (c : IniComment) : iniSubst c.line = '#' :: iniSubst c.text := by
  unfold IniComment.line
  cases c.slashes
  · have := iniSubst_sep [] c.text '#' (by decide)
    simpa [iniSubst_nil] using this
  · obtain ⟨b', h1, h2⟩ := iniSubst_slashes c.text
    simp only [if_true]
    rw [h1, h2]

theorem untouched_subst (s : Str) (h : Untouched s) : iniSubst s = s := by
  apply iniSubst_of_stable
  obtain ⟨h1, h2, h3, h4⟩ := h
  exact ⟨h1, fun ht => h2 (ht.subset (by simp)), h3, h4⟩

/-- Substitution brings in no control characters. -/
theorem iniSubst_printable (s : Str) (h : Printable s) : Printable (iniSubst s) := by
  intro c hc
  by_contra hcon
  have hcon : isControl c = true := by simpa using hcon
  have hs : c ∉ s := fun hm => by rw [h c hm] at hcon; cases hcon
  have key : ∀ new : Str, (∀ x ∈ new, isControl x = false) → c ∉ new := fun new hn hm => by rw [hn c hm] at hcon; cases hcon
  unfold iniSubst at hc
  simp only at hc
  unfold replaceS at hc
  refine replaceGo_no_new_char _ _ c (key _ (by decide)) _ ?_ _ hc
  refine replaceGo_no_new_char _ _ c (key _ (by decide)) _ ?_ _
  refine replaceGo_no_new_char _ _ c (key _ (by decide)) _ ?_ _
  exact replaceGo_no_new_char _ _ c (key _ (by decide)) _ hs _

/-! ### Numbers -/

theorem pow10_zpow (e : ℤ) : pow10 e = (10 : ℚ) ^ e := by
  unfold pow10
  split
  · rename_i h
    conv_rhs => rw [← Int.toNat_of_nonneg h]
    rw [zpow_natCast]; push_cast; rfl
  · rename_i h
    have h' : 0 ≤ -e := by omega
    conv_rhs => rw [show e = -((-e).toNat : ℤ) by rw [Int.toNat_of_nonneg h']; ring]
    rw [zpow_neg, zpow_natCast, one_div]; push_cast; rfl

theorem tomlExp_parse (s : Str) (e : ℤ) (h : tomlExp s = some e) : parseExp s = some e := by
  cases s with
  | nil => exact h
  | cons c t =>
    rw [tomlExp] at h
    rw [parseExp]
    by_cases hc : c = 'e' ∨ c = 'E'
    · rw [if_pos hc] at h ⊢
      simp only at h ⊢
      split at h
      · rename_i hr
        rw [if_pos (validRun_digits ⟨hr.1, fun x hx => List.all_eq_true.1 hr.2 x hx⟩)]
        exact h
      · cases h
    · rw [if_neg hc] at h; cases h

theorem tomlExp_head (s : Str) (e : ℤ) (h : tomlExp s = some e) : ∀ c, s.head? = some c → isRunChar c = false ∧ c ≠ '.' := by
  intro c hc
  cases s with
  | nil => cases hc
  | cons x t =>
    simp only [List.head?_cons, Option.some.injEq] at hc
    subst hc
    rw [tomlExp] at h
    by_cases hx : x = 'e' ∨ x = 'E'
    · rcases hx with rfl | rfl <;> decide
    · rw [if_neg hx] at h; cases h

theorem takeWhile_mem_all {p : Char → Bool} (s : Str) : ∀ c ∈ s.takeWhile p, p c = true := fun _ hc => List.mem_takeWhile_imp hc

/-- Characters of numbers. -/
def NumChar (c : Char) : Prop := isDigit c = true ∨ c = '+' ∨ c = '-' ∨ c = '.' ∨ c = 'e' ∨ c = 'E'

theorem takeSign_mem_or (s : Str) (c : Char) (h : c ∈ s) : c ∈ (takeSign s).2 ∨ c = '+' ∨ c = '-' := by
  unfold takeSign
  split
  · rcases List.mem_cons.1 h with h | h <;> simp [h]
  · rcases List.mem_cons.1 h with h | h <;> simp [h]
  · exact Or.inl h

theorem tomlExp_chars (s : Str) (e : ℤ) (h : tomlExp s = some e) : ∀ c ∈ s, NumChar c := by
  intro c hc
  cases s with
  | nil => cases hc
  | cons x t =>
    rw [tomlExp] at h
    by_cases hx : x = 'e' ∨ x = 'E'
    · rw [if_pos hx] at h
      simp only at h
      split at h
      · rename_i hr
        rcases List.mem_cons.1 hc with rfl | hc
        · unfold NumChar; tauto
        · rcases takeSign_mem_or t c hc with h' | h' | h'
          · exact Or.inl (List.all_eq_true.1 hr.2 c h')
          · unfold NumChar; tauto
          · unfold NumChar; tauto
      · cases h
    · rw [if_neg hx] at h; cases h

theorem mem_take_drop (p : Char → Bool) (s : Str) (c : Char) (h : c ∈ s) : c ∈ s.takeWhile p ∨ c ∈ s.dropWhile p := by
  rw [← List.takeWhile_append_dropWhile (p := p) (l := s)] at h
  exact List.mem_append.1 h

theorem tomlNumber_chars (s : Str) (q : ℚ) (h : tomlNumber s = some q) : ∀ c ∈ s, NumChar c := by
  intro c hc
  rcases takeSign_mem_or s c hc with hc | hc | hc
  rotate_left
  · unfold NumChar; tauto
  · unfold NumChar; tauto
  unfold tomlNumber at h
  simp only at h
  generalize (takeSign s).2 = t at h hc
  split at h
  · cases h
  rcases mem_take_drop isDigit t c hc with hc | hc
  · exact Or.inl (takeWhile_mem_all _ c hc)
  split at h
  · rename_i r hr
    rw [hr] at hc
    rcases List.mem_cons.1 hc with rfl | hc
    · unfold NumChar; tauto
    split at h
    · cases h
    rcases mem_take_drop isDigit r c hc with hc | hc
    · exact Or.inl (takeWhile_mem_all _ c hc)
    · obtain ⟨e, he, _⟩ := Option.map_eq_some_iff.1 h
      exact tomlExp_chars _ _ he c hc
  · obtain ⟨e, he, _⟩ := Option.map_eq_some_iff.1 h
    exact tomlExp_chars _ _ he c hc

theorem numChar_props (c : Char) (h : NumChar c) : isSpace c = false ∧ isControl c = false ∧ isBlank c = false ∧ c ≠ '=' ∧ c ≠ '#' ∧ c ≠ '"' ∧ c ≠ '/' ∧
    c ≠ 'T' ∧ c ≠ 'F' ∧ c ≠ 't' ∧ c ≠ 'f' ∧ c ≠ '\t' := by
  rcases h with h | rfl | rfl | rfl | rfl | rfl
  · have := (isDigit_iff c).1 h
    refine ⟨isSpace_of_isDigit h, ?_, ?_, ?_, ?_, ?_, ?_, ?_, ?_, ?_, ?_, ?_⟩
    · unfold isControl; simp; omega
    · unfold isBlank
      simp only [Bool.or_eq_false_iff, beq_eq_false_iff_ne]
      exact ⟨ne_of_isDigit h (by decide), ne_of_isDigit h (by decide)⟩
    all_goals exact ne_of_isDigit h (by decide)
  all_goals decide

/-- Every number of TOML is a number for Python, of the same value. -/
theorem tomlNumber_parse (s : Str) (q : ℚ) (h : tomlNumber s = some q) : parseFloat s = some (.fin q) := by
  have hch := tomlNumber_chars s q h
  have hstrip : strip s = s := by
    apply strip_of_ends
    · intro c hc; exact (numChar_props c (hch c (List.mem_of_head? hc))).1
    · intro c hc; exact (numChar_props c (hch c (List.mem_of_getLast? hc))).1
  unfold parseFloat
  rw [hstrip]
  unfold tomlNumber at h
  simp only at h ⊢
  generalize (takeSign s).1 = neg at h ⊢
  generalize (takeSign s).2 = t at h ⊢
  split at h
  · cases h
  rename_i hip
  push Not at hip
  have hipd : ∀ c ∈ t.takeWhile isDigit, isDigit c = true := takeWhile_mem_all _
  have htt : t = t.takeWhile isDigit ++ t.dropWhile isDigit := List.takeWhile_append_dropWhile.symm
  generalize t.takeWhile isDigit = ip at h hip hipd htt
  obtain ⟨c, t', hct, hcd⟩ := Digits.head ⟨hip.1, hipd⟩
  obtain ⟨l1, l2⟩ := low_ne c (t' ++ t.dropWhile isDigit) (Or.inl hcd)
  have ht1 : t = c :: (t' ++ t.dropWhile isDigit) := by rw [← List.cons_append, ← hct]; exact htt
  rw [← ht1] at l1 l2
  rw [if_neg l1, if_neg l2]
  have hu : ∀ q0, parseUFloat t = some q0 → (if neg then -q0 else q0) = q →
      (parseUFloat t).map (fun q => PyFloat.fin (if neg then -q else q)) = some (.fin q) := by
    intro q0 h1 h2; rw [h1, Option.map_some, h2]
  split at h
  · rename_i r hr
    split at h
    · cases h
    rename_i hfp
    obtain ⟨e, he, hq⟩ := Option.map_eq_some_iff.1 h
    have hfpd : ∀ c ∈ r.takeWhile isDigit, isDigit c = true := takeWhile_mem_all _
    have hrr : r = r.takeWhile isDigit ++ r.dropWhile isDigit := List.takeWhile_append_dropWhile.symm
    generalize r.takeWhile isDigit = fp at hfp hfpd hrr hq
    generalize r.dropWhile isDigit = r2 at he hrr
    rw [hr, hrr] at htt
    refine hu _ ?_ hq
    unfold parseUFloat
    have hdot : ∀ c, ('.' :: (fp ++ r2)).head? = some c → isRunChar c = false := by
      intro c hc; simp only [List.head?_cons, Option.some.injEq] at hc; subst hc; decide
    have hr2 : ∀ c, r2.head? = some c → isRunChar c = false := fun c hc => (tomlExp_head _ _ he c hc).1
    rw [htt, takeWhile_digits_append hipd hdot, dropWhile_digits_append hipd hdot]
    simp only
    rw [takeWhile_digits_append hfpd hr2, dropWhile_digits_append hfpd hr2,
      if_pos ⟨Or.inr (validRun_digits ⟨hip.1, hipd⟩), Or.inr (validRun_digits ⟨hfp, hfpd⟩), fun h => hip.1 h.1⟩, tomlExp_parse _ _ he,
      filter_digits hfpd, Option.map_some, pow10_zpow]
    push_cast
    rfl
  · rename_i hr
    obtain ⟨e, he, hq⟩ := Option.map_eq_some_iff.1 h
    refine hu _ ?_ hq
    generalize t.dropWhile isDigit = r at he hr htt
    have hrh := tomlExp_head _ _ he
    unfold parseUFloat
    rw [htt, takeWhile_digits_append hipd (fun c hc => (hrh c hc).1), dropWhile_digits_append hipd (fun c hc => (hrh c hc).1)]
    have hv := validRun_digits ⟨hip.1, hipd⟩
    simp only [hv, if_true]
    rw [tomlExp_parse _ _ he, Option.map_some, pow10_zpow]

end Shipgrav
