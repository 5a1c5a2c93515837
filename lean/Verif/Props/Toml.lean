import Verif.Lemmas.Toml
import Verif.Lemmas.Dgs
import Mathlib.Data.List.Forall2

/-! Property C108: what a TOML reader makes of the file that `clean_ini_to_toml` (utils.py 108–175) writes. -/

namespace Shipgrav
open Spec

/-! ### Helpers -/

private theorem blank_space {n : ℕ} : ∀ c ∈ List.replicate n ' ', isBlank c = true := by
  intro c hc; rw [List.eq_of_mem_replicate hc]; rfl

private theorem drop_blanks (n : ℕ) (s : Str) (h : ∀ c, s.head? = some c → isBlank c = false) : (List.replicate n ' ' ++ s).dropWhile isBlank = s := by
  rw [List.dropWhile_append_of_pos blank_space]
  cases s with
  | nil => rfl
  | cons c s => rw [List.dropWhile_cons_of_neg]; simpa using h c rfl

theorem bare_props (c : Char) (h : isBareChar c = true) : isBlank c = false ∧ isControl c = false ∧ c ≠ '=' ∧ c ≠ '#' ∧ c ≠ '[' ∧ c ≠ '$' ∧ c ≠ ']' := by
  have key : ∀ d : Char, isBareChar d = false → c ≠ d := by rintro d hd rfl; rw [h] at hd; cases hd
  refine ⟨?_, ?_, key _ (by decide), key _ (by decide), key _ (by decide), key _ (by decide), key _ (by decide)⟩
  · unfold isBlank
    simp only [Bool.or_eq_false_iff, beq_eq_false_iff_ne]
    exact ⟨key _ (by decide), key _ (by decide)⟩
  · by_contra hc
    have hc : isControl c = true := by simpa using hc
    unfold isControl at hc
    unfold isBareChar at h
    simp only [Bool.or_eq_true, Bool.and_eq_true, decide_eq_true_eq, beq_iff_eq, bne_iff_ne, isDigit_iff] at h hc
    have e : ∀ d : Char, (d ≤ c ↔ d.toNat ≤ c.toNat) ∧ (c ≤ d ↔ c.toNat ≤ d.toNat) := fun d => ⟨Iff.rfl, Iff.rfl⟩
    rw [(e 'a').1, (e 'z').2, (e 'A').1, (e 'Z').2] at h
    have : 'a'.toNat = 97 ∧ 'z'.toNat = 122 ∧ 'A'.toNat = 65 ∧ 'Z'.toNat = 90 := by decide
    rcases h with ((((h | h) | h) | h) | h)
    · omega
    · omega
    · omega
    · subst h; revert hc; decide
    · subst h; revert hc; decide

private theorem trim_right (s : Str) (n : ℕ) (h1 : ∀ c, s.head? = some c → isBlank c = false) (h2 : ∀ c, s.getLast? = some c → isBlank c = false) :
    trimBlanks (s ++ List.replicate n ' ') = s := by
  unfold trimBlanks
  cases s with
  | nil =>
    rw [List.nil_append, List.dropWhile_eq_nil_iff.2 blank_space]; rfl
  | cons c s =>
    rw [List.cons_append, List.dropWhile_cons_of_neg (by simpa using h1 c rfl), ← List.cons_append, List.reverse_append, List.reverse_replicate,
      drop_blanks _ _ (by intro d hd; rw [List.head?_reverse] at hd; exact h2 d hd), List.reverse_reverse]

theorem bareKey_ends {s : Str} (h : isBareKey s = true) : s ≠ [] ∧ ∀ c ∈ s, isBareChar c = true := by
  unfold isBareKey at h
  simp only [Bool.and_eq_true, bne_iff_ne, ne_eq] at h
  exact ⟨h.1, fun c hc => List.all_eq_true.1 h.2 c hc⟩

theorem trim_key {s : Str} (h : isBareKey s = true) (n : ℕ) : trimBlanks (s ++ List.replicate n ' ') = s := by
  obtain ⟨_, h2⟩ := bareKey_ends h
  exact trim_right s n (fun c hc => (bare_props c (h2 c (List.mem_of_head? hc))).1) (fun c hc => (bare_props c (h2 c (List.mem_of_getLast? hc))).1)

theorem key_take (key : Str) (n : ℕ) (d : Char) (rest : Str) (h : isBareKey key = true) (hd : isBareChar d = false) (hd' : d ≠ ' ') :
    (key ++ List.replicate n ' ' ++ d :: rest).takeWhile (· ≠ d) = key ++ List.replicate n ' ' ∧
      (key ++ List.replicate n ' ' ++ d :: rest).dropWhile (· ≠ d) = d :: rest := by
  have hall : ∀ c ∈ key ++ List.replicate n ' ', decide (c ≠ d) = true := by
    intro c hc
    rcases List.mem_append.1 hc with hc | hc
    · have := (bareKey_ends h).2 c hc
      simp only [decide_eq_true_eq]; rintro rfl; rw [hd] at this; cases this
    · rw [List.eq_of_mem_replicate hc]; simpa using fun e => hd' e.symm
  constructor
  · rw [List.takeWhile_append_of_pos hall]; simp
  · rw [List.dropWhile_append_of_pos hall]; simp

theorem not_any {s : Str} (h : Printable s) : s.any isControl = false := by
  rw [List.any_eq_false]; intro c hc; simpa using h c hc

theorem printable_append {a b : Str} (ha : Printable a) (hb : Printable b) : Printable (a ++ b) := by
  intro c hc
  rcases List.mem_append.1 hc with h | h
  · exact ha c h
  · exact hb c h

theorem printable_cons {c : Char} {b : Str} (ha : isControl c = false) (hb : Printable b) : Printable (c :: b) := by
  intro d hd
  rcases List.mem_cons.1 hd with rfl | h
  · exact ha
  · exact hb d h

theorem printable_blanks (n : ℕ) : Printable (List.replicate n ' ') := by
  intro c hc; rw [List.eq_of_mem_replicate hc]; rfl

theorem printable_key {s : Str} (h : isBareKey s = true) : Printable s := fun c hc => (bare_props c ((bareKey_ends h).2 c hc)).2.1

/-- What may follow a value. -/
private def TailOk (t : Str) : Prop := ∃ n d, t = List.replicate n ' ' ++ d ∧ (d = [] ∨ ∃ e, d = '#' :: e) ∧ Printable t

private theorem tail_end {t : Str} (h : TailOk t) : isTomlEnd t = true := by
  obtain ⟨n, d, rfl, hd, _⟩ := h
  unfold isTomlEnd
  rw [drop_blanks]
  · rcases hd with rfl | ⟨e, rfl⟩ <;> rfl
  · intro c hc
    rcases hd with rfl | ⟨e, rfl⟩
    · cases hc
    · simp only [List.head?_cons, Option.some.injEq] at hc; subst hc; rfl

private theorem expand_replicate (p : Str) (h : ∀ x ∈ p, isBlank x = true) : expandTabs p = List.replicate (expandTabs p).length ' ' :=
  List.eq_replicate_iff.2 ⟨rfl, expandTabs_blank p h⟩

private theorem tail_subst (p3 : Str) (c : Option IniComment) (hp : ∀ x ∈ p3, isBlank x = true) (hc : ∀ d ∈ c, Printable d.text ∧ p3 ≠ []) :
    TailOk (expandTabs p3 ++ iniSubst (commentLine c)) := by
  refine ⟨(expandTabs p3).length, iniSubst (commentLine c), by rw [← expand_replicate p3 hp], ?_, ?_⟩
  · cases c with
    | none => left; rfl
    | some c => right; exact ⟨_, iniSubst_comment c⟩
  · apply printable_append
    · rw [expand_replicate p3 hp]; exact printable_blanks _
    · cases c with
      | none => intro d hd; cases hd
      | some c =>
        show Printable (iniSubst c.line)
        rw [iniSubst_comment]
        exact printable_cons rfl (iniSubst_printable _ (hc c rfl).1)

private theorem line_pair (key : Str) (n1 n2 : ℕ) (rest : Str) (hk : isBareKey key = true) (hr : Printable rest)
    (hh : ∀ c, rest.head? = some c → isBlank c = false) :
    tomlLine (key ++ List.replicate n1 ' ' ++ '=' :: (List.replicate n2 ' ' ++ rest)) = (tomlValue rest).map fun v => some (.pair key v) := by
  have hp : Printable (key ++ List.replicate n1 ' ' ++ '=' :: (List.replicate n2 ' ' ++ rest)) :=
    printable_append (printable_append (printable_key hk) (printable_blanks _)) (printable_cons rfl (printable_append (printable_blanks _) hr))
  obtain ⟨e1, e2⟩ := key_take key n1 '=' (List.replicate n2 ' ' ++ rest) hk (by decide) (by decide)
  obtain ⟨k0, kall⟩ := bareKey_ends hk
  obtain ⟨x, xs, rfl⟩ := List.exists_cons_of_ne_nil k0
  obtain ⟨b1, _, _, b3, b4, _⟩ := bare_props x (kall x (by simp))
  unfold tomlLine
  rw [not_any hp]
  simp only [Bool.false_eq_true, if_false]
  have hdrop : List.dropWhile isBlank (x :: xs ++ List.replicate n1 ' ' ++ '=' :: (List.replicate n2 ' ' ++ rest)) =
      x :: (xs ++ List.replicate n1 ' ' ++ '=' :: (List.replicate n2 ' ' ++ rest)) := by
    rw [List.cons_append, List.cons_append, List.dropWhile_cons_of_neg (by simpa using b1)]
  rw [hdrop]
  split
  · rename_i heq; cases heq
  · rename_i heq; exact absurd (List.cons.inj heq).1 b3
  · rename_i heq; exact absurd (List.cons.inj heq).1 b4
  · rw [show x :: (xs ++ List.replicate n1 ' ' ++ '=' :: (List.replicate n2 ' ' ++ rest)) =
      x :: xs ++ List.replicate n1 ' ' ++ '=' :: (List.replicate n2 ' ' ++ rest) by simp, e1, e2]
    simp only
    rw [trim_key hk, hk, if_pos rfl, drop_blanks _ _ hh]

private theorem value_quoted (s t : Str) (h1 : '"' ∉ s) (h2 : '\\' ∉ s) (ht : isTomlEnd t = true) : tomlValue ('"' :: s ++ '"' :: t) = some (.str s) := by
  have hall : ∀ c ∈ s, decide (c ≠ '"') = true := by
    intro c hc; simp only [decide_eq_true_eq]; rintro rfl; exact h1 hc
  unfold tomlValue
  simp only [List.cons_append]
  rw [List.takeWhile_append_of_pos hall, List.dropWhile_append_of_pos hall]
  simp [ht, h2]

private theorem value_word (s t : Str) (h0 : s.head? ≠ some '"') (hs : ∀ c ∈ s, isBlank c = false ∧ c ≠ '#') (hne : s ≠ []) (ht : TailOk t) :
    tomlValue (s ++ t) = if s = "true".toList then some (.bool true) else if s = "false".toList then some (.bool false) else (tomlNumber s).map .num := by
  have hend := tail_end ht
  have hall : ∀ c ∈ s, (!isBlank c && c != '#') = true := by intro c hc; simp [hs c hc]
  have hstop : t.takeWhile (fun c => !isBlank c && c != '#') = [] ∧ t.dropWhile (fun c => !isBlank c && c != '#') = t := by
    obtain ⟨n, d, rfl, hd, _⟩ := ht
    cases n with
    | zero =>
      rcases hd with rfl | ⟨e, rfl⟩
      · exact ⟨rfl, rfl⟩
      · simp [isBlank]
    | succ n => rw [List.replicate_succ, List.cons_append]; simp [isBlank]
  obtain ⟨x, xs, rfl⟩ := List.exists_cons_of_ne_nil hne
  unfold tomlValue
  split
  · rename_i heq
    rw [List.cons_append] at heq
    exact absurd (by rw [(List.cons.inj heq).1]; rfl) h0
  · rw [List.takeWhile_append_of_pos hall, List.dropWhile_append_of_pos hall, hstop.1, hstop.2, List.append_nil]
    simp only [hend, Bool.not_true, Bool.false_eq_true, if_false]

private theorem not_space {c : Char} (h1 : isControl c = false) (h2 : isBlank c = false) : isSpace c = false := by
  unfold isBlank at h2
  unfold isControl at h1
  unfold isSpace
  simp only [Bool.or_eq_false_iff, beq_eq_false_iff_ne, Bool.and_eq_false_iff, decide_eq_false_iff_not, bne_eq_false_iff_eq] at h1 h2 ⊢
  obtain ⟨h3, h4⟩ := h2
  obtain ⟨h5, h6⟩ := h1
  have : c.toNat ≥ 32 := by
    rcases h5 with h5 | h5
    · omega
    · exact absurd h5 h4
  exact ⟨⟨h3, by omega⟩, by omega⟩

private theorem strip_blanks (n m : ℕ) (v : Str) (h1 : ∀ c, v.head? = some c → isSpace c = false) (h2 : ∀ c, v.getLast? = some c → isSpace c = false) :
    strip (List.replicate n ' ' ++ v ++ List.replicate m ' ') = v := by
  have hsp : ∀ k, ∀ c ∈ List.replicate k ' ', isSpace c = true := by intro k c hc; rw [List.eq_of_mem_replicate hc]; rfl
  unfold strip lstrip rstrip
  rw [List.append_assoc, List.dropWhile_append_of_pos (hsp n)]
  cases v with
  | nil => rw [List.nil_append, List.dropWhile_eq_nil_iff.2 (hsp m)]; rfl
  | cons c v =>
    rw [List.cons_append, List.dropWhile_cons_of_neg (by simpa using h1 c rfl), ← List.cons_append, List.reverse_append, List.reverse_replicate,
      List.dropWhile_append_of_pos (hsp m)]
    have : ∀ s : Str, (∀ c, s.head? = some c → isSpace c = false) → s.dropWhile isSpace = s := by
      intro s hs
      cases s with
      | nil => rfl
      | cons x s => rw [List.dropWhile_cons_of_neg]; simpa using hs x rfl
    rw [this _ (by intro d hd; rw [List.head?_reverse] at hd; exact h2 d hd), List.reverse_reverse]

private theorem strip_head (n : ℕ) (c : Char) (s : Str) (h : isSpace c = false) : (strip (List.replicate n ' ' ++ c :: s)).head? = some c := by
  unfold strip lstrip rstrip
  rw [List.dropWhile_append_of_pos (by intro d hd; rw [List.eq_of_mem_replicate hd]; rfl), List.dropWhile_cons_of_neg (by simpa using h),
    List.reverse_cons]
  have : ((s.reverse ++ [c]).dropWhile isSpace).reverse.head? = some c := by
    rw [List.head?_reverse]
    by_cases hs : ∀ x ∈ s.reverse, isSpace x = true
    · rw [List.dropWhile_append_of_pos hs, List.dropWhile_cons_of_neg (by simpa using h)]; rfl
    · have : s.reverse.dropWhile isSpace ≠ [] := by rw [ne_eq, List.dropWhile_eq_nil_iff]; exact hs
      rw [List.dropWhile_append, if_neg (by simpa using this)]
      simp
  exact this

private theorem clean_pair (key : Str) (n1 n2 : ℕ) (rest : Str) (hk : isBareKey key = true) :
    let L := key ++ List.replicate n1 ' ' ++ '=' :: (List.replicate n2 ' ' ++ rest)
    let v := strip ((List.replicate n2 ' ' ++ rest).takeWhile fun c => c ≠ '=' ∧ c ≠ '#')
    iniCleanLine L = some (if iniPlainValue v then L else key ++ List.replicate n1 ' ' ++ '=' :: (List.replicate 1 ' ' ++ ('"' :: v ++ ['"']))) := by
  intro L v
  obtain ⟨e1, e2⟩ := key_take key n1 '=' (List.replicate n2 ' ' ++ rest) hk (by decide) (by decide)
  obtain ⟨k0, kall⟩ := bareKey_ends hk
  have hhead : ∀ c, L.head? = some c → isBareChar c = true := by
    obtain ⟨x, xs, rfl⟩ := List.exists_cons_of_ne_nil k0
    intro c hc
    have : x = c := by simpa [L] using hc
    subst this; exact kall x (by simp)
  have hL : iniDollar L = L := by
    unfold iniDollar; rw [if_neg]
    intro h; exact (bare_props _ (hhead _ h)).2.2.2.2.2.1 rfl
  have hpass : ¬ iniPassLine L := by
    rintro (h | h | h)
    · simp [L] at h
    · exact (bare_props _ (hhead _ h)).2.2.2.2.1 rfl
    · exact (bare_props _ (hhead _ h)).2.2.2.1 rfl
  have hv : iniValue L = v := by
    unfold iniValue
    rw [show L.dropWhile (· ≠ '=') = _ from e2]; rfl
  have hkey : iniKey L = key ++ List.replicate n1 ' ' := e1
  unfold iniCleanLine
  simp only [hL]
  rw [if_neg hpass, if_neg (by simp [L]), hv, hkey]
  by_cases h : iniPlainValue v
  · rw [if_pos h, if_pos h]
  · rw [if_neg h, if_neg h]; simp

private theorem take_tail {t : Str} (ht : TailOk t) : ∃ m, t.takeWhile (fun c => decide (c ≠ '=' ∧ c ≠ '#')) = List.replicate m ' ' := by
  obtain ⟨n, d, rfl, hd, _⟩ := ht
  refine ⟨n, ?_⟩
  rw [List.takeWhile_append_of_pos (by intro c hc; rw [List.eq_of_mem_replicate hc]; rfl)]
  rcases hd with rfl | ⟨e, rfl⟩ <;> simp

private theorem value_of (n : ℕ) (v t : Str) (hv : ∀ c ∈ v, c ≠ '=' ∧ c ≠ '#') (h1 : ∀ c, v.head? = some c → isSpace c = false)
    (h2 : ∀ c, v.getLast? = some c → isSpace c = false) (ht : TailOk t) :
    strip ((List.replicate n ' ' ++ (v ++ t)).takeWhile fun c => decide (c ≠ '=' ∧ c ≠ '#')) = v := by
  obtain ⟨m, hm⟩ := take_tail ht
  rw [List.takeWhile_append_of_pos (by intro c hc; rw [List.eq_of_mem_replicate hc]; rfl),
    List.takeWhile_append_of_pos (by intro c hc; simpa using hv c hc), hm, ← List.append_assoc, strip_blanks n m v h1 h2]

private theorem trim_ends {s : Str} (h : trimBlanks s = s) : (∀ c, s.head? = some c → isBlank c = false) ∧ ∀ c, s.getLast? = some c → isBlank c = false := by
  have hh : ∀ (s : Str) c, (s.dropWhile isBlank).head? = some c → isBlank c = false := by
    intro s c hc
    have := List.head?_dropWhile_not isBlank s
    rw [hc] at this
    simpa using this
  unfold trimBlanks at h
  constructor
  · intro c hc
    by_cases hz : s.dropWhile isBlank = []
    · rw [hz] at h; rw [← h] at hc; cases hc
    · have hpre : s <+: s.dropWhile isBlank := by
        conv_lhs => rw [← h]
        have := (List.dropWhile_suffix isBlank (l := (s.dropWhile isBlank).reverse))
        rw [← List.reverse_prefix] at this
        simpa using this
      have : (s.dropWhile isBlank).head? = some c := by
        obtain ⟨r, hr⟩ := hpre
        rw [← hr, List.head?_append, hc]; rfl
      exact hh s c this
  · intro c hc
    rw [← h, List.getLast?_reverse] at hc
    exact hh _ c hc

private theorem entry_ok (e : IniEntry) (hp : e.Proper) (hc : e.Clean) : ∃ o, iniCleanLine (iniSubst e.line) = some o ∧ tomlLine o = some e.meaning := by
  cases e with
  | blank => exact ⟨[], by decide, by decide⟩
  | comment c =>
    refine ⟨'#' :: iniSubst c.text, ?_, ?_⟩
    · show iniCleanLine (iniSubst c.line) = _
      rw [iniSubst_comment]
      unfold iniCleanLine iniDollar iniPassLine
      simp
    · unfold tomlLine
      rw [not_any (printable_cons rfl (iniSubst_printable _ hp))]
      simp [isBlank, IniEntry.meaning]
  | «section» name p3 c =>
    obtain ⟨hn, h3, hcm⟩ := hp
    have hsub : iniSubst (IniEntry.section name p3 c).line = '[' :: name ++ ']' :: (expandTabs p3 ++ iniSubst (commentLine c)) := by
      show iniSubst ('[' :: name ++ ']' :: p3 ++ commentLine c) = _
      rw [show '[' :: name ++ ']' :: p3 ++ commentLine c = ('[' :: name) ++ ']' :: ([] ++ p3 ++ commentLine c) by simp, iniSubst_sep _ _ _ (by decide),
        iniSubst_pad _ _ _ h3 (Or.inr (Or.inl rfl)), iniSubst_nil, List.nil_append]
      have := iniSubst_sep [] name '[' (by decide)
      rw [List.nil_append, iniSubst_nil, List.nil_append, untouched_subst name hc] at this
      rw [this]
    have ht := tail_subst p3 c h3 hcm
    rw [hsub]
    generalize expandTabs p3 ++ iniSubst (commentLine c) = t at ht
    refine ⟨'[' :: name ++ ']' :: t, ?_, ?_⟩
    · unfold iniCleanLine iniDollar iniPassLine
      simp
    · obtain ⟨e1, e2⟩ := key_take name 0 ']' t hn (by decide) (by decide)
      simp only [List.replicate_zero, List.append_nil] at e1 e2
      have htk := trim_key hn 0
      simp only [List.replicate_zero, List.append_nil] at htk
      have hpr : Printable ('[' :: name ++ ']' :: t) := by
        obtain ⟨_, _, _, _, h⟩ := ht
        exact printable_cons rfl (printable_append (printable_key hn) (printable_cons rfl h))
      unfold tomlLine
      rw [not_any hpr]
      simp only [Bool.false_eq_true, if_false, List.cons_append]
      rw [List.dropWhile_cons_of_neg (by decide)]
      simp only [e1, e2, htk, hn, tail_end ht, Bool.and_self, if_true]
      rfl
  | pair key p1 p2 v p3 c =>
    obtain ⟨hk, hb, hvp, hcm⟩ := hp
    obtain ⟨hku, hvc⟩ := hc
    have hb1 : ∀ x ∈ p1, isBlank x = true := fun x hx => hb x (by simp [hx])
    have hb2 : ∀ x ∈ p2, isBlank x = true := fun x hx => hb x (by simp [hx])
    have hb3 : ∀ x ∈ p3, isBlank x = true := fun x hx => hb x (by simp [hx])
    have hsub : iniSubst (IniEntry.pair key p1 p2 v p3 c).line =
        key ++ expandTabs p1 ++ '=' :: (expandTabs p2 ++ (iniSubst v.line ++ (expandTabs p3 ++ iniSubst (commentLine c)))) := by
      show iniSubst (key ++ p1 ++ '=' :: p2 ++ v.line ++ p3 ++ commentLine c) = _
      rw [show key ++ p1 ++ '=' :: p2 ++ v.line ++ p3 ++ commentLine c = (key ++ p1 ++ []) ++ '=' :: ([] ++ p2 ++ (v.line ++ p3 ++ commentLine c)) by simp,
        iniSubst_sep _ _ _ (by decide), iniSubst_pad key p1 [] hb1 (Or.inr (Or.inr rfl)), iniSubst_pad [] p2 _ hb2 (Or.inr (Or.inl rfl)),
        iniSubst_pad v.line p3 _ hb3, untouched_subst key hku]
      · simp [iniSubst_nil]
      · cases c with
        | none => exact Or.inr (Or.inr rfl)
        | some c => exact Or.inl (hcm c rfl).2
    have ht := tail_subst p3 c hb3 hcm
    rw [hsub, expand_replicate p1 hb1, expand_replicate p2 hb2]
    generalize expandTabs p3 ++ iniSubst (commentLine c) = t at ht
    generalize (expandTabs p1).length = n1
    generalize (expandTabs p2).length = n2
    have htp : Printable t := by obtain ⟨_, _, _, _, h⟩ := ht; exact h
    -- a value that is written as it is
    have keep : ∀ (w : Str), iniSubst v.line = w → Printable w → (∀ c, w.head? = some c → isBlank c = false) → w ≠ [] →
        iniPlainValue (strip ((List.replicate n2 ' ' ++ (w ++ t)).takeWhile fun c => decide (c ≠ '=' ∧ c ≠ '#'))) →
        tomlValue (w ++ t) = some v.meaning →
        ∃ o, iniCleanLine (key ++ List.replicate n1 ' ' ++ '=' :: (List.replicate n2 ' ' ++ (iniSubst v.line ++ t))) = some o ∧
          tomlLine o = some (IniEntry.pair key p1 p2 v p3 c).meaning := by
      intro w hw hpw hh hne hpl hval
      refine ⟨key ++ List.replicate n1 ' ' ++ '=' :: (List.replicate n2 ' ' ++ (w ++ t)), ?_, ?_⟩
      · have := clean_pair key n1 n2 (w ++ t) hk
        simp only at this
        rw [hw, this, if_pos hpl]
      · rw [line_pair key n1 n2 (w ++ t) hk (printable_append hpw htp), hval]
        · rfl
        · intro c hc
          obtain ⟨x, xs, rfl⟩ := List.exists_cons_of_ne_nil hne
          exact hh c (by simpa using hc)
    cases v with
    | number s =>
      obtain ⟨q, hq⟩ := Option.ne_none_iff_exists'.1 hvc
      have hch := tomlNumber_chars s q hq
      have hpf := tomlNumber_parse s q hq
      have hpr := fun c hc => numChar_props c (hch c hc)
      have hne : s ≠ [] := by
        rintro rfl
        have h0 : tomlNumber [] = none := by decide
        rw [h0] at hq; cases hq
      have hst : iniSubst s = s := by
        have no : ∀ (p : Str) (d : Char), d ∈ p → d ∉ s → ¬ p <:+: s := fun p d h1 h2 h3 => h2 (h3.subset h1)
        apply untouched_subst
        exact ⟨no _ '/' (by decide) (fun h => (hpr _ h).2.2.2.2.2.2.1 rfl), fun h => (hpr _ h).2.2.2.2.2.2.2.2.2.2.2 rfl,
          no _ 'T' (by decide) (fun h => (hpr _ h).2.2.2.2.2.2.2.1 rfl), no _ 'F' (by decide) (fun h => (hpr _ h).2.2.2.2.2.2.2.2.1 rfl)⟩
      refine keep s hst (fun c hc => (hpr c hc).2.1) (fun c hc => (hpr c (List.mem_of_head? hc)).2.2.1) hne ?_ ?_
      · rw [value_of n2 s t (fun c hc => ⟨(hpr c hc).2.2.2.1, (hpr c hc).2.2.2.2.1⟩) (fun c hc => (hpr c (List.mem_of_head? hc)).1)
          (fun c hc => (hpr c (List.mem_of_getLast? hc)).1) ht]
        right; right; right; rw [hpf]; rfl
      · rw [value_word s t (fun h => (hpr _ (List.mem_of_head? h)).2.2.2.2.2.1 rfl) (fun c hc => ⟨(hpr c hc).2.2.1, (hpr c hc).2.2.2.2.1⟩) hne ht,
          if_neg, if_neg, hq]
        · simp [IniVal.meaning, hpf]
        · rintro rfl; exact (hpr 'f' (by decide)).2.2.2.2.2.2.2.2.2.2.1 rfl
        · rintro rfl; exact (hpr 't' (by decide)).2.2.2.2.2.2.2.2.2.1 rfl
    | bool upper b =>
      have hs : iniSubst (IniVal.bool upper b).line = if b then "true".toList else "false".toList := by
        cases upper <;> cases b <;> decide
      refine keep _ hs ?_ ?_ ?_ ?_ ?_
      · unfold Printable; cases b <;> decide
      · cases b <;> decide
      · cases b <;> decide
      · rw [value_of n2 _ t _ _ _ ht]
        · cases b
          · right; left; rfl
          · left; rfl
        · cases b <;> decide
        · cases b <;> decide
        · cases b <;> decide
      · rw [value_word _ t _ _ _ ht]
        · cases b <;> rfl
        · cases b <;> decide
        · cases b <;> decide
        · cases b <;> decide
    | quoted s =>
      obtain ⟨hpr, hnq⟩ := hvp
      obtain ⟨hun, hbs⟩ := hvc
      have hs : iniSubst (IniVal.quoted s).line = '"' :: s ++ ['"'] := by
        show iniSubst ('"' :: s ++ ['"']) = _
        have h1 := iniSubst_sep [] (s ++ ['"']) '"' (by decide)
        have h2 := iniSubst_sep s [] '"' (by decide)
        rw [List.nil_append, iniSubst_nil, List.nil_append] at h1
        rw [iniSubst_nil, untouched_subst s hun] at h2
        rw [List.cons_append, h1, h2]
      refine keep _ hs (printable_append (printable_cons rfl hpr) (printable_cons rfl (by intro c hc; cases hc))) ?_ (by simp) ?_ ?_
      · intro c hc; simp at hc; subst hc; rfl
      · right; right; left
        rw [List.takeWhile_append_of_pos (by intro c hc; rw [List.eq_of_mem_replicate hc]; rfl), List.cons_append, List.cons_append,
          List.takeWhile_cons_of_pos (by decide)]
        exact strip_head _ _ _ (by decide)
      · have := value_quoted s t hnq hbs (tail_end ht)
        rw [show '"' :: s ++ ['"'] ++ t = '"' :: s ++ '"' :: t by simp, this]; rfl
    | text s =>
      obtain ⟨hpr, htr, hh, _, hq, hpf, hnb⟩ := hvp
      obtain ⟨hun, hbs, hnq, hne⟩ := hvc
      have hs : iniSubst (IniVal.text s).line = s := untouched_subst s hun
      obtain ⟨t1, t2⟩ := trim_ends htr
      have hval := value_of n2 s t (fun c hc => ⟨fun e => hne (e ▸ hc), fun e => hh (e ▸ hc)⟩)
        (fun c hc => not_space (hpr c (List.mem_of_head? hc)) (t1 c hc)) (fun c hc => not_space (hpr c (List.mem_of_getLast? hc)) (t2 c hc)) ht
      have hnp : ¬ iniPlainValue s := by
        rintro (h | h | h | h)
        · exact hnb (by simp [h])
        · exact hnb (by simp [h])
        · exact hq h
        · rw [hpf] at h; cases h
      refine ⟨key ++ List.replicate n1 ' ' ++ '=' :: (List.replicate 1 ' ' ++ ('"' :: s ++ ['"'])), ?_, ?_⟩
      · have := clean_pair key n1 n2 (s ++ t) hk
        simp only at this
        rw [hs, this, hval, if_neg hnp]
      · rw [line_pair key n1 1 _ hk (printable_append (printable_cons rfl hpr) (printable_cons rfl (by intro c hc; cases hc)))
          (by intro c hc; simp at hc; subst hc; rfl)]
        have := value_quoted s [] hnq hbs rfl
        rw [show '"' :: s ++ '"' :: [] = '"' :: s ++ ['"'] from rfl] at this
        rw [this]; rfl

private theorem lines_out (outs : List Str) (h : ∀ o ∈ outs, '\n' ∉ o) : splitC '\n' (outs.flatMap (fun o => o ++ ['\n'])) = outs ++ [[]] := by
  induction outs with
  | nil => rfl
  | cons o os ih =>
    rw [List.flatMap_cons, List.append_assoc, List.singleton_append, splitC_append _ _ _ (h o (by simp)), ih (fun x hx => h x (by simp [hx]))]
    rfl

private theorem readable_printable {o : Str} {m : Option ConfStmt} (h : tomlLine o = some m) : '\n' ∉ o := by
  intro hn
  unfold tomlLine at h
  rw [if_pos (List.any_eq_true.2 ⟨'\n', hn, by decide⟩)] at h
  cases h

private theorem loop_outs (ls : List Str) (outs : List Str) (h : List.Forall₂ (fun l o => iniCleanLine l = some o) ls outs) :
    iniLoop ls = (outs.flatMap (fun o => o ++ ['\n']), none) := by
  induction h with
  | nil => rfl
  | cons h _ ih =>
    rw [iniLoop, iniLine_eq, h]
    simp only [ih]
    simp

private theorem entries_ok (es : List IniEntry) (hp : ∀ e ∈ es, e.Proper ∧ e.Clean) :
    ∃ outs, List.Forall₂ (fun l o => iniCleanLine l = some o) ((es.map IniEntry.line).map iniSubst) outs ∧ outs.mapM tomlLine = some (es.map IniEntry.meaning) ∧
      ∀ o ∈ outs, '\n' ∉ o := by
  induction es with
  | nil => exact ⟨[], .nil, rfl, by simp⟩
  | cons e es ih =>
    obtain ⟨outs, h1, h2, h3⟩ := ih (fun x hx => hp x (by simp [hx]))
    obtain ⟨o, h4, h5⟩ := entry_ok e (hp e (by simp)).1 (hp e (by simp)).2
    refine ⟨o :: outs, .cons h4 h1, ?_, ?_⟩
    · rw [List.mapM_cons, h5, h2]; rfl
    · intro x hx
      rcases List.mem_cons.1 hx with rfl | hx
      · exact readable_printable h5
      · exact h3 x hx

private theorem line_no_newline (e : IniEntry) (hp : e.Proper) : '\n' ∉ e.line := by
  intro hn
  have ht : ∀ (c : Option IniComment) (p3 : Str), (∀ x ∈ p3, isBlank x = true) → (∀ d ∈ c, Printable d.text ∧ p3 ≠ []) → '\n' ∉ p3 ++ commentLine c := by
    intro c p3 h3 hcm h
    rcases List.mem_append.1 h with h | h
    · exact absurd (h3 _ h) (by decide)
    · cases c with
      | none => cases h
      | some c =>
        have h : '\n' ∈ c.line := h
        unfold IniComment.line at h
        rcases List.mem_append.1 h with h | h
        · revert h; cases c.slashes <;> decide
        · exact absurd ((hcm c rfl).1 _ h) (by decide)
  have hk : ∀ k : Str, isBareKey k = true → '\n' ∉ k := fun k hk h => absurd (printable_key hk _ h) (by decide)
  cases e with
  | blank => cases hn
  | comment c =>
    have h : '\n' ∈ c.line := hn
    unfold IniComment.line at h
    rcases List.mem_append.1 h with h | h
    · revert h; cases c.slashes <;> decide
    · exact absurd (hp _ h) (by decide)
  | «section» name p3 c =>
    obtain ⟨hn', h3, hcm⟩ := hp
    have hn : '\n' ∈ '[' :: name ++ ']' :: p3 ++ commentLine c := hn
    have := ht c p3 h3 hcm
    have := hk name hn'
    simp at hn
    simp at *
    tauto
  | pair key p1 p2 v p3 c =>
    obtain ⟨hk', hb, hv, hcm⟩ := hp
    have hn : '\n' ∈ key ++ p1 ++ '=' :: p2 ++ v.line ++ p3 ++ commentLine c := hn
    have h1 := ht c p3 (fun x hx => hb x (by simp [hx])) hcm
    have h2 := hk key hk'
    have h3 : '\n' ∉ p1 := fun h => absurd (hb '\n' (by simp [h])) (by decide)
    have h4 : '\n' ∉ p2 := fun h => absurd (hb '\n' (by simp [h])) (by decide)
    have h5 : '\n' ∉ v.line := by
      cases v with
      | number s => exact fun h => absurd (hv.2 _ h) (by decide)
      | bool u b => cases u <;> cases b <;> decide
      | quoted s =>
        intro h
        have h : '\n' ∈ '"' :: s ++ ['"'] := h
        have h : '\n' ∈ s := by simpa using h
        exact absurd (hv.1 _ h) (by decide)
      | text s => exact fun h => absurd (hv.1 _ h) (by decide)
    simp only [List.mem_append, List.mem_cons] at hn h1
    have h6 : ('\n' : Char) ≠ '=' := by decide
    tauto

/-! ### The property -/

/-- C108 for lines that survive the replacements: if the lines of an ini file are as users write them, none contains a text that the clean-up replaces where
it should not or cannot write (`Clean`), and no name is defined twice, then the clean-up writes a file without raising, and a TOML reader reads from that file
exactly the sections, keys and values of the ini file, in order.  What is missing for the full claim is `Clean`; see the refutations below. -/
theorem C108_document_partial (es : List IniEntry) (hp : ∀ e ∈ es, e.Proper ∧ e.Clean) (hn : (confPaths [] (es.filterMap IniEntry.meaning)).Nodup) :
    ∃ w, cleanIni (joinC '\n' (es.map IniEntry.line)) = (w, none) ∧ tomlDoc w = some (es.filterMap IniEntry.meaning) := by
  obtain ⟨outs, h1, h2, h3⟩ := entries_ok es hp
  cases es with
  | nil => exact ⟨['\n'], by decide, by decide⟩
  | cons e es =>
    refine ⟨outs.flatMap (fun o => o ++ ['\n']), ?_, ?_⟩
    · unfold cleanIni
      rw [iniSubst_lines, splitC_joinC]
      · exact loop_outs _ _ h1
      · simp
      · intro l hl
        obtain ⟨x, hx, rfl⟩ := List.mem_map.1 hl
        exact line_no_newline x (hp x hx).1
    · unfold tomlDoc
      rw [lines_out outs h3, List.mapM_append, h2]
      have hl : ([[]] : List Str).mapM tomlLine = some [none] := by decide
      have hm : ((e :: es).map IniEntry.meaning ++ [none]).filterMap id = (e :: es).filterMap IniEntry.meaning := by
        rw [List.filterMap_append, List.filterMap_map]; simp
      rw [hl]
      show (if (confPaths [] (((e :: es).map IniEntry.meaning ++ [none]).filterMap id)).Nodup then some (((e :: es).map IniEntry.meaning ++ [none]).filterMap id) else none) = _
      rw [hm, if_pos hn]

/-! ### Why the hypothesis is needed -/

/-- C108 fails for a number without a digit before the point: `float` reads it, so the line is kept, but TOML does not allow it. -/
theorem C108_number_refuted :
    (IniEntry.pair "gain".toList [] [] (.number ".5".toList) [] none).Proper ∧
      cleanIni "gain=.5".toList = ("gain=.5\n".toList, none) ∧ tomlDoc "gain=.5\n".toList = none := by
  refine ⟨⟨by decide, by decide, ⟨⟨1 / 2, by decide +kernel⟩, by decide⟩, by simp⟩, by decide +kernel, by decide +kernel⟩

/-- C108 fails for a key with `TRUE` in it: another key is written. -/
theorem C108_key_refuted :
    (IniEntry.pair "TRUENORTH".toList [] [] (.number "1".toList) [] none).Proper ∧
      cleanIni "TRUENORTH=1".toList = ("trueNORTH=1\n".toList, none) ∧ tomlDoc "trueNORTH=1\n".toList = some [.pair "trueNORTH".toList (.num 1)] := by
  refine ⟨⟨by decide, by decide, ⟨⟨1, by decide +kernel⟩, by decide⟩, by simp⟩, by decide +kernel, by decide +kernel⟩

/-- C108 fails for a text with an `=` in it: the text is cut there. -/
theorem C108_equals_refuted :
    (IniEntry.pair "formula".toList [] [] (.text "y=2x".toList) [] none).Proper ∧
      cleanIni "formula=y=2x".toList = ("formula= \"y\"\n".toList, none) ∧
      tomlDoc "formula= \"y\"\n".toList = some [.pair "formula".toList (.str "y".toList)] := by
  refine ⟨⟨by decide, by decide, ⟨by unfold Printable; decide, by decide, by decide, by decide, by decide, by decide +kernel, by decide⟩, by simp⟩,
    by decide +kernel, by decide +kernel⟩

/-- C108 fails for a Windows path: the backslashes are written into a quoted string and cannot be read. -/
theorem C108_backslash_refuted :
    (IniEntry.pair "path".toList [] [] (.text "C:\\data".toList) [] none).Proper ∧
      cleanIni "path=C:\\data".toList = ("path= \"C:\\data\"\n".toList, none) ∧ tomlDoc "path= \"C:\\data\"\n".toList = none := by
  refine ⟨⟨by decide, by decide, ⟨by unfold Printable; decide, by decide, by decide, by decide, by decide, by decide +kernel, by decide⟩, by simp⟩,
    by decide +kernel, by decide +kernel⟩

/-! ### Non-vacuity -/

/-- A file with a section, a comment, a switch, a number with a comment, an unquoted and a quoted text. -/
private def sample : List IniEntry :=
  [.comment ⟨true, " meter".toList⟩, .blank, .section "Sensor".toList [] none,
    .pair "on".toList [] [] (.bool true true) [] none,
    .pair "gain".toList "\t".toList " ".toList (.number "-1.5e3".toList) " ".toList (some ⟨true, " FALSE alarm".toList⟩),
    .pair "name".toList " ".toList [] (.text "AT1M 23".toList) [] none,
    .pair "url".toList [] [] (.quoted "a = b # c".toList) "\t".toList (some ⟨false, "".toList⟩)]

example : (∀ e ∈ sample, e.Proper ∧ e.Clean) ∧ (confPaths [] (sample.filterMap IniEntry.meaning)).Nodup := by
  refine ⟨?_, by decide +kernel⟩
  simp only [sample, List.forall_mem_cons]
  refine ⟨⟨?_, trivial⟩, ⟨trivial, trivial⟩, ⟨⟨by decide, by decide, by simp⟩, ?_⟩, ⟨⟨by decide, by decide, trivial, by simp⟩, ?_, trivial⟩,
    ⟨⟨by decide, by decide, ⟨⟨-1500, by decide +kernel⟩, by decide⟩, ?_⟩, ?_, by show tomlNumber _ ≠ none; decide +kernel⟩,
    ⟨⟨by decide, by decide, ⟨by unfold Printable; decide, by decide, by decide, by decide, by decide, by decide +kernel, by decide⟩, by simp⟩, ?_, ?_, by decide, by decide, by decide⟩,
    ⟨⟨by decide, by decide, ⟨by unfold Printable; decide, by decide⟩, ?_⟩, ?_, ?_, by decide⟩, by simp⟩
  · show Printable _; unfold Printable; decide
  · show Untouched _; unfold Untouched; decide
  · unfold Untouched; decide
  · intro d hd; cases hd; refine ⟨by unfold Printable; decide, by decide⟩
  · unfold Untouched; decide
  · unfold Untouched; decide
  · unfold Untouched; decide
  · intro d hd; cases hd; refine ⟨by unfold Printable; decide, by decide⟩
  · unfold Untouched; decide
  · unfold Untouched; decide

end Shipgrav
