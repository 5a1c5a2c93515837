import Verif.Py.Fmt
import Verif.Lemmas.Str
import Mathlib.Tactic.Ring
import Mathlib.Tactic.IntervalCases
import Mathlib.Tactic.Linarith
import Mathlib.Tactic.FieldSimp

namespace Shipgrav

/-! ### Digits -/

theorem isDigit_digitC (d : ℕ) (h : d < 10) : isDigit (digitC d) = true := by
  interval_cases d <;> decide

theorem digitVal_digitC (d : ℕ) (h : d < 10) : digitVal (digitC d) = d := by
  interval_cases d <;> decide

theorem isDigit_iff (c : Char) : isDigit c = true ↔ 48 ≤ c.toNat ∧ c.toNat ≤ 57 := by
  unfold isDigit
  simp only [Bool.and_eq_true, decide_eq_true_eq, Char.le_def, UInt32.le_iff_toNat_le]
  exact Iff.rfl

theorem isSpace_of_isDigit {c : Char} (h : isDigit c = true) : isSpace c = false := by
  rw [isDigit_iff] at h
  unfold isSpace
  have : c ≠ ' ' := by rintro rfl; simp at h
  simp [this]; omega

theorem isRunChar_of_isDigit {c : Char} (h : isDigit c = true) : isRunChar c = true := by simp [isRunChar, h]

theorem ne_of_isDigit {c d : Char} (h : isDigit c = true) (hd : isDigit d = false) : c ≠ d := by
  rintro rfl; rw [h] at hd; cases hd

theorem lowerC_of_isDigit {c : Char} (h : isDigit c = true) : lowerC c = c := by
  rw [isDigit_iff] at h
  unfold lowerC
  rw [if_neg]
  simp only [Char.le_def, UInt32.le_iff_toNat_le, not_and, not_le]
  intro h1
  have : (65 : ℕ) ≤ c.toNat := h1
  omega

/-- A non-empty string of digits. -/
def Digits (s : Str) : Prop := s ≠ [] ∧ ∀ c ∈ s, isDigit c = true

theorem zpad_length (k n : ℕ) : (zpad k n).length = k := by
  induction k generalizing n with
  | zero => rfl
  | succ k ih => simp [zpad, ih]

theorem zpad_digits (k n : ℕ) : ∀ c ∈ zpad k n, isDigit c = true := by
  induction k generalizing n with
  | zero => simp [zpad]
  | succ k ih =>
    intro c hc
    rw [zpad, List.mem_append] at hc
    rcases hc with hc | hc
    · exact ih _ c hc
    · simp only [List.mem_singleton] at hc; rw [hc]; exact isDigit_digitC _ (Nat.mod_lt _ (by norm_num))

theorem zpad_Digits (k n : ℕ) : Digits (zpad (k + 1) n) :=
  ⟨fun h => by (have := zpad_length (k + 1) n; rw [h] at this; simp at this), zpad_digits _ _⟩

theorem zpad_Digits' (k n : ℕ) (h : 0 < k) : Digits (zpad k n) := by
  obtain ⟨k, rfl⟩ : ∃ j, k = j + 1 := ⟨k - 1, by omega⟩
  exact zpad_Digits k n

theorem filter_digits {s : Str} (h : ∀ c ∈ s, isDigit c = true) : s.filter isDigit = s := List.filter_eq_self.2 h

theorem runVal_foldl (s : Str) (a : ℕ) :
    s.foldl (fun a c => 10 * a + digitVal c) a = a * 10 ^ s.length + s.foldl (fun a c => 10 * a + digitVal c) 0 := by
  induction s generalizing a with
  | nil => simp
  | cons c s ih =>
    rw [List.foldl_cons, List.foldl_cons, ih (10 * a + digitVal c), ih (10 * 0 + digitVal c), List.length_cons, pow_succ]
    ring

theorem runVal_append (a b : Str) (hb : ∀ c ∈ b, isDigit c = true) :
    runVal (a ++ b) = runVal a * 10 ^ b.length + runVal b := by
  unfold runVal
  rw [List.filter_append, List.foldl_append, runVal_foldl (b.filter isDigit), filter_digits hb]

theorem runVal_zpad (k n : ℕ) : runVal (zpad k n) = n % 10 ^ k := by
  induction k generalizing n with
  | zero => simp [zpad, runVal, Nat.mod_one]
  | succ k ih =>
    have hd : n % 10 < 10 := Nat.mod_lt _ (by norm_num)
    rw [zpad, runVal_append _ _ (by simpa using isDigit_digitC _ hd), ih]
    have : runVal [digitC (n % 10)] = n % 10 := by
      simp [runVal, isDigit_digitC _ hd, digitVal_digitC _ hd]
    rw [this, List.length_singleton, pow_one, pow_succ', Nat.mod_mul]
    ring

theorem runVal_zpad_lt (k n : ℕ) (h : n < 10 ^ k) : runVal (zpad k n) = n := by
  rw [runVal_zpad, Nat.mod_eq_of_lt h]

theorem Digits.head {s : Str} (h : Digits s) : ∃ c t, s = c :: t ∧ isDigit c = true := by
  obtain ⟨h1, h2⟩ := h
  cases s with
  | nil => exact absurd rfl h1
  | cons c t => exact ⟨c, t, rfl, h2 c (by simp)⟩

theorem noDouble_of_notMem (s : Str) (h : '_' ∉ s) : noDoubleUnderscore s = true := by
  induction s with
  | nil => rfl
  | cons a s ih =>
    simp only [List.mem_cons, not_or] at h
    unfold noDoubleUnderscore
    split
    · rename_i heq; simp only [List.cons.injEq] at heq; exact absurd heq.1.symm h.1
    · rename_i heq; simp only [List.cons.injEq] at heq; rw [← heq.2]; exact ih h.2
    · rfl

theorem digits_notMem {s : Str} (h : ∀ c ∈ s, isDigit c = true) {d : Char} (hd : isDigit d = false) : d ∉ s := by
  intro hm; have := h d hm; rw [hd] at this; cases this

theorem validRun_digits {s : Str} (h : Digits s) : validRun s = true := by
  obtain ⟨c, t, rfl, hc⟩ := h.head
  unfold validRun
  have hl : ∃ d, (c :: t).getLast? = some d ∧ isDigit d = true := by
    refine ⟨(c :: t).getLast (by simp), List.getLast?_eq_getLast_of_ne_nil (by simp), ?_⟩
    exact h.2 _ (List.getLast_mem _)
  obtain ⟨d, hd1, hd2⟩ := hl
  have hall : (c :: t).all isRunChar = true := by
    rw [List.all_eq_true]; intro x hx; exact isRunChar_of_isDigit (h.2 x hx)
  have hnd : noDoubleUnderscore (c :: t) = true := noDouble_of_notMem _ (digits_notMem h.2 (by decide))
  rw [hd1, hall, hnd]
  simp [hc, hd2]

theorem strip_of_ends {s : Str} (h1 : ∀ c, s.head? = some c → isSpace c = false)
    (h2 : ∀ c, s.getLast? = some c → isSpace c = false) : strip s = s := by
  have hl : lstrip s = s := by
    unfold lstrip
    cases s with
    | nil => rfl
    | cons c t => rw [List.dropWhile_cons, h1 c rfl]; simp
  unfold strip
  rw [hl]
  unfold rstrip
  have : s.reverse.dropWhile isSpace = s.reverse := by
    cases hs : s.reverse with
    | nil => rfl
    | cons c t =>
      have : s.getLast? = some c := by rw [List.getLast?_eq_head?_reverse, hs]; rfl
      rw [List.dropWhile_cons, h2 c this]; simp
  rw [this, List.reverse_reverse]

theorem strip_digits {s : Str} (h : ∀ c ∈ s, isDigit c = true) : strip s = s := by
  apply strip_of_ends
  · intro c hc; exact isSpace_of_isDigit (h c (List.mem_of_mem_head? hc))
  · intro c hc; exact isSpace_of_isDigit (h c (List.mem_of_getLast? hc))

theorem takeSign_digit (c : Char) (t : Str) (h : isDigit c = true ∨ c = '.') : takeSign (c :: t) = (false, c :: t) := by
  unfold takeSign
  split
  · rename_i heq; simp only [List.cons.injEq] at heq; rw [heq.1] at h; exact absurd h (by decide)
  · rename_i heq; simp only [List.cons.injEq] at heq; rw [heq.1] at h; exact absurd h (by decide)
  · rfl

theorem parseInt_digits {s : Str} (h : Digits s) : parseInt s = some (runVal s : ℤ) := by
  obtain ⟨c, t, rfl, hc⟩ := h.head
  unfold parseInt
  rw [strip_digits h.2, takeSign_digit c t (Or.inl hc)]
  simp [validRun_digits h]

theorem parseInt_zpad (k n : ℕ) (hk : 0 < k) (h : n < 10 ^ k) : parseInt (zpad k n) = some (n : ℤ) := by
  rw [parseInt_digits (zpad_Digits' k n hk), runVal_zpad_lt k n h]

theorem takeWhile_digits_append {s t : Str} (h : ∀ c ∈ s, isDigit c = true) (ht : ∀ c, t.head? = some c → isRunChar c = false) :
    (s ++ t).takeWhile isRunChar = s := by
  rw [List.takeWhile_append_of_pos (fun c hc => isRunChar_of_isDigit (h c hc))]
  cases t with
  | nil => simp
  | cons c t => rw [List.takeWhile_cons, ht c rfl]; simp

theorem dropWhile_digits_append {s t : Str} (h : ∀ c ∈ s, isDigit c = true) (ht : ∀ c, t.head? = some c → isRunChar c = false) :
    (s ++ t).dropWhile isRunChar = t := by
  rw [List.dropWhile_append_of_pos (fun c hc => isRunChar_of_isDigit (h c hc))]
  cases t with
  | nil => simp
  | cons c t => rw [List.dropWhile_cons, ht c rfl]; simp

theorem low_ne (c : Char) (t : Str) (hc : isDigit c = true ∨ c = '.') :
    ¬ ((c :: t).map lowerC = "inf".toList ∨ (c :: t).map lowerC = "infinity".toList) ∧
      ¬ (c :: t).map lowerC = "nan".toList := by
  have hl : lowerC c = c := by
    rcases hc with hc | rfl
    · exact lowerC_of_isDigit hc
    · decide
  have h1 : c ≠ 'i' := by rintro rfl; revert hc; decide
  have h2 : c ≠ 'n' := by rintro rfl; revert hc; decide
  simp [List.map_cons, hl, h1, h2]

theorem parseFloat_start (s : Str) (c : Char) (t : Str) (hs : s = c :: t) (hc : isDigit c = true ∨ c = '.')
    (hlast : ∀ c, s.getLast? = some c → isSpace c = false) :
    parseFloat s = (parseUFloat s).map PyFloat.fin := by
  subst hs
  unfold parseFloat
  rw [strip_of_ends _ hlast, takeSign_digit c t hc]
  · obtain ⟨h1, h2⟩ := low_ne c t hc
    simp only [h1, h2, if_false, Bool.false_eq_true]
  · intro d hd
    simp only [List.head?_cons, Option.some.injEq] at hd
    subst hd
    rcases hc with hc | rfl
    · exact isSpace_of_isDigit hc
    · decide

/-- `float` of a digit string. -/
theorem parseFloat_digits {s : Str} (h : Digits s) : parseFloat s = some (.fin (runVal s)) := by
  obtain ⟨c, t, hs, hc⟩ := h.head
  rw [parseFloat_start s c t hs (Or.inl hc)]
  · unfold parseUFloat
    have h1 := takeWhile_digits_append h.2 (t := []) (by simp)
    have h2 := dropWhile_digits_append h.2 (t := []) (by simp)
    rw [List.append_nil] at h1 h2
    simp only [h1, h2, validRun_digits h, if_true, parseExp, Option.map_some]
    simp [pow10]
  · intro d hd; exact isSpace_of_isDigit (h.2 d (List.mem_of_getLast? hd))

/-- `float` of `digits.digits`. -/
theorem parseFloat_dec {a b : Str} (ha : ∀ c ∈ a, isDigit c = true) (hb : ∀ c ∈ b, isDigit c = true)
    (hne : a ≠ [] ∨ b ≠ []) :
    parseFloat (a ++ '.' :: b) = some (.fin ((runVal a : ℚ) + (runVal b : ℚ) / 10 ^ b.length)) := by
  have key : parseUFloat (a ++ '.' :: b) = some ((runVal a : ℚ) + (runVal b : ℚ) / 10 ^ b.length) := by
    unfold parseUFloat
    have hdot : ∀ c, ('.' :: b).head? = some c → isRunChar c = false := by
      intro c hc; simp at hc; subst hc; decide
    rw [takeWhile_digits_append ha hdot, dropWhile_digits_append ha hdot]
    have h1 := takeWhile_digits_append hb (t := []) (by simp)
    have h2 := dropWhile_digits_append hb (t := []) (by simp)
    rw [List.append_nil] at h1 h2
    simp only [h1, h2, parseExp, Option.map_some]
    rw [if_pos]
    · simp [pow10, filter_digits hb]
    · refine ⟨?_, ?_, ?_⟩
      · by_cases h : a = []
        · exact Or.inl h
        · exact Or.inr (validRun_digits ⟨h, ha⟩)
      · by_cases h : b = []
        · exact Or.inl h
        · exact Or.inr (validRun_digits ⟨h, hb⟩)
      · rintro ⟨rfl, rfl⟩; simp at hne
  have hlast : ∀ c, (a ++ '.' :: b).getLast? = some c → isSpace c = false := by
    intro c hc
    have hm : c ∈ a ++ '.' :: b := List.mem_of_getLast? hc
    simp only [List.mem_append, List.mem_cons] at hm
    rcases hm with h | rfl | h
    · exact isSpace_of_isDigit (ha c h)
    · decide
    · exact isSpace_of_isDigit (hb c h)
  cases a with
  | nil => rw [parseFloat_start ([] ++ '.' :: b) '.' b rfl (Or.inr rfl) hlast, key]; rfl
  | cons c t =>
    rw [parseFloat_start (c :: t ++ '.' :: b) c (t ++ '.' :: b) rfl (Or.inl (ha c (by simp))) hlast, key]; rfl

/-! ### `natStr` -/

theorem natStr_Digits (n : ℕ) : Digits (natStr n) := by
  unfold natStr
  split
  · exact ⟨by simp, by simp; decide⟩
  · rename_i h
    refine ⟨by simpa using Nat.digits_ne_nil_iff_ne_zero.2 h, ?_⟩
    intro c hc
    simp only [List.map_reverse, List.mem_reverse, List.mem_map] at hc
    obtain ⟨d, hd, rfl⟩ := hc
    exact isDigit_digitC d (Nat.digits_lt_base (by norm_num) hd)

theorem runVal_natStr (n : ℕ) : runVal (natStr n) = n := by
  unfold natStr
  split
  · rename_i h; subst h; decide
  · have key : ∀ l : List ℕ, (∀ d ∈ l, d < 10) → runVal (l.reverse.map digitC) = Nat.ofDigits 10 l := by
      intro l hl
      induction l with
      | nil => rfl
      | cons d l ih =>
        have hd := hl d (by simp)
        rw [List.reverse_cons, List.map_append, runVal_append _ _ (by simpa using isDigit_digitC d hd),
          ih (fun x hx => hl x (by simp [hx])), Nat.ofDigits_cons]
        have : runVal (List.map digitC [d]) = d := by simp [runVal, isDigit_digitC d hd, digitVal_digitC d hd]
        rw [this]; simp; ring
    rw [key _ (fun d hd => Nat.digits_lt_base (by norm_num) hd), Nat.ofDigits_digits]

theorem parseInt_natStr (n : ℕ) : parseInt (natStr n) = some (n : ℤ) := by
  rw [parseInt_digits (natStr_Digits n), runVal_natStr]

/-! ### `splitS` -/

theorem splitGo_skip (sep a rest cur : Str) : ∀ k, a.length = k →
    splitGo sep k cur (a ++ rest) = splitGo sep 0 cur rest := by
  induction a with
  | nil => intro k hk; subst hk; rfl
  | cons x a ih =>
    intro k hk
    obtain ⟨k, rfl⟩ : ∃ j, k = j + 1 := ⟨k - 1, by simp at hk; omega⟩
    rw [List.cons_append, splitGo]
    exact ih k (by simpa using hk)

theorem splitGo_first (t pre rest cur : Str) (ht : t ≠ []) (h : ¬ t <:+: pre ++ t.dropLast) :
    splitGo t 0 cur (pre ++ t ++ rest) = (cur.reverse ++ pre) :: splitGo t 0 [] rest := by
  induction pre generalizing cur with
  | nil =>
    obtain ⟨c, t', rfl⟩ := List.exists_cons_of_ne_nil ht
    rw [List.nil_append, List.cons_append, splitGo, if_pos, List.append_nil]
    · rw [splitGo_skip _ t' rest [] _ (by simp)]
    · exact List.isPrefixOf_iff_prefix.2 ⟨rest, by simp⟩
  | cons x pre ih =>
    rw [List.cons_append, List.infix_cons_iff, not_or] at h
    rw [List.cons_append, List.cons_append, splitGo, if_neg, ih _ h.2]
    · simp
    · intro hp
      rw [List.isPrefixOf_iff_prefix] at hp
      apply h.1
      have h1 : x :: (pre ++ t.dropLast) <+: x :: (pre ++ t ++ rest) := by
        rw [List.cons_prefix_cons]
        refine ⟨rfl, ?_⟩
        rw [List.append_assoc, List.prefix_append_right_inj]
        exact (List.dropLast_prefix t).trans (List.prefix_append _ _)
      apply List.prefix_of_prefix_length_le hp h1
      have : 0 < t.length := List.length_pos_iff.2 ht
      simp; omega

theorem splitS_first (t pre rest : Str) (ht : t ≠ []) (h : ¬ t <:+: pre ++ t.dropLast) :
    splitS t (pre ++ t ++ rest) = pre :: splitS t rest := by
  unfold splitS
  rw [splitGo_first t pre rest [] ht h]
  rfl

theorem splitS_none (t s : Str) (h : ¬ t <:+: s) : splitS t s = [s] := by
  unfold splitS
  have : ∀ cur, splitGo t 0 cur s = [cur.reverse ++ s] := by
    induction s with
    | nil => intro cur; simp [splitGo]
    | cons x s ih =>
      intro cur
      rw [List.infix_cons_iff, not_or] at h
      rw [splitGo, if_neg (fun e => h.1 (List.isPrefixOf_iff_prefix.1 e)), ih h.2]
      simp
  simpa using this []

end Shipgrav
