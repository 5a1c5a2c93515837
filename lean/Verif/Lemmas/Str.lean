import Verif.Py.Core
import Mathlib.Data.List.Infix
import Mathlib.Data.List.TakeWhile

namespace Shipgrav

theorem splitC_ne_nil (c : Char) (s : Str) : splitC c s ≠ [] := by
  cases s with
  | nil => simp [splitC]
  | cons x xs =>
    unfold splitC
    split
    · simp
    · split <;> simp

theorem splitC_notMem (c : Char) (s : Str) (h : c ∉ s) : splitC c s = [s] := by
  induction s with
  | nil => rfl
  | cons x xs ih =>
    simp only [List.mem_cons, not_or] at h
    rw [splitC, if_neg (fun e => h.1 e.symm), ih h.2]

theorem splitC_append (c : Char) (a b : Str) (h : c ∉ a) : splitC c (a ++ c :: b) = a :: splitC c b := by
  induction a with
  | nil => simp [splitC]
  | cons x xs ih =>
    simp only [List.mem_cons, not_or] at h
    rw [List.cons_append, splitC, if_neg (fun e => h.1 e.symm), ih h.2]

/-- Cut a string at its first `c`. -/
theorem mem_split (c : Char) (s : Str) (h : c ∈ s) :
    s = s.takeWhile (· ≠ c) ++ c :: (s.dropWhile (· ≠ c)).drop 1 := by
  induction s with
  | nil => simp at h
  | cons x xs ih =>
    by_cases hx : x = c
    · subst hx; simp
    · have : c ∈ xs := by
        rcases List.mem_cons.1 h with h | h
        · exact absurd h.symm hx
        · exact h
      have e := ih this
      simp only [ne_eq, hx, not_false_eq_true, decide_true, List.takeWhile_cons, List.dropWhile_cons, if_true,
        List.cons_append, List.cons.injEq, true_and]
      exact e

theorem notMem_takeWhile (c : Char) (s : Str) : c ∉ s.takeWhile (· ≠ c) := by
  intro h
  have := List.mem_takeWhile_imp h
  simp at this

theorem splitC_mem (c : Char) (s : Str) (h : c ∈ s) :
    splitC c s = s.takeWhile (· ≠ c) :: splitC c ((s.dropWhile (· ≠ c)).drop 1) := by
  conv_lhs => rw [mem_split c s h]
  rw [splitC_append _ _ _ (notMem_takeWhile c s)]

theorem takeWhile_eq_self_of_notMem (c : Char) (s : Str) (h : c ∉ s) : s.takeWhile (· ≠ c) = s := by
  rw [List.takeWhile_eq_self_iff]
  intro x hx
  simp only [ne_eq, decide_not, Bool.not_eq_eq_eq_not, Bool.not_true, decide_eq_false_iff_not]
  rintro rfl; exact h hx

theorem splitC_head (c : Char) (s : Str) : (splitC c s)[0]? = some (s.takeWhile (· ≠ c)) := by
  by_cases h : c ∈ s
  · rw [splitC_mem c s h]; rfl
  · rw [splitC_notMem c s h, takeWhile_eq_self_of_notMem c s h]; rfl

theorem splitC_second (c : Char) (s : Str) :
    (splitC c s)[1]? = if c ∈ s then some (((s.dropWhile (· ≠ c)).drop 1).takeWhile (· ≠ c)) else none := by
  by_cases h : c ∈ s
  · rw [splitC_mem c s h, if_pos h, List.getElem?_cons_succ, splitC_head]
  · rw [splitC_notMem c s h, if_neg h]; rfl

theorem splitC_no_sep (c : Char) (s : Str) : ∀ p ∈ splitC c s, c ∉ p := by
  induction s with
  | nil => intro p hp; simp [splitC] at hp; simp [hp]
  | cons x xs ih =>
    intro p hp
    unfold splitC at hp
    split at hp
    · rcases List.mem_cons.1 hp with rfl | hp
      · simp
      · exact ih p hp
    · rename_i hx
      cases hs : splitC c xs with
      | nil => exact absurd hs (splitC_ne_nil c xs)
      | cons h t =>
        rw [hs] at hp ih
        rcases List.mem_cons.1 hp with rfl | hp
        · have := ih h (by simp)
          simp only [List.mem_cons, not_or]
          exact ⟨fun e => hx e.symm, this⟩
        · exact ih p (by simp [hp])

theorem joinC_splitC (c : Char) (s : Str) : joinC c (splitC c s) = s := by
  induction s with
  | nil => rfl
  | cons x xs ih =>
    unfold splitC
    split
    · rename_i h
      cases hs : splitC c xs with
      | nil => exact absurd hs (splitC_ne_nil c xs)
      | cons a t => rw [joinC, ← hs, ih, h]; simp; simp
    · cases hs : splitC c xs with
      | nil => exact absurd hs (splitC_ne_nil c xs)
      | cons a t =>
        rw [hs] at ih
        cases t with
        | nil => simp [joinC] at ih ⊢; exact ih
        | cons b t => simp [joinC] at ih ⊢; exact ih

/-! ### `replaceS` -/

/-- With a pattern that avoids `c`, a match at the start of `a ++ c :: b` lies inside `a`. -/
theorem isPrefixOf_append_sep (p a b : Str) (c : Char) (hp : c ∉ p) :
    p.isPrefixOf (a ++ c :: b) = p.isPrefixOf a := by
  induction p generalizing a with
  | nil => simp
  | cons x p ih =>
    simp only [List.mem_cons, not_or] at hp
    cases a with
    | nil =>
      simp only [List.nil_append, List.isPrefixOf]
      have : (x == c) = false := by simp [Ne.symm hp.1]
      simp [this]
    | cons y a => simp [List.isPrefixOf, ih a hp.2]

theorem replaceGo_append_sep (old new a b : Str) (c : Char) (hc : c ∉ old) :
    ∀ (k : ℕ), k ≤ a.length →
      replaceGo old new k (a ++ c :: b) = replaceGo old new k a ++ replaceGo old new 0 (c :: b) := by
  induction a with
  | nil => intro k hk; obtain rfl : k = 0 := by simpa using hk
           simp [replaceGo]
  | cons x a ih =>
    intro k hk
    cases k with
    | succ k => simp only [List.cons_append, replaceGo]; exact ih k (by simpa using hk)
    | zero =>
      rw [List.cons_append, replaceGo, replaceGo]
      have := isPrefixOf_append_sep old (x :: a) b c hc
      rw [List.cons_append] at this
      rw [this]
      split
      · rename_i h
        have hl : old.length ≤ (x :: a).length := (List.isPrefixOf_iff_prefix.1 h).length_le
        rw [ih (old.length - 1) (by simp at hl; omega), List.append_assoc]
      · rw [ih 0 (by simp), List.cons_append]

/-- Replacing a pattern that avoids `c` acts separately on both sides of a `c`. -/
theorem replaceS_append_sep (old new a b : Str) (c : Char) (hc : c ∉ old) (ho : old ≠ []) :
    replaceS old new (a ++ c :: b) = replaceS old new a ++ c :: replaceS old new b := by
  unfold replaceS
  rw [replaceGo_append_sep old new a b c hc 0 (by simp)]
  congr 1
  rw [replaceGo]
  have : old.isPrefixOf (c :: b) = false := by
    cases old with
    | nil => simp at ho
    | cons x p => simp only [List.mem_cons, not_or] at hc; simp [List.isPrefixOf, Ne.symm hc.1]
  simp [this]

theorem replaceGo_no_new_char (old new : Str) (c : Char) (hn : c ∉ new) (s : Str) (hs : c ∉ s) :
    ∀ k, c ∉ replaceGo old new k s := by
  induction s with
  | nil => intro k; simp [replaceGo]
  | cons x s ih =>
    simp only [List.mem_cons, not_or] at hs
    intro k
    cases k with
    | succ k => rw [replaceGo]; exact ih hs.2 k
    | zero =>
      rw [replaceGo]
      split
      · simp [hn, ih hs.2]
      · simp [hs.1, ih hs.2]

/-- Splitting into lines and replacing commute. -/
theorem splitC_replaceS (old new s : Str) (c : Char) (hc : c ∉ old) (hn : c ∉ new) (ho : old ≠ []) :
    splitC c (replaceS old new s) = (splitC c s).map (replaceS old new) := by
  induction hlen : s.length using Nat.strong_induction_on generalizing s with
  | _ n ih =>
    by_cases h : c ∈ s
    · have hs := mem_split c s h
      set a := s.takeWhile (· ≠ c)
      set b := (s.dropWhile (· ≠ c)).drop 1
      have ha : c ∉ a := notMem_takeWhile c s
      rw [hs, replaceS_append_sep old new a b c hc ho, splitC_append _ _ _ ha,
        splitC_append _ (replaceS old new a) _ (replaceGo_no_new_char old new c hn a ha 0), List.map_cons]
      congr 1
      have : b.length < n := by rw [← hlen, hs]; simp; omega
      exact ih b.length this b rfl
    · rw [splitC_notMem c s h, splitC_notMem _ (replaceS old new s) (replaceGo_no_new_char old new c hn s h 0)]
      rfl

/-- A suffix of the pattern found at the start of the result was already at the start of the input. -/
theorem prefix_of_prefix_replace (old new : Str) (hn : new ≠ []) (hdis : ∀ c ∈ new, c ∉ old) :
    ∀ (p : Str), (∀ c ∈ p, c ∈ old) → ∀ s : Str, p <+: replaceGo old new 0 s → p <+: s := by
  intro p
  induction p with
  | nil => intro _ s _; exact List.nil_prefix
  | cons a p ih =>
    intro hp s h
    cases s with
    | nil => simp [replaceGo] at h
    | cons c cs =>
      rw [replaceGo] at h
      split at h
      · exfalso
        cases new with
        | nil => exact hn rfl
        | cons n0 ns =>
          rw [List.cons_append, List.cons_prefix_cons] at h
          exact hdis a (by simp [h.1]) (hp a (by simp))
      · rw [List.cons_prefix_cons] at h ⊢
        exact ⟨h.1, ih (fun c hc => hp c (by simp [hc])) cs h.2⟩

/-- After replacing, no occurrence of the pattern is left. -/
theorem replaceGo_no_occ (old new : Str) (ho : old ≠ []) (hn : new ≠ []) (hdis : ∀ c ∈ new, c ∉ old) :
    ∀ (s : Str) (k : ℕ), ¬ old <:+: replaceGo old new k s := by
  intro s
  induction s with
  | nil => intro k; rw [replaceGo]; simpa using ho
  | cons c cs ih =>
    intro k
    cases k with
    | succ k => rw [replaceGo]; exact ih k
    | zero =>
      have key := prefix_of_prefix_replace old new hn hdis old (fun c h => h) (c :: cs)
      rw [replaceGo] at key ⊢
      split
      · rename_i hpre
        intro hinf
        have : ∀ m : Str, (∀ c ∈ m, c ∉ old) → old <:+: m ++ replaceGo old new (old.length - 1) cs → False := by
          intro m
          induction m with
          | nil => intro _ h; exact ih _ h
          | cons x m ihm =>
            intro hm h
            rw [List.cons_append, List.infix_cons_iff] at h
            rcases h with h | h
            · cases old with
              | nil => exact ho rfl
              | cons o os =>
                rw [List.cons_prefix_cons] at h
                exact hm x (by simp) (by simp [h.1])
            · exact ihm (fun c hc => hm c (by simp [hc])) h
        exact this new hdis hinf
      · rename_i hpre
        rw [if_neg hpre] at key
        rw [List.infix_cons_iff]
        rintro (h | h)
        · exact hpre (List.isPrefixOf_iff_prefix.2 (key h))
        · exact ih 0 h

theorem replaceS_of_no_occ (old new : Str) (s : Str) (h : ¬ old <:+: s) : replaceS old new s = s := by
  unfold replaceS
  induction s with
  | nil => rfl
  | cons c cs ih =>
    rw [List.infix_cons_iff, not_or] at h
    rw [replaceGo, if_neg (fun e => h.1 (List.isPrefixOf_iff_prefix.1 e)), ih h.2]

/-- Replacing one pattern cannot create an occurrence of another pattern that shares no character with the
replacement text. -/
theorem replaceGo_keeps_no_occ (old new q : Str) (hq : q ≠ []) (hn : new ≠ []) (hdis : ∀ c ∈ new, c ∉ q) :
    ∀ (s : Str) (k : ℕ), ¬ q <:+: s → ¬ q <:+: replaceGo old new k s := by
  have pre : ∀ (p : Str), (∀ c ∈ p, c ∈ q) → ∀ s : Str, p <+: replaceGo old new 0 s → p <+: s := by
    intro p
    induction p with
    | nil => intro _ s _; exact List.nil_prefix
    | cons a p ih =>
      intro hp s h
      cases s with
      | nil => simp [replaceGo] at h
      | cons c cs =>
        rw [replaceGo] at h
        split at h
        · exfalso
          cases new with
          | nil => exact hn rfl
          | cons n0 ns =>
            rw [List.cons_append, List.cons_prefix_cons] at h
            exact hdis a (by simp [h.1]) (hp a (by simp))
        · rw [List.cons_prefix_cons] at h ⊢
          exact ⟨h.1, ih (fun c hc => hp c (by simp [hc])) cs h.2⟩
  intro s
  induction s with
  | nil => intro k h; rw [replaceGo]; simpa using hq
  | cons c cs ih =>
    intro k h
    rw [List.infix_cons_iff, not_or] at h
    cases k with
    | succ k => rw [replaceGo]; exact ih k h.2
    | zero =>
      have key := pre q (fun c h => h) (c :: cs)
      rw [replaceGo] at key ⊢
      split
      · intro hinf
        have : ∀ m : Str, (∀ c ∈ m, c ∉ q) → q <:+: m ++ replaceGo old new (old.length - 1) cs → False := by
          intro m
          induction m with
          | nil => intro _ h'; exact ih _ h.2 h'
          | cons x m ihm =>
            intro hm h'
            rw [List.cons_append, List.infix_cons_iff] at h'
            rcases h' with h' | h'
            · cases q with
              | nil => exact hq rfl
              | cons o os =>
                rw [List.cons_prefix_cons] at h'
                exact hm x (by simp) (by simp [h'.1])
            · exact ihm (fun c hc => hm c (by simp [hc])) h'
        exact this new hdis hinf
      · rename_i hpre
        rw [if_neg hpre] at key
        rw [List.infix_cons_iff]
        rintro (h' | h')
        · exact h.1 (key h')
        · exact ih 0 h.2 h'

end Shipgrav
