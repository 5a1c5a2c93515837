import Verif.Spec.Decimal
import Verif.Lemmas.Pandas

/-! Reading decimal texts. -/

namespace Shipgrav
open Spec

theorem parseFloat_neg (s : Str) (c : Char) (t : Str) (hs : s = c :: t) (hc : isDigit c = true)
    (hlast : ∀ c, s.getLast? = some c → isSpace c = false) (q : ℚ) (h : parseFloat s = some (.fin q)) :
    parseFloat ('-' :: s) = some (.fin (-q)) := by
  rw [parseFloat_start s c t hs (Or.inl hc) hlast] at h
  have hu : parseUFloat s = some q := by
    cases hp : parseUFloat s with
    | none => rw [hp] at h; cases h
    | some r => rw [hp] at h; injection h with h; injection h with h; rw [h]
  subst hs
  unfold parseFloat
  rw [strip_of_ends]
  · obtain ⟨h1, h2⟩ := low_ne c t (Or.inl hc)
    simp only [takeSign, h1, h2, if_false, hu, Option.map_some, if_true]
  · intro d hd
    simp only [List.head?_cons, Option.some.injEq] at hd
    subst hd
    decide
  · intro d hd
    rw [List.getLast?_cons_cons] at hd
    exact hlast d hd

theorem decText_chars {s : Str} {q : ℚ} (h : DecText s q) : ∀ c ∈ s, isDigit c = true ∨ c = '.' ∨ c = '-' := by
  intro c hc
  cases h with
  | int w n _ _ => exact Or.inl (zpad_digits _ _ c hc)
  | dec w n k f _ _ _ =>
    simp only [List.mem_append, List.mem_cons] at hc
    rcases hc with h | h | h
    · exact Or.inl (zpad_digits _ _ c h)
    · exact Or.inr (Or.inl h)
    · exact Or.inl (zpad_digits _ _ c h)
  | negInt w n _ _ =>
    rcases List.mem_cons.1 hc with h | h
    · exact Or.inr (Or.inr h)
    · exact Or.inl (zpad_digits _ _ c h)
  | negDec w n k f _ _ _ =>
    simp only [List.mem_append, List.mem_cons] at hc
    rcases hc with h | h | h | h
    · exact Or.inr (Or.inr h)
    · exact Or.inl (zpad_digits _ _ c h)
    · exact Or.inr (Or.inl h)
    · exact Or.inl (zpad_digits _ _ c h)

theorem decText_no {s : Str} {q : ℚ} (h : DecText s q) (c : Char) (hc : isDigit c = false) (h1 : c ≠ '.') (h2 : c ≠ '-') : c ∉ s := by
  intro hm
  rcases decText_chars h c hm with h | h | h
  · rw [hc] at h; cases h
  · exact h1 h
  · exact h2 h

theorem decText_parse {s : Str} {q : ℚ} (h : DecText s q) : parseFloat s = some (.fin q) := by
  have pos : ∀ w n, 1 ≤ w → n < 10 ^ w → parseFloat (zpad w n) = some (.fin n) := by
    intro w n hw hn
    rw [parseFloat_digits (zpad_Digits' w n hw), runVal_zpad_lt w n hn]
  have posd : ∀ w n k f, 1 ≤ w → n < 10 ^ w → f < 10 ^ k →
      parseFloat (zpad w n ++ '.' :: zpad k f) = some (.fin (n + f / 10 ^ k)) := by
    intro w n k f hw hn hf
    rw [parseFloat_dec (zpad_digits w n) (zpad_digits k f) (Or.inl (zpad_Digits' w n hw).1), runVal_zpad_lt w n hn,
      runVal_zpad_lt k f hf, zpad_length]
  cases h with
  | int w n hw hn => exact pos w n hw hn
  | dec w n k f hw hn hf => exact posd w n k f hw hn hf
  | negInt w n hw hn =>
    obtain ⟨c, t, hs, hc⟩ := (zpad_Digits' w n hw).head
    refine parseFloat_neg _ c t hs hc ?_ _ (pos w n hw hn)
    intro d hd; exact isSpace_of_isDigit (zpad_digits w n d (List.mem_of_getLast? hd))
  | negDec w n k f hw hn hf =>
    obtain ⟨c, t, hs, hc⟩ := (zpad_Digits' w n hw).head
    refine parseFloat_neg _ c (t ++ '.' :: zpad k f) (by rw [hs]; rfl) hc ?_ _ (posd w n k f hw hn hf)
    intro d hd
    have := List.mem_of_getLast? hd
    simp only [List.mem_append, List.mem_cons] at this
    rcases this with h | rfl | h
    · exact isSpace_of_isDigit (zpad_digits w n d h)
    · decide
    · exact isSpace_of_isDigit (zpad_digits k f d h)

/-- A text whose characters are digits, points and minus signs is not one of the texts for missing values. -/
theorem not_na_chars (s : Str) (hne : s ≠ []) (h : ∀ c ∈ s, isDigit c = true ∨ c = '.' ∨ c = '-') : s ∉ naTexts := by
  have key : ∀ t ∈ naTexts, t = [] ∨ ∃ c ∈ t, isDigit c = false ∧ c ≠ '.' ∧ c ≠ '-' := by decide +kernel
  intro hs
  rcases key s hs with h' | ⟨c, hc, h1, h2, h3⟩
  · exact hne h'
  · rcases h c hc with h | h | h
    · rw [h1] at h; cases h
    · exact h2 h
    · exact h3 h

theorem decText_ne_nil {s : Str} {q : ℚ} (h : DecText s q) : s ≠ [] := by
  rintro rfl
  have := decText_parse h
  rw [show parseFloat [] = none by decide] at this
  cases this

theorem decText_numText {s : Str} {q : ℚ} (h : DecText s q) : numText s = some (.num q) := by
  unfold numText
  rw [if_neg (not_na_chars s (decText_ne_nil h) (decText_chars h)),
    if_neg (decText_no h '_' (by decide) (by decide) (by decide)), decText_parse h]

/-- A column of decimal texts. -/
theorem csvColumn_dec {ι : Type} (xs : List ι) (s : ι → Str) (q : ι → ℚ) (h : ∀ i ∈ xs, DecText (s i) (q i)) :
    csvColumn (xs.map fun i => some (s i)) = xs.map fun i => .num (q i) := by
  unfold csvColumn
  rw [optMapM_map (fun i => some (s i)) numField (fun i => Val.num (q i)) xs (fun i hi => decText_numText (h i hi))]

end Shipgrav
