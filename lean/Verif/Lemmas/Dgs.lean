import Verif.Model.Dgs
import Verif.Spec.Dgs
import Verif.Lemmas.Decimal
import Verif.Lemmas.Bgm
import Verif.Lemmas.NavParse
import Mathlib.Tactic.Linarith
import Mathlib.Tactic.NormNum

/-! Lemmas about the DGS readers. -/

namespace Shipgrav
open Spec

theorem splitC_joinC (c : Char) (fs : List Str) (hne : fs ≠ []) (h : ∀ f ∈ fs, c ∉ f) : splitC c (joinC c fs) = fs := by
  induction fs with
  | nil => exact absurd rfl hne
  | cons a fs ih =>
    cases fs with
    | nil => rw [joinC, splitC_notMem _ _ (h a (by simp))]
    | cons b fs =>
      rw [joinC, splitC_append _ _ _ (h a (by simp)), ih (by simp) (fun f hf => h f (by simp [hf]))]
      simp

theorem lstrip_replicate (a : ℕ) (s : Str) (hs : ∀ c, s.head? = some c → isSpace c = false) :
    lstrip (List.replicate a ' ' ++ s) = s := by
  unfold lstrip
  induction a with
  | zero =>
    cases s with
    | nil => rfl
    | cons c s => simp [hs c (by simp)]
  | succ a ih =>
    rw [List.replicate_succ, List.cons_append, List.dropWhile_cons, if_pos (by decide)]
    exact ih

theorem decText_head {s : Str} {q : ℚ} (h : DecText s q) : ∀ c ∈ s, isSpace c = false := by
  intro c hc
  rcases decText_chars h c hc with h | rfl | rfl
  · exact isSpace_of_isDigit h
  · decide
  · decide

theorem strip_padded (a b : ℕ) (t : Str) (hne : t ≠ []) (ht : ∀ c ∈ t, isSpace c = false) :
    strip (List.replicate a ' ' ++ (t ++ List.replicate b ' ')) = t := by
  unfold strip
  rw [lstrip_replicate]
  · unfold rstrip
    rw [List.reverse_append, List.reverse_replicate]
    have := lstrip_replicate b t.reverse (by
      intro c hc
      exact ht c (by simpa using List.mem_of_head? hc))
    unfold lstrip at this
    rw [this, List.reverse_reverse]
  · intro c hc
    cases t with
    | nil => exact absurd rfl hne
    | cons x t =>
      simp at hc
      subst hc
      exact ht _ (by simp)

theorem strip_strip_eq (s t : Str) (h : strip s = t) (ht : strip t = t) : parseFloat s = parseFloat t := by
  unfold parseFloat
  rw [h, ht]

theorem numText_parse {s : Str} {q : ℚ} (h : NumText s q) : numText s = some (.num q) := by
  obtain ⟨a, b, t, rfl, ht⟩ := h
  have hne := decText_ne_nil ht
  have hsp := decText_head ht
  have hchars : ∀ c ∈ List.replicate a ' ' ++ (t ++ List.replicate b ' '), isDigit c = true ∨ c = '.' ∨ c = '-' ∨ c = ' ' := by
    intro c hc
    simp only [List.mem_append, List.mem_replicate] at hc
    rcases hc with ⟨-, h⟩ | h | ⟨-, h⟩
    · exact Or.inr (Or.inr (Or.inr h))
    · rcases decText_chars ht c h with h | h | h
      · exact Or.inl h
      · exact Or.inr (Or.inl h)
      · exact Or.inr (Or.inr (Or.inl h))
    · exact Or.inr (Or.inr (Or.inr h))
  unfold numText
  rw [if_neg, if_neg]
  · rw [strip_strip_eq _ t (strip_padded a b t hne hsp) (by simpa using strip_padded 0 0 t hne hsp), decText_parse ht]
  · intro h
    rcases hchars '_' h with h | h | h | h <;> revert h <;> decide
  · have key : ∀ t ∈ naTexts, t = [] ∨ ∃ c ∈ t, isDigit c = false ∧ c ≠ '.' ∧ c ≠ '-' ∧ c ≠ ' ' := by decide +kernel
    intro hs
    rcases key _ hs with h' | ⟨c, hc, h1, h2, h3, h4⟩
    · apply hne
      simp only [List.append_eq_nil_iff] at h'
      exact h'.2.1
    · rcases hchars c hc with h | h | h | h
      · rw [h1] at h; cases h
      · exact h2 h
      · exact h3 h
      · exact h4 h

theorem csvColumn_num {ι : Type} (xs : List ι) (s : ι → Str) (q : ι → ℚ) (h : ∀ i ∈ xs, NumText (s i) (q i)) :
    csvColumn (xs.map fun i => some (s i)) = xs.map fun i => .num (q i) := by
  unfold csvColumn
  rw [optMapM_map (fun i => some (s i)) numField (fun i => Val.num (q i)) xs (fun i hi => numText_parse (h i hi))]

theorem natOf_nat (n : ℕ) : natOf (.num (n : ℚ)) = some n := by
  unfold natOf
  simp

theorem microsOf_ok (x : Sample) (hx : x.Valid) :
    microsOf (.num ((x.s : ℚ) + x.f / 10 ^ x.k)) = some (x.s * 1000000 + x.f * 10 ^ (6 - x.k)) := by
  have hk := hx.decimals
  have he : ((x.s : ℚ) + x.f / 10 ^ x.k) * 1000000 = ((x.s * 1000000 + x.f * 10 ^ (6 - x.k) : ℕ) : ℚ) := by
    have : (1000000 : ℚ) = 10 ^ x.k * 10 ^ (6 - x.k) := by rw [← pow_add, Nat.add_sub_cancel' hk.2]; norm_num
    have h0 : (10 : ℚ) ^ x.k ≠ 0 := by positivity
    push_cast
    rw [add_mul]
    congr 1
    rw [this]
    field_simp
  have hf : (x.f : ℚ) / 10 ^ x.k < 1 := by
    rw [div_lt_one (by positivity)]
    exact_mod_cast hx.fraction
  have hs : (x.s : ℚ) + 1 ≤ 60 := by exact_mod_cast hx.second
  unfold microsOf
  simp only
  rw [he, if_pos]
  · rw [Rat.num_natCast]; rfl
  · refine ⟨Rat.den_natCast _, by positivity, by linarith⟩

theorem stampParts_ok (x : Sample) (hx : x.Valid) (q : ℕ → ℚ) (hq : PartsAre q x) :
    stampParts [.num (q 19), .num (q 20), .num (q 21), .num (q 22), .num (q 23), .num (q 24)] = some x.instant := by
  obtain ⟨h1, h2, h3, h4, h5, h6⟩ := hq
  have hus : x.f * 10 ^ (6 - x.k) < 1000000 := by
    calc x.f * 10 ^ (6 - x.k) < 10 ^ x.k * 10 ^ (6 - x.k) := Nat.mul_lt_mul_of_pos_right hx.fraction (by positivity)
      _ = 1000000 := by rw [← pow_add, Nat.add_sub_cancel' hx.decimals.2]; norm_num
  have e1 : (x.s * 1000000 + x.f * 10 ^ (6 - x.k)) / 1000000 = x.s := by omega
  have e2 : (x.s * 1000000 + x.f * 10 ^ (6 - x.k)) % 1000000 = x.f * 10 ^ (6 - x.k) := by omega
  unfold stampParts
  rw [h1, h2, h3, h4, h5, h6]
  simp only [microsOf_ok x hx, natOf_nat, Option.bind_eq_bind, Option.bind_some, e1, e2]
  have := stampOf_ok x hx
  unfold stampOf at this
  rw [clockFields_stamp _ _ _ _ _ hx.hour hx.minute hx.second hx.decimals hx.fraction] at this
  exact this

theorem toDatetime_length (other : OtherTimes) (hother : ∀ l v, other l = .ok v → v.length = l.length) (col : List (Option Str))
    (v : List Val) (h : toDatetime other col = .ok v) : v.length = col.length := by
  have hs : ∀ stamp w, stampColumn stamp col = some w → w.length = col.length := by
    intro stamp w hw
    unfold stampColumn at hw
    rw [optMapM_some_iff] at hw
    exact hw.length_eq.symm
  unfold toDatetime at h
  split at h
  · rename_i w hw; injection h with h; subst h; exact hs _ _ hw
  · split at h
    · rename_i w hw; injection h with h; subst h; exact hs _ _ hw
    · split at h
      · rename_i w hw; injection h with h; subst h; exact hs _ _ hw
      · exact hother _ _ h

theorem intField_whole {s : Str} (h : WholeText s) : intField (some s) = true := by
  obtain ⟨a, b, w, n, rfl, hw⟩ := h
  have hd := zpad_digits w n
  have hne : zpad w n ≠ [] := by
    intro h
    have := zpad_length w n
    rw [h] at this
    simp at this
    omega
  unfold intField
  simp only
  rw [strip_padded a b _ hne (fun c hc => isSpace_of_isDigit (hd c hc))]
  simp only [Bool.and_eq_true, Bool.not_eq_true', List.isEmpty_eq_false_iff]
  exact ⟨hne, List.all_eq_true.2 hd⟩

theorem intField_getD {f : List Str} {j : ℕ} (h : WholeText (f.getD j [])) : intField f[j]? = true := by
  rw [List.getD_eq_getElem?_getD] at h
  cases hj : f[j]? with
  | some s => rw [hj] at h; exact intField_whole h
  | none =>
    rw [hj] at h
    have := intField_whole h
    cases this

theorem assemble_length (dates : Dates) (whole : Bool) (t : Table) (v : List Val) (h : assemble dates whole t = .ok v) : v.length = t.rows.length := by
  unfold assemble at h
  simp only at h
  split at h
  · rename_i w hw
    injection h with h
    subst h
    cases whole with
    | false => cases hw
    | true =>
      simp only [if_true] at hw
      rw [optMapM_some_iff] at hw
      have := hw.length_eq
      simp at this
      simp [this]
  · have := dates.parts_length _ _ h
    simpa using this

theorem takeSign_mem (c : Char) (s : Str) (h : c ∈ s) (h1 : c ≠ '+') (h2 : c ≠ '-') : c ∈ (takeSign s).2 := by
  unfold takeSign
  split
  · rcases List.mem_cons.1 h with h | h
    · exact absurd h h1
    · exact h
  · rcases List.mem_cons.1 h with h | h
    · exact absurd h h2
    · exact h
  · exact h

theorem validRun_chars (s : Str) (h : validRun s = true) : ∀ c ∈ s, isRunChar c = true := by
  unfold validRun at h
  simp only [Bool.and_eq_true, List.all_eq_true] at h
  tauto

theorem mem_dropWhile_of_not {c : Char} {s : Str} {p : Char → Bool} (h : c ∈ s) (hc : p c = false) : c ∈ s.dropWhile p := by
  have := List.takeWhile_append_dropWhile (p := p) (l := s)
  rw [← this] at h
  rcases List.mem_append.1 h with h | h
  · have := List.mem_takeWhile_imp h
    rw [hc] at this; cases this
  · exact h

theorem parseExp_foreign (c : Char) (s : Str) (h : c ∈ s) (hd : isRunChar c = false) (h1 : c ≠ '+') (h2 : c ≠ '-') (h3 : c ≠ 'e')
    (h4 : c ≠ 'E') : parseExp s = none := by
  cases s with
  | nil => cases h
  | cons a t =>
    rw [parseExp]
    by_cases ha : a = 'e' ∨ a = 'E'
    · rw [if_pos ha]
      have hct : c ∈ t := by
        rcases List.mem_cons.1 h with h | h
        · rw [← h] at ha
          rcases ha with ha | ha
          · exact absurd ha h3
          · exact absurd ha h4
        · exact h
      have := takeSign_mem c t hct h1 h2
      simp only
      rw [if_neg]
      intro hv
      have := validRun_chars _ hv c this
      rw [hd] at this; cases this
    · rw [if_neg ha]

theorem parseFloat_foreign (c : Char) (s : Str) (h : c ∈ s) (hc : foreign c = true) : parseFloat s = none := by
  unfold foreign at hc
  simp only [Bool.and_eq_true, Bool.not_eq_true', decide_eq_true_eq] at hc
  obtain ⟨⟨⟨hd, hs⟩, hm⟩, hl⟩ := hc
  simp only [List.mem_cons, List.not_mem_nil, or_false, not_or] at hm
  obtain ⟨h1, h2, h3, h4, h5, h6⟩ := hm
  have hr : isRunChar c = false := by
    unfold isRunChar
    simp [hd, h2]
  have ht := takeSign_mem c (strip s) (mem_strip h hs) h3 h4
  have hlow : lowerC c ∈ (takeSign (strip s)).2.map lowerC := List.mem_map.2 ⟨c, ht, rfl⟩
  unfold parseFloat
  simp only
  rw [if_neg, if_neg]
  · have : parseUFloat (takeSign (strip s)).2 = none := by
      unfold parseUFloat
      simp only
      have hdw := mem_dropWhile_of_not ht hr
      split
      · rename_i r2 hr2
        rw [hr2] at hdw
        rcases List.mem_cons.1 hdw with h | h
        · exact absurd h h1
        · rw [parseExp_foreign c _ (mem_dropWhile_of_not h hr) hr h3 h4 h5 h6]
          simp
      · rw [parseExp_foreign c _ hdw hr h3 h4 h5 h6]
        simp
    rw [this]
    rfl
  · intro h
    rw [h] at hlow
    exact hl ((by decide : ∀ d ∈ "nan".toList, d ∈ "infinityna".toList) _ hlow)
  · intro h
    rcases h with h | h
    · rw [h] at hlow
      exact hl ((by decide : ∀ d ∈ "inf".toList, d ∈ "infinityna".toList) _ hlow)
    · rw [h] at hlow
      exact hl ((by decide : ∀ d ∈ "infinity".toList, d ∈ "infinityna".toList) _ hlow)

theorem numText_foreign (c : Char) (s : Str) (h : c ∈ s) (hc : foreign c = true) (hn : c ∉ naTexts.flatten) :
    numText s = none ∧ textField (some s) = .text s := by
  have hna : s ∉ naTexts := fun hs => hn (List.mem_flatten.2 ⟨s, hs, h⟩)
  constructor
  · unfold numText
    rw [if_neg hna]
    split
    · rfl
    · rw [parseFloat_foreign c s h hc]
  · unfold textField
    simp only
    rw [if_neg hna]

theorem numText_foreign' (c : Char) (s : Str) (h : c ∈ s) (hc : foreign c = true) (hna : s ∉ naTexts) :
    numText s = none ∧ textField (some s) = .text s := by
  constructor
  · unfold numText
    rw [if_neg hna]
    split
    · rfl
    · rw [parseFloat_foreign c s h hc]
  · unfold textField
    simp only
    rw [if_neg hna]

theorem toNumeric_coerced (s : Str) : Coerced s (toNumeric s) := by
  unfold toNumeric
  refine ⟨fun q h => ?_, fun h => ?_, ?_⟩
  · rw [numText_parse h]
    rfl
  · obtain ⟨c, hc, hf⟩ := h
    by_cases hna : s ∈ naTexts
    · unfold numText
      rw [if_pos hna]
      rfl
    · rw [(numText_foreign' c s hc hf hna).1]
      rfl
  · unfold numText
    split
    · exact Or.inl rfl
    · split
      · exact Or.inl rfl
      · split
        · exact Or.inr ⟨_, rfl⟩
        · exact Or.inl rfl
        · exact Or.inl rfl

/-- Texts with a character that occurs in no number make a column of texts. -/
theorem csvColumn_text {ι : Type} (xs : List ι) (hne : xs ≠ []) (s : ι → Str)
    (h : ∀ i ∈ xs, ∃ c ∈ s i, foreign c = true ∧ s i ∉ naTexts) :
    csvColumn (xs.map fun i => some (s i)) = xs.map fun i => .text (s i) := by
  unfold csvColumn
  obtain ⟨i0, xs', rfl⟩ := List.exists_cons_of_ne_nil hne
  have : ((i0 :: xs').map fun i => some (s i)).mapM numField = none := by
    obtain ⟨c, hc, h1, h2⟩ := h i0 (by simp)
    rw [List.map_cons, List.mapM_cons]
    show (numText (s i0) >>= fun _ => _) = none
    rw [(numText_foreign' c (s i0) hc h1 h2).1]
    rfl
  rw [this]
  simp only [List.map_map]
  apply List.map_congr_left
  intro i hi
  obtain ⟨c, hc, h1, h2⟩ := h i hi
  exact (numText_foreign' c (s i) hc h1 h2).2

theorem foreign_dollar : foreign '$' = true ∧ '$' ∉ naTexts.flatten := by decide +kernel
theorem foreign_colon : foreign ':' = true ∧ ':' ∉ naTexts.flatten := by decide +kernel

theorem record_not_blank (fs : List Str) (h : 2 ≤ fs.length) : (joinC ',' fs).all csvBlank = false := by
  rw [List.all_eq_false]
  refine ⟨',', ?_, by decide⟩
  obtain ⟨a, b, t, rfl⟩ : ∃ a b t, fs = a :: b :: t := by
    match fs, h with
    | a :: b :: t, _ => exact ⟨a, b, t, rfl⟩
  rw [joinC]
  · simp
  · simp

theorem csvRecords_records {ι : Type} (xs : List ι) (fs : ι → List Str) (h : ∀ i ∈ xs, 2 ≤ (fs i).length) :
    csvRecords ',' (xs.map fun i => joinC ',' (fs i)) = xs.map fun i => joinC ',' (fs i) := by
  unfold csvRecords
  rw [List.filter_eq_self]
  intro l hl
  obtain ⟨i, hi, rfl⟩ := List.mem_map.1 hl
  rw [record_not_blank _ (h i hi)]
  rfl

theorem csvField_record (fs : List Str) (h : ∀ f ∈ fs, ',' ∉ f) (j : ℕ) (hj : j < fs.length) :
    csvField ',' j (joinC ',' fs) = some (fs.getD j []) := by
  unfold csvField
  rw [splitC_joinC ',' fs (by rintro rfl; simp at hj) h, List.getD_eq_getElem?_getD, List.getElem?_eq_getElem hj]
  rfl

theorem startsWithOne_iff (n : ℕ) : startsWithOne (n : ℚ) = true ↔ LeadsWithOne n := by
  unfold startsWithOne LeadsWithOne
  rw [decide_eq_true_eq]
  rcases Nat.eq_zero_or_pos n with rfl | hn
  · constructor
    · rintro ⟨h | h, -⟩
      · norm_num at h
      · norm_num at h
    · rintro ⟨k, h, -⟩
      have : 0 < 10 ^ k := by positivity
      omega
  · have h1 : (1 : ℚ) ≤ n := by exact_mod_cast hn
    rw [Int.log_natCast]
    have hc : ((n : ℚ) < 2 * (10 : ℚ) ^ ((Nat.log 10 n : ℕ) : ℤ)) ↔ n < 2 * 10 ^ Nat.log 10 n := by
      rw [zpow_natCast]
      exact_mod_cast Iff.rfl
    rw [hc]
    constructor
    · rintro ⟨-, h⟩
      exact ⟨_, Nat.pow_log_le_self 10 (by omega), h⟩
    · rintro ⟨k, h2, h3⟩
      have : Nat.log 10 n = k := Nat.log_eq_of_pow_le_of_lt_pow h2 (by rw [pow_succ]; have : 0 < 10 ^ k := by positivity
                                                                       omega)
      rw [this]
      exact ⟨Or.inl h1, h3⟩

theorem stampDigits_ok (x : Sample) (hx : x.Valid) (hf : x.f = 0) : stampDigits (.num (stampNumber x : ℕ)) = some x.instant := by
  obtain ⟨b1, b2, b3⟩ := sample_bounds hx
  have h1 := hx.hour
  have h2 := hx.minute
  have h3 := hx.second
  have e1 : stampNumber x / 10000000000 = x.y := by unfold stampNumber; omega
  have e2 : stampNumber x / 100000000 % 100 = x.m := by unfold stampNumber; omega
  have e3 : stampNumber x / 1000000 % 100 = x.d := by unfold stampNumber; omega
  have e4 : stampNumber x / 10000 % 100 = x.h := by unfold stampNumber; omega
  have e5 : stampNumber x / 100 % 100 = x.mi := by unfold stampNumber; omega
  have e6 : stampNumber x % 100 = x.s := by unfold stampNumber; omega
  unfold stampDigits
  simp only
  rw [if_pos ⟨Rat.den_natCast _, by rw [Rat.num_natCast]; positivity⟩, Rat.num_natCast, Int.toNat_natCast, e1, e2, e3, e4, e5, e6]
  have := stampOf_ok x hx
  unfold stampOf at this
  rw [clockFields_stamp _ _ _ _ _ hx.hour hx.minute hx.second hx.decimals hx.fraction, hf, Nat.zero_mul] at this
  exact this

theorem stampNumber_leads (x : Sample) (hx : x.Valid) (hy : 2000 ≤ x.y) : ¬ LeadsWithOne (stampNumber x) := by
  obtain ⟨b1, b2, b3⟩ := sample_bounds hx
  have h1 := hx.hour
  have h2 := hx.minute
  have h3 := hx.second
  have h4 := hx.year.2
  rintro ⟨k, hk1, hk2⟩
  have e1 : 20000000000000 ≤ stampNumber x := by unfold stampNumber; omega
  have e2 : stampNumber x < 100000000000000 := by unfold stampNumber; omega
  have k1 : k < 14 := by
    by_contra h
    have : 10 ^ 14 ≤ 10 ^ k := Nat.pow_le_pow_right (by norm_num) (by omega)
    omega
  have : 10 ^ k ≤ 10 ^ 13 := Nat.pow_le_pow_right (by norm_num) (by omega)
  omega

theorem isoTimes_length (dates : Dates) (col v : List Val) (h : isoTimes dates col = .ok v) : v.length = col.length := by
  unfold isoTimes at h
  cases hm : col.mapM firstWord with
  | error e => rw [hm] at h; cases h
  | ok ts =>
    rw [hm] at h
    rw [mapM_ok_iff] at hm
    replace h : (match stampColumn stampIso (ts.map some) with | some v => (.ok v : Except PyErr _) | none => dates.iso (ts.map some)) = .ok v := h
    rw [hm.length_eq]
    split at h
    · rename_i w hw
      injection h with h
      subst h
      unfold stampColumn at hw
      rw [optMapM_some_iff] at hw
      have := hw.length_eq
      simpa using this.symm
    · have := dates.iso_length _ _ h
      simpa using this

end Shipgrav
