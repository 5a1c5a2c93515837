import Verif.Model.NavParse
import Verif.Spec.NavParse
import Verif.Lemmas.Fmt
import Verif.Lemmas.Repr
import Verif.Lemmas.Status
import Mathlib.Data.Nat.Prime.Basic
import Mathlib.Data.Nat.GCD.BigOperators
import Mathlib.Algebra.IsPrimePow
import Mathlib.Data.Rat.Lemmas
import Mathlib.Algebra.Order.Field.Rat
import Mathlib.Algebra.Order.Round
import Mathlib.Tactic.NormNum.Prime

namespace Shipgrav
open Spec

theorem splitC_commaFields (fields : List Str) (h : ∀ f ∈ fields, ',' ∉ f) :
    splitC ',' (commaFields fields) = [] :: fields := by
  have key : ∀ (fs : List Str) (a : Str), ',' ∉ a → (∀ f ∈ fs, ',' ∉ f) →
      splitC ',' (a ++ commaFields fs) = a :: fs := by
    intro fs
    induction fs with
    | nil => intro a ha _; simp [commaFields, splitC_notMem _ _ ha]
    | cons f fs ih =>
      intro a ha hfs
      have : commaFields (f :: fs) = ',' :: (f ++ commaFields fs) := by simp [commaFields]
      rw [this, splitC_append _ _ _ ha, ih f (hfs f (by simp)) (fun g hg => hfs g (by simp [hg]))]
  simpa using key fields [] (by simp) h

theorem lstrip_commaFields (fields : List Str) : lstrip (commaFields fields) = commaFields fields := by
  cases fields with
  | nil => rfl
  | cons f fs =>
    have : commaFields (f :: fs) = ',' :: (f ++ commaFields fs) := by simp [commaFields]
    rw [this, lstrip, List.dropWhile_cons]
    have : isSpace ',' = false := by decide
    simp [this]

theorem ggaLine_split {pre talker : Str} {fields : List Str} (h : WellFormed pre talker fields) :
    pySplit talker (ggaLine pre talker fields) = .ok [pre, commaFields fields] := by
  unfold pySplit ggaLine
  rw [if_neg h.nonempty, splitS_first _ _ _ h.nonempty h.before, splitS_none _ _ h.after]

theorem ggaLine_fields {pre talker : Str} {fields : List Str} (h : WellFormed pre talker fields) :
    ggaFields talker (ggaLine pre talker fields) = .ok fields := by
  unfold ggaFields
  rw [ggaLine_split h]
  show (do let h ← pyGet (splitC ',' (lstrip (commaFields fields))) 0
           return if h = [] then (splitC ',' (lstrip (commaFields fields))).drop 1
             else splitC ',' (lstrip (commaFields fields)) : Except PyErr (List Str)) = _
  rw [lstrip_commaFields, splitC_commaFields _ h.commas]
  rfl

theorem ggaLine_hasSub (pre talker : Str) (fields : List Str) : hasSub talker (ggaLine pre talker fields) = true := by
  unfold hasSub ggaLine
  simp only [decide_eq_true_eq]
  exact ⟨pre, commaFields fields, rfl⟩

theorem talkerLines_single {talker line : Str} (h : hasSub talker line = true) : talkerLines talker [line] = [line] := by
  simp [talkerLines, h]

/-! ### Degrees and minutes -/

theorem degMin_text (w deg min k frac : ℕ) (hw : 0 < w) (hd : deg < 10 ^ w) (hm : min < 100) (hf : frac < 10 ^ k)
    (hemi neg : Str) :
    degMin w (degMinText w deg min k frac) (.ok hemi) neg
      = .ok (some (if hemi = neg then -(degMinValue deg min k frac) else degMinValue deg min k frac)) := by
  unfold degMin degMinText
  have h1 : (zpad w deg ++ (zpad 2 min ++ '.' :: zpad k frac)).take w = zpad w deg :=
    List.take_left' (zpad_length w deg)
  have h2 : (zpad w deg ++ (zpad 2 min ++ '.' :: zpad k frac)).drop w = zpad 2 min ++ '.' :: zpad k frac :=
    List.drop_left' (zpad_length w deg)
  rw [h1, h2]
  have hf2 : parseFloat (zpad 2 min ++ '.' :: zpad k frac) = some (.fin ((min : ℚ) + (frac : ℚ) / 10 ^ k)) := by
    rw [parseFloat_dec (zpad_digits _ _) (zpad_digits _ _) (Or.inl (zpad_Digits' 2 min (by norm_num)).1),
      runVal_zpad_lt 2 min (by simpa using hm), runVal_zpad_lt k frac hf, zpad_length]
  unfold pyInt pyFloatQ
  rw [parseInt_zpad w deg hw hd, hf2]
  show Except.ok _ = _
  unfold degMinValue
  split <;> simp

/-! ### Decimal places -/

theorem den_dvd_iff (q : ℚ) (j : ℕ) : 10 ^ j % q.den = 0 ↔ ∃ n : ℤ, q * 10 ^ j = n := by
  rw [← Nat.dvd_iff_mod_eq_zero]
  constructor
  · rintro ⟨m, hm⟩
    refine ⟨q.num * m, ?_⟩
    have h : (10 : ℚ) ^ j = q.den * m := by exact_mod_cast hm
    rw [h, ← mul_assoc, Rat.mul_den_eq_num]
    push_cast; ring
  · rintro ⟨n, hn⟩
    have h10 : ((10 : ℚ) ^ j) ≠ 0 := by positivity
    have hq : q = (n : ℚ) / ((10 ^ j : ℕ) : ℤ) := by
      rw [eq_div_iff (by push_cast; exact h10)]; push_cast; exact hn
    have := Rat.den_dvd n ((10 ^ j : ℕ) : ℤ)
    rw [Rat.divInt_eq_div, ← hq] at this
    exact_mod_cast this

theorem least_le_den (d k : ℕ) (h : 10 ^ k % d = 0) (hmin : ∀ j < k, ¬ 10 ^ j % d = 0) : k ≤ d := by
  have hd : d ∣ 10 ^ k := Nat.dvd_of_mod_eq_zero h
  rw [show (10 : ℕ) = 2 * 5 from rfl, mul_pow] at hd
  obtain ⟨d1, d2, h1, h2, rfl⟩ := (Nat.dvd_mul).1 hd
  obtain ⟨a, _, rfl⟩ := (Nat.dvd_prime_pow Nat.prime_two).1 h1
  obtain ⟨b, _, rfl⟩ := (Nat.dvd_prime_pow Nat.prime_five).1 h2
  have hle : k ≤ max a b := by
    by_contra hlt
    apply hmin (max a b) (by omega)
    apply Nat.mod_eq_zero_of_dvd
    rw [show (10 : ℕ) = 2 * 5 from rfl, mul_pow]
    exact Nat.mul_dvd_mul (pow_dvd_pow 2 (le_max_left a b)) (pow_dvd_pow 5 (le_max_right a b))
  have ha : a < 2 ^ a := Nat.lt_two_pow_self
  have hb : b < 5 ^ b := Nat.lt_pow_self (by norm_num)
  have h2a : 1 ≤ 2 ^ a := Nat.one_le_two_pow
  have h5b : 1 ≤ 5 ^ b := Nat.one_le_pow _ _ (by norm_num)
  have e1 : 2 ^ a ≤ 2 ^ a * 5 ^ b := Nat.le_mul_of_pos_right _ h5b
  have e2 : 5 ^ b ≤ 2 ^ a * 5 ^ b := Nat.le_mul_of_pos_left _ h2a
  omega

theorem decPlacesGo_eq (d k : ℕ) (h : 10 ^ k % d = 0) (hmin : ∀ j < k, ¬ 10 ^ j % d = 0) :
    ∀ fuel j, j ≤ k → k ≤ j + fuel → decPlacesGo d fuel j = k := by
  intro fuel
  induction fuel with
  | zero => intro j h1 h2; rw [decPlacesGo]; omega
  | succ fuel ih =>
    intro j h1 h2
    rw [decPlacesGo]
    by_cases hj : j = k
    · subst hj; rw [if_pos h]
    · rw [if_neg (hmin j (by omega)), ih (j + 1) (by omega) (by omega)]

theorem decPlaces_eq (q : ℚ) (k : ℕ) (h : ∃ n : ℤ, q * 10 ^ k = n) (hmin : ∀ j < k, ¬ ∃ n : ℤ, q * 10 ^ j = n) :
    decPlaces q.den = k := by
  have h' := (den_dvd_iff q k).2 h
  have hmin' : ∀ j < k, ¬ 10 ^ j % q.den = 0 := fun j hj hh => hmin j hj ((den_dvd_iff q j).1 hh)
  exact decPlacesGo_eq q.den k h' hmin' _ _ (by omega) (by have := least_le_den _ k h' hmin'; omega)

theorem decPlaces_frac (s f k : ℕ) (hf : f % 10 ≠ 0) :
    decPlaces (((s : ℚ) + (f : ℚ) / 10 ^ k).den) = k := by
  have h10 : ∀ i : ℕ, ((10 : ℚ) ^ i) ≠ 0 := fun i => by positivity
  apply decPlaces_eq
  · refine ⟨s * 10 ^ k + f, ?_⟩
    push_cast
    have := h10 k
    field_simp
  · rintro j hj ⟨n, hn⟩
    obtain ⟨i, rfl⟩ : ∃ i, k = j + (i + 1) := ⟨k - j - 1, by omega⟩
    have h1 : (f : ℚ) = ((n - s * 10 ^ j) * 10 ^ i * 10 : ℤ) := by
      have a := h10 j
      have b := h10 i
      push_cast
      rw [← hn, pow_add, pow_add]
      field_simp
      ring
    have h2 : (f : ℤ) = (n - s * 10 ^ j) * 10 ^ i * 10 := by exact_mod_cast h1
    omega

theorem posRepr_frac (s f k : ℕ) (hf : f % 10 ≠ 0) (hk : f < 10 ^ k) :
    posRepr ((s : ℚ) + (f : ℚ) / 10 ^ k) = natStr s ++ '.' :: zpad k f := by
  have hk1 : 1 ≤ k := by
    rcases Nat.eq_zero_or_pos k with rfl | h
    · simp at hk; subst hk; simp at hf
    · exact h
  have h0 : (0 : ℚ) ≤ (f : ℚ) / 10 ^ k := by positivity
  have h1 : (f : ℚ) / 10 ^ k < 1 := by rw [div_lt_one (by positivity)]; exact_mod_cast hk
  have hfl : ⌊(s : ℚ) + (f : ℚ) / 10 ^ k⌋ = (s : ℤ) := by
    rw [Int.floor_eq_iff]; push_cast; constructor <;> linarith
  have hfr : Int.fract ((s : ℚ) + (f : ℚ) / 10 ^ k) = (f : ℚ) / 10 ^ k := by
    unfold Int.fract; rw [hfl]; push_cast; ring
  unfold posRepr
  rw [decPlaces_frac s f k hf, max_eq_right hk1]
  simp only [hfl, hfr]
  rw [div_mul_cancel₀ _ (by positivity)]
  simp

theorem posRepr_nat (s : ℕ) : posRepr (s : ℚ) = natStr s ++ '.' :: zpad 1 0 := by
  unfold posRepr
  have : decPlaces ((s : ℚ).den) = 0 := by
    have : ((s : ℚ).den) = 1 := rfl
    rw [this]; rfl
  rw [this]
  simp

theorem splitC_point (s : ℕ) (b : Str) (hb : ∀ c ∈ b, isDigit c = true) :
    splitC '.' (natStr s ++ '.' :: b) = [natStr s, b] := by
  rw [splitC_append _ _ _ (digits_notMem (natStr_Digits s).2 (by decide)), splitC_notMem _ _ (digits_notMem hb (by decide))]

theorem mem_strip {c : Char} {s : Str} (h : c ∈ s) (hc : isSpace c = false) : c ∈ strip s := by
  have key : ∀ l : Str, c ∈ l → c ∈ l.dropWhile isSpace := by
    intro l
    induction l with
    | nil => simp
    | cons a l ih =>
      intro hm
      rw [List.dropWhile_cons]
      split
      · rename_i ha
        rcases List.mem_cons.1 hm with rfl | hm
        · rw [hc] at ha; cases ha
        · exact ih hm
      · exact hm
  unfold strip rstrip lstrip
  rw [List.mem_reverse]
  apply key
  rw [List.mem_reverse]
  exact key s h

theorem mem_takeSign {c : Char} {s : Str} (h : c ∈ s) (h1 : c ≠ '+') (h2 : c ≠ '-') : c ∈ (takeSign s).2 := by
  unfold takeSign
  split
  · rcases List.mem_cons.1 h with rfl | h
    · exact absurd rfl h1
    · exact h
  · rcases List.mem_cons.1 h with rfl | h
    · exact absurd rfl h2
    · exact h
  · exact h

theorem parseInt_e {s : Str} (h : 'e' ∈ s) : parseInt s = none := by
  unfold parseInt
  have h1 := mem_takeSign (mem_strip h (by decide)) (by decide) (by decide)
  have : validRun (takeSign (strip s)).2 = false := by
    unfold validRun
    have : (takeSign (strip s)).2.all isRunChar = false := by
      rw [List.all_eq_false]
      exact ⟨'e', h1, by decide⟩
    rw [this]; simp
  simp [this]

theorem splitC_last_append (c : Char) (a b : Str) (hb : c ∉ b) :
    ∃ x, (splitC c (a ++ b)).getLast? = some (x ++ b) := by
  induction a with
  | nil => exact ⟨[], by simp [splitC_notMem c b hb]⟩
  | cons y a ih =>
    obtain ⟨x, hx⟩ := ih
    rw [List.cons_append, splitC]
    split
    · refine ⟨x, ?_⟩
      rw [List.getLast?_cons, hx]; rfl
    · cases hs : splitC c (a ++ b) with
      | nil => exact absurd hs (splitC_ne_nil _ _)
      | cons p t =>
        rw [hs] at hx
        cases t with
        | nil =>
          simp at hx
          exact ⟨y :: x, by simp [hx]⟩
        | cons q t =>
          refine ⟨x, ?_⟩
          simpa using hx

theorem expStr_notMem_point (e : ℤ) : '.' ∉ expStr e := by
  unfold expStr
  have h := fun n => digits_notMem (natStr_Digits n).2 (d := '.') (by decide)
  split <;> split <;> simp [h]

theorem expStr_mem_e (e : ℤ) : 'e' ∈ expStr e := by
  unfold expStr
  split <;> simp

theorem sciRepr_int_fails (q : ℚ) : (do
    let frac ← pyLast (splitC '.' (sciRepr q))
    pyInt frac : Except PyErr ℤ) = .error .valueError := by
  have : ∃ a e, sciRepr q = a ++ expStr e := ⟨_, _, rfl⟩
  obtain ⟨a, e, h⟩ := this
  obtain ⟨x, hx⟩ := splitC_last_append '.' a (expStr e) (expStr_notMem_point e)
  rw [h]
  unfold pyLast
  rw [hx]
  show pyInt (x ++ expStr e) = _
  unfold pyInt
  rw [parseInt_e (List.mem_append_right _ (expStr_mem_e e))]

/-! ### Clock time -/

/-- The clock decoder after the time field has been cut out, given the value of the seconds text. -/
theorem clockLine_eq {pre talker : Str} {fields : List Str} (h : WellFormed pre talker fields) (hh mm ss : ℕ) (frac : Str)
    (rest : List Str) (hfields : fields = clockText hh mm ss frac :: rest) (h1 : hh < 100) (h2 : mm < 100) (x : PyFloat)
    (hx : parseDouble (zpad 2 ss ++ frac) = some x) :
    clockLine talker (ggaLine pre talker fields) = (do
      let frac ← pyLast (splitC '.' (doubleStr x))
      let ms ← msecOf (← pyInt frac)
      let whole ← pyGet (splitC '.' (doubleStr x)) 0
      let sec ← pyInt whole
      return ⟨hh, mm, sec, ms⟩) := by
  unfold clockLine
  rw [ggaLine_fields h, hfields]
  have e1 : (clockText hh mm ss frac).take 2 = zpad 2 hh := List.take_left' (zpad_length 2 hh)
  have e2 : slice 2 4 (clockText hh mm ss frac) = zpad 2 mm := by
    unfold slice clockText
    have : zpad 2 hh ++ (zpad 2 mm ++ (zpad 2 ss ++ frac)) = (zpad 2 hh ++ zpad 2 mm) ++ (zpad 2 ss ++ frac) := by simp
    rw [this, List.take_left' (by simp [zpad_length]), List.drop_left' (zpad_length 2 hh)]
  have e3 : (clockText hh mm ss frac).drop 4 = zpad 2 ss ++ frac := by
    unfold clockText
    have : zpad 2 hh ++ (zpad 2 mm ++ (zpad 2 ss ++ frac)) = (zpad 2 hh ++ zpad 2 mm) ++ (zpad 2 ss ++ frac) := by simp
    rw [this, List.drop_left' (by simp [zpad_length])]
  show (do
    let hour ← pyInt ((clockText hh mm ss frac).take 2)
    let mint ← pyInt (slice 2 4 (clockText hh mm ss frac))
    let sec0 ← match parseDouble ((clockText hh mm ss frac).drop 4) with
      | some x => .ok x
      | none => .error .valueError
    let frac ← pyLast (splitC '.' (doubleStr sec0))
    let ms ← msecOf (← pyInt frac)
    let whole ← pyGet (splitC '.' (doubleStr sec0)) 0
    let sec ← pyInt whole
    return ⟨hour, mint, sec, ms⟩ : Except PyErr Clock) = _
  rw [e1, e2, e3, hx]
  have p1 : pyInt (zpad 2 hh) = .ok (hh : ℤ) := by unfold pyInt; rw [parseInt_zpad 2 hh (by norm_num) (by simpa using h1)]
  have p2 : pyInt (zpad 2 mm) = .ok (mm : ℤ) := by unfold pyInt; rw [parseInt_zpad 2 mm (by norm_num) (by simpa using h2)]
  rw [p1, p2]
  rfl

theorem parse_seconds (s k f z : ℕ) (hs : s < 100) (hf : f < 10 ^ k) :
    parseFloat (zpad 2 s ++ fracText k f z) = some (.fin ((s : ℚ) + (f : ℚ) / 10 ^ k)) := by
  unfold fracText
  have hz : ∀ c ∈ List.replicate z '0', isDigit c = true := by
    intro c hc; rw [(List.mem_replicate.1 hc).2]; decide
  have hz0 : runVal (List.replicate z '0') = 0 := by
    induction z with
    | zero => rfl
    | succ z ih =>
      rw [List.replicate_succ', runVal_append _ _ (by simp; decide), ih (fun c hc => by
        rw [(List.mem_replicate.1 hc).2]; decide)]
      decide
  rw [parseFloat_dec (zpad_digits 2 s) (by
      intro c hc
      rcases List.mem_append.1 hc with h | h
      · exact zpad_digits _ _ c h
      · exact hz c h) (Or.inl (zpad_Digits' 2 s (by norm_num)).1),
    runVal_zpad_lt 2 s (by simpa using hs), runVal_append _ _ hz, runVal_zpad_lt k f hf, hz0]
  simp only [List.length_append, zpad_length, List.length_replicate]
  congr 2
  push_cast
  rw [pow_add]
  have : (10 : ℚ) ^ z ≠ 0 := by positivity
  have : (10 : ℚ) ^ k ≠ 0 := by positivity
  field_simp
  ring

theorem parse_seconds_nofrac (s : ℕ) (hs : s < 100) : parseFloat (zpad 2 s ++ []) = some (.fin (s : ℚ)) := by
  rw [List.append_nil, parseFloat_digits (zpad_Digits' 2 s (by norm_num)), runVal_zpad_lt 2 s (by simpa using hs)]

theorem floatStr_nat (s : ℕ) (hs : s < 100) : floatStr (.fin (s : ℚ)) = natStr s ++ '.' :: zpad 1 0 := by
  simp only [floatStr]
  have h0 : ¬ ((s : ℚ) < 0) := not_lt.2 (Nat.cast_nonneg s)
  rw [if_neg h0, abs_of_nonneg (Nat.cast_nonneg s), posRepr_nat, if_pos]
  · rfl
  · rcases Nat.eq_zero_or_pos s with rfl | h
    · left; simp
    · right
      have h1 : (1 : ℚ) ≤ s := by exact_mod_cast h
      have h2 : (s : ℚ) < 100 := by exact_mod_cast hs
      constructor
      · norm_num; linarith
      · norm_num; linarith

theorem floatStr_frac (s f k : ℕ) (hs : s < 100) (hf : f % 10 ≠ 0) (hk : f < 10 ^ k) :
    floatStr (.fin ((s : ℚ) + (f : ℚ) / 10 ^ k)) =
      if 1 ≤ s ∨ 10 ^ k ≤ 10000 * f then natStr s ++ '.' :: zpad k f else sciRepr ((s : ℚ) + (f : ℚ) / 10 ^ k) := by
  have h0 : (0 : ℚ) ≤ (f : ℚ) / 10 ^ k := by positivity
  have hp : (0 : ℚ) < 10 ^ k := by positivity
  have h1 : (f : ℚ) / 10 ^ k < 1 := by rw [div_lt_one hp]; exact_mod_cast hk
  have hfp : 0 < f := by rcases Nat.eq_zero_or_pos f with rfl | h; simp at hf; exact h
  have hpos : (0 : ℚ) < (f : ℚ) / 10 ^ k := by
    have : (0 : ℚ) < f := by exact_mod_cast hfp
    positivity
  have hs0 : (0 : ℚ) ≤ (s : ℚ) := Nat.cast_nonneg s
  have hs1 : (s : ℚ) < 100 := by exact_mod_cast hs
  simp only [floatStr]
  rw [if_neg (not_lt.2 (by linarith : (0 : ℚ) ≤ (s : ℚ) + (f : ℚ) / 10 ^ k)), abs_of_nonneg (by linarith), posRepr_frac s f k hf hk]
  have : ((s : ℚ) + (f : ℚ) / 10 ^ k = 0 ∨ (1 / 10000 ≤ (s : ℚ) + (f : ℚ) / 10 ^ k ∧ (s : ℚ) + (f : ℚ) / 10 ^ k < 10 ^ 16)) ↔
      (1 ≤ s ∨ 10 ^ k ≤ 10000 * f) := by
    constructor
    · rintro (h | ⟨h, _⟩)
      · linarith
      · rcases Nat.eq_zero_or_pos s with rfl | h'
        · right
          simp only [Nat.cast_zero, zero_add] at h
          rw [div_le_div_iff₀ (by norm_num) hp] at h
          have : ((10 ^ k : ℕ) : ℚ) ≤ ((10000 * f : ℕ) : ℚ) := by push_cast; linarith
          exact_mod_cast this
        · exact Or.inl h'
    · rintro (h | h)
      · right
        have : (1 : ℚ) ≤ s := by exact_mod_cast h
        constructor
        · norm_num; linarith
        · norm_num; linarith
      · right
        have h' : ((10 ^ k : ℕ) : ℚ) ≤ ((10000 * f : ℕ) : ℚ) := by exact_mod_cast h
        push_cast at h'
        constructor
        · have : (1 : ℚ) / 10000 ≤ (f : ℚ) / 10 ^ k := by
            rw [div_le_div_iff₀ (by norm_num) hp]; linarith
          linarith
        · norm_num; linarith
  by_cases hc : 1 ≤ s ∨ 10 ^ k ≤ 10000 * f
  · rw [if_pos (this.2 hc), if_pos hc]; rfl
  · rw [if_neg (fun h => hc (this.1 h)), if_neg hc]; rfl

/-! ### Double precision -/

theorem parseDouble_of {s : Str} {q : ℚ} (h : parseFloat s = some (.fin q)) : parseDouble s = some (.fin (toDouble q)) := by
  unfold parseDouble
  rw [h]
  rfl

theorem doubleStr_dec15 {q : ℚ} (h : Dec15 q) : doubleStr (.fin (toDouble q)) = floatStr (.fin q) := by
  have hp := toDouble_pos h.pos
  show floatStr (.fin (if toDouble q < 0 then _ else if toDouble q = 0 then _ else _)) = _
  rw [if_neg (not_lt.2 hp.le), if_neg hp.ne', shortest_toDouble h]

theorem doubleStr_seconds (s f k : ℕ) (h : s * 10 ^ k + f < 10 ^ 15) :
    doubleStr (.fin (toDouble ((s : ℚ) + (f : ℚ) / 10 ^ k))) = floatStr (.fin ((s : ℚ) + (f : ℚ) / 10 ^ k)) := by
  have e : (s : ℚ) + (f : ℚ) / 10 ^ k = ((s * 10 ^ k + f : ℕ) : ℤ) * 10 ^ (-(k : ℤ)) := by
    rw [zpow_neg, zpow_natCast]
    push_cast
    field_simp
  rcases Nat.eq_zero_or_pos (s * 10 ^ k + f) with h0 | h0
  · rw [e, h0]
    simp only [Nat.cast_zero, Int.cast_zero, zero_mul]
    have : toDouble 0 = 0 := by decide +kernel
    rw [this]
    show floatStr (.fin (if (0 : ℚ) < 0 then _ else if (0 : ℚ) = 0 then _ else _)) = _
    rw [if_neg (lt_irrefl _), if_pos rfl]
  · exact doubleStr_dec15 ⟨_, _, by exact_mod_cast h0, by exact_mod_cast h, e⟩

/-- Up to 13 digits the product in line 170 is exact. -/
theorem msecOf_nat (f : ℕ) (h : f < 10 ^ 13) : msecOf f = .ok ((f : ℤ) * 10000) := by
  have e1 : toDouble ((f : ℤ) : ℚ) = f := by
    have : IsDouble (((f : ℤ) : ℚ) * 2 ^ (0 : ℤ)) := isDouble_of_le (by rw [abs_of_nonneg (by positivity)]; norm_num at h ⊢; omega)
    rw [zpow_zero, mul_one] at this
    rw [toDouble_rounds.exact this]
    push_cast
    rfl
  have e2 : toDouble ((f : ℚ) * 10000) = ((f * 10000 : ℤ) : ℚ) := by
    have : IsDouble (((f * 625 : ℤ) : ℚ) * 2 ^ (4 : ℤ)) := isDouble_of_le (by rw [abs_of_nonneg (by positivity)]; norm_num at h ⊢; omega)
    have e : (((f * 625 : ℤ) : ℚ) * 2 ^ (4 : ℤ)) = (f : ℚ) * 10000 := by push_cast; norm_num; ring
    rw [e] at this
    rw [toDouble_rounds.exact this]
    push_cast
    rfl
  unfold msecOf
  rw [e1, e2]
  have e3 : truncQ ((f * 10000 : ℤ) : ℚ) = f * 10000 := by
    unfold truncQ
    rw [if_pos (by exact_mod_cast (by positivity : (0 : ℤ) ≤ f * 10000)), Int.floor_intCast]
  simp only [e3]
  rw [if_pos]
  norm_num at h ⊢
  omega

end Shipgrav
