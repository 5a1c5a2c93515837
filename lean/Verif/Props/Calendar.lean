import Verif.Lemmas.Calendar
import Mathlib.Data.List.Lex
import Mathlib.Order.Lex

/-! Property C35: the calendar used for the timestamps. -/

namespace Shipgrav
open Spec

/-- **C35.** The ordinal is the number of the day: 0001-01-01 has number 1, and each following day of the Gregorian
calendar has the next number. -/
theorem C35_ordinal_counts_days :
    ymd2ord 1 1 1 = 1 ∧
      ∀ y m d, ValidDate y m d →
        ymd2ord (nextDay y m d).1 (nextDay y m d).2.1 (nextDay y m d).2.2 = ymd2ord y m d + 1 := by
  refine ⟨by decide, ?_⟩
  rintro y m d ⟨a1, a2, a3, a4, a5, a6⟩
  rw [← daysInMonth_eq] at a6
  unfold nextDay
  rw [← daysInMonth_eq]
  unfold ymd2ord
  split
  · simp; omega
  · rename_i hd
    split
    · rename_i hm
      have := monthStep y m a3 hm
      simp only
      omega
    · rename_i hm
      obtain rfl : m = 12 := by omega
      have hy := yearLen y a1
      have h12 : daysInMonth y 12 = 31 := rfl
      have h1 : daysBeforeMonth (y + 1) 1 = 0 := by simp [daysBeforeMonth, daysBeforeMonthTab]
      simp only
      rw [hy, h1]
      cases hl : isLeap y <;> simp [daysBeforeMonth, daysBeforeMonthTab, hl] <;> omega

/-- **C35.** The instant of a UTC date and time is `86400·10⁶` microseconds per day since 1970-01-01 plus the time of
day; invalid dates and times raise `ValueError`. -/
theorem C35_instant (y m d : ℕ) (h mi s us : ℤ) :
    mkDatetime y m d h mi s us =
      if ValidDate y m d ∧ ValidTime h mi s us then
        (.ok (((ymd2ord y m d : ℤ) - ymd2ord 1970 1 1) * dayUs + usOfDay h mi s us) : Except PyErr ℤ)
      else .error .valueError := by
  have e : ymd2ord 1970 1 1 = 719163 := by decide
  rw [e]
  split
  · rename_i hc
    rw [mkDatetime_ok_iff, instantUs_eq]
    exact ⟨hc.1, hc.2, rfl⟩
  · rename_i hc
    cases hh : mkDatetime y m d h mi s us with
    | ok t =>
      have := (mkDatetime_ok_iff y m d h mi s us t).1 hh
      exact absurd ⟨this.1, this.2.1⟩ hc
    | error e =>
      unfold mkDatetime at hh
      split at hh
      · cases hh
      · cases hh; rfl

/-- The fields of a timestamp in order of significance. -/
def stampFields (y m d : ℕ) (h mi s us : ℤ) : List ℤ := [y, m, d, h, mi, s, us]

/-- **C35.** Later timestamps (lexicographically in year, month, day, hour, minute, second, microsecond) get larger
instants, and conversely. -/
theorem C35_order_preserving (y m d y' m' d' : ℕ) (h mi s us h' mi' s' us' t t' : ℤ)
    (ht : mkDatetime y m d h mi s us = .ok t) (ht' : mkDatetime y' m' d' h' mi' s' us' = .ok t') :
    t < t' ↔ stampFields y m d h mi s us < stampFields y' m' d' h' mi' s' us' := by
  obtain ⟨v, w, rfl⟩ := (mkDatetime_ok_iff _ _ _ _ _ _ _ _).1 ht
  obtain ⟨v', w', rfl⟩ := (mkDatetime_ok_iff _ _ _ _ _ _ _ _).1 ht'
  rw [instantUs_eq, instantUs_eq]
  have r := usOfDay_range w
  have r' := usOfDay_range w'
  have key : stampFields y m d h mi s us < stampFields y' m' d' h' mi' s' us' ↔
      y < y' ∨ (y = y' ∧ (m < m' ∨ (m = m' ∧ (d < d' ∨ (d = d' ∧ (h < h' ∨ (h = h' ∧ (mi < mi' ∨ (mi = mi' ∧
        (s < s' ∨ (s = s' ∧ us < us'))))))))))) := by
    unfold stampFields
    simp [List.cons_lt_cons_iff]
  rw [key]
  have hday : ∀ a b : ℕ, a < b → ((a : ℤ) - 719163) * dayUs + dayUs ≤ ((b : ℤ) - 719163) * dayUs := by
    intro a b hab
    unfold dayUs
    omega
  obtain ⟨w1, w2, w3, w4, w5, w6, w7, w8⟩ := w
  obtain ⟨x1, x2, x3, x4, x5, x6, x7, x8⟩ := w'
  rcases lt_trichotomy y y' with hy | rfl | hy
  · have := hday _ _ (ord_lt v v' (Or.inl hy))
    constructor
    · intro _; exact Or.inl hy
    · intro _; omega
  · rcases lt_trichotomy m m' with hm | rfl | hm
    · have := hday _ _ (ord_lt v v' (Or.inr ⟨rfl, Or.inl hm⟩))
      constructor
      · intro _; exact Or.inr ⟨rfl, Or.inl hm⟩
      · intro _; omega
    · rcases lt_trichotomy d d' with hd | rfl | hd
      · have := hday _ _ (ord_lt v v' (Or.inr ⟨rfl, Or.inr ⟨rfl, hd⟩⟩))
        constructor
        · intro _; exact Or.inr ⟨rfl, Or.inr ⟨rfl, Or.inl hd⟩⟩
        · intro _; omega
      · unfold usOfDay
        constructor
        · intro hlt
          refine Or.inr ⟨rfl, Or.inr ⟨rfl, Or.inr ⟨rfl, ?_⟩⟩⟩
          omega
        · intro hlt
          omega
      · have := hday _ _ (ord_lt v' v (Or.inr ⟨rfl, Or.inr ⟨rfl, hd⟩⟩))
        constructor
        · intro _; omega
        · intro hh; omega
    · have := hday _ _ (ord_lt v' v (Or.inr ⟨rfl, Or.inl hm⟩))
      constructor
      · intro _; omega
      · intro hh; omega
  · have := hday _ _ (ord_lt v' v (Or.inl hy))
    constructor
    · intro _; omega
    · intro hh; omega

/-- **C35.** Different timestamps get different instants. -/
theorem C35_injective (y m d y' m' d' : ℕ) (h mi s us h' mi' s' us' t : ℤ)
    (ht : mkDatetime y m d h mi s us = .ok t) (ht' : mkDatetime y' m' d' h' mi' s' us' = .ok t) :
    stampFields y m d h mi s us = stampFields y' m' d' h' mi' s' us' := by
  have h1 := (C35_order_preserving _ _ _ _ _ _ _ _ _ _ _ _ _ _ _ _ ht ht').not.1 (lt_irrefl t)
  have h2 := (C35_order_preserving _ _ _ _ _ _ _ _ _ _ _ _ _ _ _ _ ht' ht).not.1 (lt_irrefl t)
  exact le_antisymm (not_lt.1 h2) (not_lt.1 h1)

/-- **C35.** Year and day-of-year (NBP, Langseth) give the same instant as year, month and day. -/
theorem C35_day_of_year_agrees (y m d : ℕ) (h mi s us : ℤ) (hv : ValidDate y m d) :
    mkDatetimeDoy y (dayOfYear y m d) h mi s us = mkDatetime y m d h mi s us := by
  have hv' := hv
  obtain ⟨a1, a2, a3, a4, a5, a6⟩ := hv
  have hb : dayOfYear y m d = daysBeforeMonth y m + d := by
    unfold dayOfYear; rw [daysBeforeMonth_eq_sum y m a3 a4]
  have hl := lastDay y m d a3 a4 (by rw [daysInMonth_eq]; exact a6)
  have hle : daysBeforeMonth y m + d ≤ 366 := by split at hl <;> omega
  have h11 : ymd2ord y 1 1 = daysBeforeYear y + 1 := by simp [ymd2ord, daysBeforeMonth, daysBeforeMonthTab]
  have ho : ymd2ord y 1 1 + (dayOfYear y m d - 1) = ymd2ord y m d := by
    rw [h11, hb]; unfold ymd2ord; omega
  have hmax : ymd2ord y m d ≤ maxOrd := by
    have hvm : ValidDate 9999 12 31 := by unfold ValidDate; decide
    have e : ymd2ord 9999 12 31 = maxOrd := by decide +kernel
    rw [← e]
    rcases Nat.lt_or_ge (ymd2ord 9999 12 31) (ymd2ord y m d) with hlt | hge
    · exfalso
      have : ¬ (y < 9999 ∨ (y = 9999 ∧ (m < 12 ∨ (m = 12 ∧ d < 31)))) := by
        intro hh; have := ord_lt hv' hvm hh; omega
      have hy : y = 9999 := by omega
      have hm : m = 12 := by omega
      subst hy; subst hm
      have hd : d ≤ 31 := a6
      have : d = 31 := by omega
      subst this
      omega
    · exact hge
  unfold mkDatetimeDoy mkDatetime
  rw [ho, hb]
  by_cases hc : validClock h mi s us = true
  · rw [if_pos ⟨a1, a2, by omega, hle, hmax, hc⟩, if_pos ⟨a1, a2, a3, a4, a5, by rw [daysInMonth_eq]; exact a6, hc⟩]
  · rw [if_neg (fun hh => hc hh.2.2.2.2.2), if_neg (fun hh => hc hh.2.2.2.2.2.2)]

/-- **C35.** Day 366 of a common year is not rejected: it is taken as January 1st of the next year. -/
theorem C35_day_366_rolls_over (y : ℕ) (h mi s us : ℤ) (hy : 1 ≤ y) (hy' : y < 9999) (hl : ¬ Leap y) :
    mkDatetimeDoy y 366 h mi s us = mkDatetime (y + 1) 1 1 h mi s us := by
  have h11 : ∀ y, ymd2ord y 1 1 = daysBeforeYear y + 1 := by
    intro y; simp [ymd2ord, daysBeforeMonth, daysBeforeMonthTab]
  have hyl := yearLen y hy
  rw [if_neg (fun hh => hl ((isLeap_iff y).1 hh))] at hyl
  have ho : ymd2ord y 1 1 + (366 - 1) = ymd2ord (y + 1) 1 1 := by rw [h11, h11, hyl]
  have hv : ValidDate (y + 1) 1 1 := ⟨by omega, by omega, le_rfl, by omega, le_rfl, by simp [monthLen, monthLengths]⟩
  have hdoy := C35_day_of_year_agrees (y + 1) 1 1 h mi s us hv
  have h1 : dayOfYear (y + 1) 1 1 = 1 := by simp [dayOfYear]
  rw [h1] at hdoy
  rw [← hdoy]
  unfold mkDatetimeDoy
  rw [ho]
  simp only [Nat.sub_self, Nat.add_zero]
  by_cases hc : ymd2ord (y + 1) 1 1 ≤ maxOrd ∧ validClock h mi s us = true
  · rw [if_pos ⟨hy, by omega, by omega, le_rfl, hc⟩, if_pos ⟨by omega, by omega, le_rfl, by omega, hc⟩]
  · rw [if_neg (fun hh => hc hh.2.2.2.2), if_neg (fun hh => hc hh.2.2.2.2)]

/-- **C35.** The instant of a date and time of day counts the days of every month of every year before it. -/
theorem C35_utc_instant (y m d : ℕ) (h mi s us : ℤ) :
    mkDatetime y m d h mi s us =
      if ValidDate y m d ∧ ValidTime h mi s us then (.ok (utcInstant y m d h mi s us) : Except PyErr ℤ)
      else .error .valueError := by
  rw [C35_instant]
  by_cases hv : ValidDate y m d ∧ ValidTime h mi s us
  · rw [if_pos hv, if_pos hv]
    unfold utcInstant
    rw [ymd2ord_eq y m d hv.1.1 hv.1.2.2.1 hv.1.2.2.2.1, ymd2ord_eq 1970 1 1 (by omega) (by omega) (by omega)]
  · rw [if_neg hv, if_neg hv]

example : ValidDate 2024 2 29 ∧ nextDay 2024 2 29 = (2024, 3, 1) ∧ dayOfYear 2024 3 1 = 61 := by
  unfold ValidDate; decide
example : mkDatetime 2023 12 31 23 59 59 5 = .ok 1704067199000005 ∧ mkDatetime 2024 1 1 0 0 0 0 = .ok 1704067200000000 := by
  decide +kernel
example : ¬ Leap 2023 := by decide

end Shipgrav
