import Verif.Py.Calendar
import Verif.Spec.Calendar
import Mathlib.Tactic.IntervalCases
import Mathlib.Tactic.Linarith
import Mathlib.Tactic.Ring

namespace Shipgrav
open Spec

theorem isLeap_iff (y : ℕ) : isLeap y = true ↔ Leap y := by
  unfold isLeap Leap
  simp only [Bool.and_eq_true, Bool.or_eq_true, beq_iff_eq, bne_iff_ne]
  omega

theorem daysInMonth_eq (y m : ℕ) : daysInMonth y m = monthLen y m := by
  have hl := isLeap_iff y
  by_cases hm : m ≤ 12
  · interval_cases m <;> simp [daysInMonth, monthLen, monthLengths]
    by_cases h : Leap y
    · simp [h, hl.2 h]
    · have : isLeap y = false := by
        cases hh : isLeap y with
        | false => rfl
        | true => exact absurd (hl.1 hh) h
      simp [h, this]
  · have : daysInMonth y m = 0 := by
      unfold daysInMonth
      split <;> first | omega | rfl
    rw [this, monthLen, if_neg (by omega), List.getD_eq_getElem?_getD, List.getElem?_eq_none (by simp [monthLengths]; omega)]
    rfl

theorem yearLen (y : ℕ) (hy : 1 ≤ y) : daysBeforeYear (y + 1) = daysBeforeYear y + (if isLeap y then 366 else 365) := by
  unfold daysBeforeYear isLeap
  obtain ⟨z, rfl⟩ : ∃ z, y = z + 1 := ⟨y - 1, by omega⟩
  simp only [Nat.add_sub_cancel]
  have hs : ∀ n, (z + 1) / n = z / n + if (z + 1) % n = 0 then 1 else 0 := by
    intro n; rw [Nat.succ_div]; simp [Nat.dvd_iff_mod_eq_zero]
  have i1 : (z + 1) % 400 = 0 → (z + 1) % 100 = 0 := by omega
  have i2 : (z + 1) % 100 = 0 → (z + 1) % 4 = 0 := by omega
  have i3 : z / 100 ≤ z / 4 := Nat.div_le_div_left (by norm_num) (by norm_num)
  rw [hs 4, hs 100, hs 400]
  generalize z / 4 = a at *
  generalize z / 100 = b at *
  generalize z / 400 = c at *
  by_cases h4 : (z + 1) % 4 = 0 <;> by_cases h100 : (z + 1) % 100 = 0 <;> by_cases h400 : (z + 1) % 400 = 0 <;>
    simp [h4, h100, h400] <;> simp [h4, h100, h400] at i1 i2 <;> omega

theorem monthStep (y m : ℕ) (h1 : 1 ≤ m) (h2 : m < 12) :
    daysBeforeMonth y (m + 1) = daysBeforeMonth y m + daysInMonth y m := by
  unfold daysBeforeMonth
  cases hl : isLeap y <;> interval_cases m <;> simp [daysBeforeMonthTab, daysInMonth, hl]

theorem monthMono (y m m' : ℕ) (h1 : 1 ≤ m) (h : m < m') (h2 : m' ≤ 12) :
    daysBeforeMonth y m + daysInMonth y m ≤ daysBeforeMonth y m' := by
  obtain ⟨k, rfl⟩ : ∃ k, m' = m + 1 + k := ⟨m' - m - 1, by omega⟩
  induction k with
  | zero => exact (monthStep y m h1 (by omega)).ge
  | succ k ih =>
    have := ih (by omega) (by omega)
    have := monthStep y (m + 1 + k) (by omega) (by omega)
    rw [show m + 1 + (k + 1) = m + 1 + k + 1 by omega]
    omega

theorem lastDay (y m d : ℕ) (h1 : 1 ≤ m) (h2 : m ≤ 12) (hd : d ≤ daysInMonth y m) :
    daysBeforeMonth y m + d ≤ if isLeap y then 366 else 365 := by
  have h12 : daysBeforeMonth y 12 + daysInMonth y 12 = if isLeap y then 366 else 365 := by
    cases hl : isLeap y <;> simp [daysBeforeMonth, daysBeforeMonthTab, daysInMonth, hl]
  rcases Nat.lt_or_ge m 12 with h | h
  · have := monthMono y m 12 h1 h le_rfl; omega
  · obtain rfl : m = 12 := by omega
    omega

theorem yearMono (y y' : ℕ) (hy : 1 ≤ y) (h : y < y') : daysBeforeYear y + (if isLeap y then 366 else 365) ≤ daysBeforeYear y' := by
  obtain ⟨k, rfl⟩ : ∃ k, y' = y + 1 + k := ⟨y' - y - 1, by omega⟩
  induction k with
  | zero => exact (yearLen y hy).ge
  | succ k ih =>
    have := ih (by omega)
    have := yearLen (y + 1 + k) (by omega)
    rw [show y + 1 + (k + 1) = y + 1 + k + 1 by omega]
    omega

theorem ord_lt {y m d y' m' d' : ℕ} (h : ValidDate y m d) (h' : ValidDate y' m' d')
    (hlt : y < y' ∨ (y = y' ∧ (m < m' ∨ (m = m' ∧ d < d')))) : ymd2ord y m d < ymd2ord y' m' d' := by
  obtain ⟨a1, a2, a3, a4, a5, a6⟩ := h
  obtain ⟨b1, b2, b3, b4, b5, b6⟩ := h'
  rw [← daysInMonth_eq] at a6 b6
  unfold ymd2ord
  rcases hlt with hlt | ⟨rfl, hlt | ⟨rfl, hlt⟩⟩
  · have := yearMono y y' a1 hlt
    have := lastDay y m d a3 a4 a6
    omega
  · have := monthMono y m m' a3 hlt b4
    omega
  · omega

theorem validClock_iff (h mi s us : ℤ) : validClock h mi s us = true ↔ ValidTime h mi s us := by
  unfold validClock ValidTime
  simp [and_assoc]

theorem mkDatetime_ok_iff (y m d : ℕ) (h mi s us t : ℤ) :
    mkDatetime y m d h mi s us = .ok t ↔
      ValidDate y m d ∧ ValidTime h mi s us ∧ t = instantUs (ymd2ord y m d) h mi s us := by
  have e1 := validClock_iff h mi s us
  have e2 := daysInMonth_eq y m
  unfold mkDatetime ValidDate
  constructor
  · intro hh
    split at hh
    · rename_i hc
      cases hh
      obtain ⟨a, b, c, e, f, g, i⟩ := hc
      exact ⟨⟨a, b, c, e, f, e2 ▸ g⟩, e1.1 i, rfl⟩
    · cases hh
  · rintro ⟨⟨a, b, c, e, f, g⟩, i, rfl⟩
    rw [if_pos ⟨a, b, c, e, f, e2 ▸ g, e1.2 i⟩]

theorem instantUs_eq (o : ℕ) (h mi s us : ℤ) : instantUs o h mi s us = ((o : ℤ) - 719163) * dayUs + usOfDay h mi s us := by
  unfold instantUs usOfDay dayUs epochOrd
  push_cast; ring

theorem usOfDay_range {h mi s us : ℤ} (hv : ValidTime h mi s us) : 0 ≤ usOfDay h mi s us ∧ usOfDay h mi s us < dayUs := by
  obtain ⟨a, b, c, d, e, f, g, i⟩ := hv
  unfold usOfDay dayUs
  omega

theorem daysBeforeMonth_eq_sum (y m : ℕ) (h1 : 1 ≤ m) (h2 : m ≤ 12) :
    daysBeforeMonth y m = ((monthLengths y).take (m - 1)).sum := by
  unfold daysBeforeMonth monthLengths
  have hl := isLeap_iff y
  by_cases h : Leap y
  · have := hl.2 h
    interval_cases m <;> simp [daysBeforeMonthTab, h, this]
  · have : ¬ isLeap y = true := fun hh => h (hl.1 hh)
    interval_cases m <;> simp [daysBeforeMonthTab, h, this]

theorem ymd2ord_eq (y m d : ℕ) (hy : 1 ≤ y) (h1 : 1 ≤ m) (h2 : m ≤ 12) : ymd2ord y m d = dayNumber y m d := by
  unfold ymd2ord dayNumber dayOfYear
  rw [daysBeforeMonth_eq_sum y m h1 h2]
  have : ∀ k, daysBeforeYear (k + 1) = ((List.range k).map (fun k => (monthLengths (k + 1)).sum)).sum := by
    intro k
    induction k with
    | zero => rfl
    | succ k ih =>
      rw [yearLen (k + 1) (by omega), ih, List.range_succ, List.map_append, List.sum_append]
      congr 1
      by_cases hl : Leap (k + 1)
      · rw [if_pos ((isLeap_iff _).2 hl)]; simp [monthLengths, hl]
      · rw [if_neg (fun h => hl ((isLeap_iff _).1 h))]; simp [monthLengths, hl]
  obtain ⟨k, rfl⟩ : ∃ k, y = k + 1 := ⟨y - 1, by omega⟩
  rw [this, Nat.add_sub_cancel, Nat.add_assoc]

end Shipgrav
