import Verif.Py.Core
import Mathlib.Data.Int.Notation
import Mathlib.Algebra.Order.Ring.Int

/-! The Gregorian calendar, day by day. -/

namespace Shipgrav.Spec

def Leap (y : ℕ) : Prop := (y % 4 = 0 ∧ y % 100 ≠ 0) ∨ y % 400 = 0

instance (y : ℕ) : Decidable (Leap y) := by unfold Leap; infer_instance

/-- Lengths of the months of year `y`. -/
def monthLengths (y : ℕ) : List ℕ := [31, if Leap y then 29 else 28, 31, 30, 31, 30, 31, 31, 30, 31, 30, 31]

/-- Length of month `m` (1–12; 0 otherwise). -/
def monthLen (y m : ℕ) : ℕ := if m = 0 then 0 else (monthLengths y).getD (m - 1) 0

def ValidDate (y m d : ℕ) : Prop := 1 ≤ y ∧ y ≤ 9999 ∧ 1 ≤ m ∧ m ≤ 12 ∧ 1 ≤ d ∧ d ≤ monthLen y m

/-- The day after `y-m-d`. -/
def nextDay (y m d : ℕ) : ℕ × ℕ × ℕ :=
  if d < monthLen y m then (y, m, d + 1) else if m < 12 then (y, m + 1, 1) else (y + 1, 1, 1)

/-- The day of the year of `y-m-d`: 1 for January 1st. -/
def dayOfYear (y m d : ℕ) : ℕ := ((monthLengths y).take (m - 1)).sum + d

/-- Days from 0001-01-01 to `y-m-d`, both counted: whole years, then the day of the year. -/
def dayNumber (y m d : ℕ) : ℕ := ((List.range (y - 1)).map (fun k => (monthLengths (k + 1)).sum)).sum + dayOfYear y m d

/-- A time of day. -/
def ValidTime (h mi s us : ℤ) : Prop :=
  0 ≤ h ∧ h < 24 ∧ 0 ≤ mi ∧ mi < 60 ∧ 0 ≤ s ∧ s < 60 ∧ 0 ≤ us ∧ us < 1000000

instance (y m d : ℕ) : Decidable (ValidDate y m d) := by unfold ValidDate; infer_instance
instance (h mi s us : ℤ) : Decidable (ValidTime h mi s us) := by unfold ValidTime; infer_instance

/-- Microseconds since midnight. -/
def usOfDay (h mi s us : ℤ) : ℤ := h * 3600000000 + mi * 60000000 + s * 1000000 + us

/-- Microseconds in a day. -/
def dayUs : ℤ := 86400000000

/-- Microseconds from 1970-01-01T00:00Z to the UTC date and time of day. -/
def utcInstant (y m d : ℕ) (h mi s us : ℤ) : ℤ :=
  ((dayNumber y m d : ℤ) - dayNumber 1970 1 1) * dayUs + usOfDay h mi s us

end Shipgrav.Spec
