import Verif.Py.Core
import Mathlib.Data.Rat.Floor
import Mathlib.Algebra.Order.Round

/-! Python's `datetime`, restricted to UTC.  An aware datetime is represented by its instant: the integer number of
microseconds since 1970-01-01T00:00:00Z.  The calendar is CPython's proleptic Gregorian calendar
(`Lib/_pydatetime.py`: `_is_leap`, `_days_before_year`, `_days_in_month`, `_days_before_month`, `_ymd2ord`). -/

namespace Shipgrav

/-- `_is_leap` -/
def isLeap (y : ℕ) : Bool := y % 4 == 0 && (y % 100 != 0 || y % 400 == 0)

/-- `_days_before_year`: days before January 1st of year `y ≥ 1`. -/
def daysBeforeYear (y : ℕ) : ℕ := (y - 1) * 365 + (y - 1) / 4 - (y - 1) / 100 + (y - 1) / 400

/-- `_days_in_month` -/
def daysInMonth (y m : ℕ) : ℕ :=
  match m with
  | 1 => 31 | 2 => if isLeap y then 29 else 28 | 3 => 31 | 4 => 30 | 5 => 31 | 6 => 30
  | 7 => 31 | 8 => 31 | 9 => 30 | 10 => 31 | 11 => 30 | 12 => 31 | _ => 0

/-- `_DAYS_BEFORE_MONTH` (February has 28 days). -/
def daysBeforeMonthTab (m : ℕ) : ℕ :=
  match m with
  | 1 => 0 | 2 => 31 | 3 => 59 | 4 => 90 | 5 => 120 | 6 => 151
  | 7 => 181 | 8 => 212 | 9 => 243 | 10 => 273 | 11 => 304 | 12 => 334 | _ => 0

/-- `_days_before_month` -/
def daysBeforeMonth (y m : ℕ) : ℕ := daysBeforeMonthTab m + (if 2 < m ∧ isLeap y then 1 else 0)

/-- `_ymd2ord`: the ordinal of a date; 0001-01-01 has ordinal 1. -/
def ymd2ord (y m d : ℕ) : ℕ := daysBeforeYear y + daysBeforeMonth y m + d

/-- `date(1970, 1, 1).toordinal()` -/
def epochOrd : ℕ := 719163

/-- `date.max.toordinal()`, i.e. 9999-12-31. -/
def maxOrd : ℕ := 3652059

/-- Microseconds since the epoch of day `ord`, `h:mi:s.us`. -/
def instantUs (ord : ℕ) (h mi s us : ℤ) : ℤ :=
  ((((ord : ℤ) - epochOrd) * 24 + h) * 60 + mi) * 60000000 + s * 1000000 + us

/-- Hour, minute, second and microsecond accepted by the `datetime` constructor. -/
def validClock (h mi s us : ℤ) : Bool :=
  0 ≤ h && h < 24 && 0 ≤ mi && mi < 60 && 0 ≤ s && s < 60 && 0 ≤ us && us < 1000000

/-- `datetime(y, m, d, h, mi, s, us, tzinfo=timezone.utc)`. -/
def mkDatetime (y m d : ℕ) (h mi s us : ℤ) : Except PyErr ℤ :=
  if 1 ≤ y ∧ y ≤ 9999 ∧ 1 ≤ m ∧ m ≤ 12 ∧ 1 ≤ d ∧ d ≤ daysInMonth y m ∧ validClock h mi s us then
    .ok (instantUs (ymd2ord y m d) h mi s us)
  else .error .valueError

/-- The datetime `strptime` builds from `%Y` and `%j` (`Lib/_strptime.py`): day of year 1–366, converted with
`date.fromordinal(j - 1 + date(y, 1, 1).toordinal())`; day 366 of a common year is accepted and means January 1st of
the following year. -/
def mkDatetimeDoy (y doy : ℕ) (h mi s us : ℤ) : Except PyErr ℤ :=
  if 1 ≤ y ∧ y ≤ 9999 ∧ 1 ≤ doy ∧ doy ≤ 366 ∧ ymd2ord y 1 1 + (doy - 1) ≤ maxOrd ∧ validClock h mi s us then
    .ok (instantUs (ymd2ord y 1 1 + (doy - 1)) h mi s us)
  else .error .valueError

/-- `d.timestamp()` -/
def timestamp (t : ℤ) : ℚ := (t : ℚ) / 1000000

/-- Round half to even. -/
def roundHalfEven (q : ℚ) : ℤ :=
  let f := ⌊q⌋
  let r := q - f
  if r < 1 / 2 then f else if 1 / 2 < r then f + 1 else if f % 2 = 0 then f else f + 1

example : ymd2ord 1970 1 1 = epochOrd := by decide +kernel
example : ymd2ord 9999 12 31 = maxOrd := by decide +kernel
example : mkDatetime 2000 2 29 23 59 59 999999 = .ok 951868799999999 := by decide +kernel
example : mkDatetime 1900 2 29 0 0 0 0 = .error .valueError := by decide +kernel

end Shipgrav
