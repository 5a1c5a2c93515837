import Verif.Py.Fmt

/-! What a GGA line looks like and what it says. -/

namespace Shipgrav.Spec

/-- Comma-separated fields, each preceded by its comma. -/
def commaFields (fields : List Str) : Str := (fields.map (',' :: ·)).flatten

/-- A line of a navigation file: logger prefix, talker, then the fields of the sentence. -/
def ggaLine (pre talker : Str) (fields : List Str) : Str := pre ++ talker ++ commaFields fields

/-- The talker occurs in the line only at its place, and no field contains a comma. -/
structure WellFormed (pre talker : Str) (fields : List Str) : Prop where
  nonempty : talker ≠ []
  before : ¬ talker <:+: pre ++ talker.dropLast
  after : ¬ talker <:+: commaFields fields
  commas : ∀ f ∈ fields, ',' ∉ f

/-- `dd…d mm.ff…f`: degrees with `w` digits, two digits of minutes, `k` decimals of a minute. -/
def degMinText (w deg min k frac : ℕ) : Str := zpad w deg ++ (zpad 2 min ++ '.' :: zpad k frac)

/-- The angle in decimal degrees. -/
def degMinValue (deg min k frac : ℕ) : ℚ := deg + (min + frac / 10 ^ k) / 60

/-- A signed angle: negative on the southern / western side. -/
def signed (neg : Bool) (x : ℚ) : ℚ := if neg then -x else x

def nsText (south : Bool) : Str := if south then ['S'] else ['N']
def ewText (west : Bool) : Str := if west then ['W'] else ['E']

/-- `hhmmss` followed by a fraction text (empty, or a point and digits). -/
def clockText (h m s : ℕ) (frac : Str) : Str := zpad 2 h ++ (zpad 2 m ++ (zpad 2 s ++ frac))

/-- `.` followed by the `k` digits of `f` and `z` zeros: the fraction `f / 10^k` of a second. -/
def fracText (k f z : ℕ) : Str := '.' :: (zpad k f ++ List.replicate z '0')

end Shipgrav.Spec

namespace Shipgrav.Spec

/-- Fractions of a second that `_clock_time` decodes correctly, with the stated microseconds: none, zero, or exactly two
significant decimals (`C24_fraction_correct_iff_partial`). -/
def FaithfulFrac (frac : Str) (us : ℕ) : Prop :=
  ((frac = [] ∨ ∃ z, frac = '.' :: List.replicate z '0') ∧ us = 0) ∨
    ∃ f z, frac = fracText 2 f z ∧ f < 100 ∧ f % 10 ≠ 0 ∧ us = f * 10000

/-- `NAV yyyy/mm/dd`, the date Atlantis's logger writes. -/
def atlantisDate (y m d : ℕ) : Str := "NAV ".toList ++ (zpad 4 y ++ ('/' :: (zpad 2 m ++ ('/' :: zpad 2 d))))

/-- `mm/dd/yyyy`, the date Thompson's logger writes. -/
def thompsonDate (y m d : ℕ) : Str := zpad 2 m ++ ('/' :: (zpad 2 d ++ ('/' :: zpad 4 y)))

/-- `yy+jjj:`, year (after 2000) and day of year as Palmer's logger writes them. -/
def nbpDate (yy doy : ℕ) : Str := zpad 2 yy ++ ('+' :: (zpad 3 doy ++ [':']))

/-- `yyyy-mm-dd`. -/
def isoDate (y m d : ℕ) : Str := zpad 4 y ++ ('-' :: (zpad 2 m ++ ('-' :: zpad 2 d)))

end Shipgrav.Spec
