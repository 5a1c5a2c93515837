import Verif.Spec.NavStamp
import Verif.Spec.NavParse
import Verif.Spec.Bgm
import Verif.Spec.Dgs

/-! Lines of the files that the example scripts read. -/

namespace Shipgrav.Spec

/-- A line of a navigation file of the Ride: the stamp of the logger, with `k` decimals of a second, anything, and a GPGGA sentence with a position. -/
structure RideFix where
  y : ℕ
  m : ℕ
  d : ℕ
  h : ℕ
  mi : ℕ
  s : ℕ
  k : ℕ
  f : ℕ
  /-- between stamp and talker -/
  mid : Str
  /-- clock of the receiver -/
  time : Str
  ld : ℕ
  lm : ℕ
  lk : ℕ
  lf : ℕ
  south : Bool
  gd : ℕ
  gm : ℕ
  gk : ℕ
  gf : ℕ
  west : Bool
  /-- the other fields of the sentence -/
  rest : List Str

def RideFix.pre (x : RideFix) : Str := isoStamp x.y x.m x.d x.h x.mi x.s x.k x.f ++ x.mid

def RideFix.fields (x : RideFix) : List Str :=
  [x.time, degMinText 2 x.ld x.lm x.lk x.lf, nsText x.south, degMinText 3 x.gd x.gm x.gk x.gf, ewText x.west] ++ x.rest

/-- The text of the line. -/
def RideFix.line (x : RideFix) : Str := ggaLine x.pre "GPGGA".toList x.fields

/-- The instant of the stamp, in microseconds since 1970. -/
def RideFix.instant (x : RideFix) : ℤ := utcInstant x.y x.m x.d x.h x.mi x.s ((x.f * 10 ^ (6 - x.k) : ℕ) : ℤ)

/-- Longitude and latitude in degrees. -/
def RideFix.lon (x : RideFix) : ℚ := signed x.west (degMinValue x.gd x.gm x.gk x.gf)
def RideFix.lat (x : RideFix) : ℚ := signed x.south (degMinValue x.ld x.lm x.lk x.lf)

/-- Date and time exist, up to three decimals are written, the numbers fit their digits, and the talker occurs once. -/
structure RideFix.Valid (x : RideFix) : Prop where
  date : ValidDate x.y x.m x.d
  clock : x.h < 24 ∧ x.mi < 60 ∧ x.s < 60
  decimals : 1 ≤ x.k ∧ x.k ≤ 3
  fraction : x.f < 10 ^ x.k
  latitude : x.ld < 100 ∧ x.lm < 100 ∧ x.lf < 10 ^ x.lk
  longitude : x.gd < 1000 ∧ x.gm < 100 ∧ x.gf < 10 ^ x.gk
  sentence : WellFormed x.pre "GPGGA".toList x.fields

/-- A record of a DGS laptop file: its fields, the numbers in the columns that are used, and its time. -/
structure LaptopRecord where
  fields : List Str
  q : ℕ → ℚ
  x : Sample

/-- The text of the record. -/
def LaptopRecord.line (r : LaptopRecord) : Str := joinC ',' r.fields

/-- The reading. -/
def LaptopRecord.rgrav (r : LaptopRecord) : ℚ := r.q 1

/-- There are enough fields; the columns that are used are the numbers `q`, of which the last six make the time. -/
structure LaptopRecord.Valid (r : LaptopRecord) : Prop where
  time : r.x.Valid
  parts : PartsAre r.q r.x
  enough : 25 ≤ r.fields.length
  commas : ∀ f ∈ r.fields, ',' ∉ f
  numbers : ∀ s ∈ laptopColumns, NumText (r.fields.getD s.2 []) (r.q s.2)
  whole : ∀ j ∈ [19, 20, 21], WholeText (r.fields.getD j [])

end Shipgrav.Spec
