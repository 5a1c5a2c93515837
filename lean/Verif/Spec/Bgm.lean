import Verif.Spec.NavStamp
import Verif.Py.Pandas
import Mathlib.Algebra.Order.Ring.Rat
import Mathlib.Algebra.Order.Group.Abs

/-! Records of BGM gravimeters, and spikes. -/

namespace Shipgrav.Spec

/-- `hh:mm:ss.f…f` with `k` decimals. -/
def clockStamp (h mi s k f : ℕ) : Str :=
  zpad 2 h ++ (':' :: (zpad 2 mi ++ (':' :: (zpad 2 s ++ ('.' :: zpad k f)))))

/-- `yyyy/mm/dd` -/
def slashYmd (y m d : ℕ) : Str := zpad 4 y ++ ('/' :: (zpad 2 m ++ ('/' :: zpad 2 d)))

/-- `mm/dd/yyyy` -/
def slashMdy (y m d : ℕ) : Str := zpad 2 m ++ ('/' :: (zpad 2 d ++ ('/' :: zpad 4 y)))

/-- One measurement: date, time of day with `k` decimals of a second, and a count written with `w` digits. -/
structure Sample where
  y : ℕ
  m : ℕ
  d : ℕ
  h : ℕ
  mi : ℕ
  s : ℕ
  k : ℕ
  f : ℕ
  w : ℕ
  count : ℕ

/-- The date and the time exist, up to six decimals are written, and the count fits its digits.  (The years are those that
nanosecond time stamps cover completely.) -/
structure Sample.Valid (x : Sample) : Prop where
  date : ValidDate x.y x.m x.d
  year : 1678 ≤ x.y ∧ x.y ≤ 2261
  hour : x.h < 24
  minute : x.mi < 60
  second : x.s < 60
  decimals : 1 ≤ x.k ∧ x.k ≤ 6
  fraction : x.f < 10 ^ x.k
  digits : 1 ≤ x.w ∧ x.count < 10 ^ x.w

/-- The instant, in microseconds since 1970. -/
def Sample.instant (x : Sample) : ℤ := utcInstant x.y x.m x.d x.h x.mi x.s ((x.f * 10 ^ (6 - x.k) : ℕ) : ℤ)

/-- What follows a field: nothing, or a separator and anything. -/
def Rest (sep : Char) (rest : Str) : Prop := rest = [] ∨ ∃ r, rest = sep :: r

/-- `F` consists of the rows of the tables `ts`, one table after the other, and has all their columns: those of the first
table first, and no others if all tables have the same. -/
structure IsConcat (ts : List Table) (F : Table) : Prop where
  rows : F.rows = (ts.map Table.rows).flatten
  cols : ∀ c, c ∈ F.cols ↔ ∃ t ∈ ts, c ∈ t.cols
  first : ∀ t, ts.head? = some t → t.cols <+: F.cols
  same : ts ≠ [] → ∀ cs, (∀ t ∈ ts, t.cols = cs) → F.cols = cs

/-- The same columns with the same contents. -/
structure SameTable (F G : Table) : Prop where
  cols : ∀ c, c ∈ F.cols ↔ c ∈ G.cols
  vals : ∀ c ∈ F.cols, F.col c = G.col c

/-- The step from sample `i` to sample `i + 1` exceeds `thresh`. -/
def StepAt (thresh : ℚ) (x : List ℚ) (i : ℕ) : Prop := ∃ a b, x[i]? = some a ∧ x[i + 1]? = some b ∧ thresh < |b - a|

/-- The rows at the given positions. -/
def rowsAt {α : Type} (rows : List α) (idx : List ℕ) : List α := idx.filterMap (fun i => rows[i]?)

/-- The positions `0, …, n - 1` outside `P`. -/
def others (n : ℕ) (P : List ℕ) : List ℕ := (List.range n).filter (fun i => i ∉ P)

/-- `P` lists in increasing order the positions of isolated one-sample spikes in `x`: inner positions, no two adjacent, with
a step above `thresh` before and after each, and all other steps at most `thresh`. -/
structure IsolatedSpikes (thresh : ℚ) (x : List ℚ) (P : List ℕ) : Prop where
  sorted : P.Pairwise (· < ·)
  inner : ∀ p ∈ P, 1 ≤ p
  apart : ∀ p ∈ P, p + 1 ∉ P
  jumps : ∀ i, StepAt thresh x i ↔ (i ∈ P ∨ i + 1 ∈ P)

/-- An Atlantis record: `pre date time name chan:count` and possibly more after a blank. -/
def atlantisRecord (pre name chan rest : Str) (x : Sample) : Str :=
  pre ++ ' ' :: (slashYmd x.y x.m x.d ++ ' ' :: (clockStamp x.h x.mi x.s x.k x.f ++ ' ' ::
    (name ++ ' ' :: (chan ++ ':' :: (zpad x.w x.count ++ rest)))))

/-- A Thompson record: `date,time,chan:count` and possibly more after a blank. -/
def thompsonRecord (chan rest : Str) (x : Sample) : Str :=
  slashMdy x.y x.m x.d ++ ',' :: (clockStamp x.h x.mi x.s x.k x.f ++ ',' :: (chan ++ ':' :: (zpad x.w x.count ++ rest)))

/-- A Revelle record: `stamp chan:count` and possibly more after a blank. -/
def revelleRecord (chan rest : Str) (x : Sample) : Str :=
  isoStamp x.y x.m x.d x.h x.mi x.s x.k x.f ++ ' ' :: (chan ++ ':' :: (zpad x.w x.count ++ rest))

/-- A Langseth record: `tag`, tab, stamp, tab, `chan:count` and possibly more after a blank. -/
def langsethRecord (tag chan rest : Str) (x : Sample) : Str :=
  tag ++ '\t' :: (julianStamp x.y (dayOfYear x.y x.m x.d) x.h x.mi x.s x.k x.f ++ '\t' ::
    (chan ++ ':' :: (zpad x.w x.count ++ rest)))

/-- The scale factors in the table of known BGM meters. -/
inductive DatabaseScale : Str → ℚ → Prop
  | atlantis : DatabaseScale "Atlantis".toList 4.994070552
  | thompson : DatabaseScale "Thompson".toList 5.003353363
  | revelle : DatabaseScale "Revelle".toList 4.99980755
  | langseth : DatabaseScale "Langseth".toList 5.0

/-- The scale factor in force: the one the caller gives, else the known one. -/
def ScaleInForce (given : Option ℚ) (ship : Str) (sc : ℚ) : Prop :=
  given = some sc ∨ given = none ∧ DatabaseScale ship sc

/-- What a table says about a file of measurements: one row per measurement with count, instant and scaled count. -/
structure IsGravity {ι : Type} (sc : ℚ) (xs : List ι) (x : ι → Sample) (F : Table) : Prop where
  counts : F.col "counts".toList = xs.map fun i => .num (x i).count
  times : F.col "date_time".toList = xs.map fun i => .time (x i).instant
  gravity : F.col "rgrav".toList = xs.map fun i => .num (sc * (x i).count)
  cols : ∀ c, c ∈ F.cols ↔ c ∈ ["counts".toList, "date_time".toList, "rgrav".toList]

/-- An RGS record: blank-separated fields, of which 1 and 2 are date and time, and 3, 11 and 12 are gravity, latitude and
longitude. -/
structure RgsFields where
  tag : Str
  grav : Str
  f4 : Str
  f5 : Str
  f6 : Str
  f7 : Str
  f8 : Str
  f9 : Str
  f10 : Str
  lat : Str
  lon : Str
  rest : Str

def joinBlank : List Str → Str → Str
  | [], rest => rest
  | [a], rest => a ++ rest
  | a :: t, rest => a ++ ' ' :: joinBlank t rest

def rgsRecord (r : RgsFields) (x : Sample) : Str :=
  joinBlank [r.tag, slashYmd x.y x.m x.d, clockStamp x.h x.mi x.s x.k x.f, r.grav, r.f4, r.f5, r.f6, r.f7, r.f8, r.f9, r.f10,
    r.lat, r.lon] r.rest

/-- No field contains a blank. -/
structure RgsFields.Valid (r : RgsFields) : Prop where
  noBlank : ∀ f ∈ [r.tag, r.grav, r.f4, r.f5, r.f6, r.f7, r.f8, r.f9, r.f10, r.lat, r.lon], ' ' ∉ f
  rest : Rest ' ' r.rest

end Shipgrav.Spec
