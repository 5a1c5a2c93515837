import Verif.Model.Dgs
import Verif.Spec.Toml

/-! Serial files and the configuration of the meter. -/

namespace Shipgrav.Spec

/-- A record of the gravimeter: it has the tag and 18 commas, i.e. 19 fields. -/
def Kept (l : Str) : Prop := "AT1M".toList <:+: l ∧ l.count ',' = 18

instance (l : Str) : Decidable (Kept l) := by unfold Kept; infer_instance

/-- The text with these lines, and with `tail` after the last line feed. -/
def serialText (lines : List Str) (tail : Str) : Str := (lines.map (· ++ ['\n'])).flatten ++ tail

/-- What is left of a text: its records, as they are. -/
def recordsOf (lines : List Str) (tail : Str) : Str :=
  serialText (lines.filter fun l => decide (Kept l)) (if Kept tail then tail else [])

/-- `x` is the path of the cleaned file for `p`: the same directory, the name with `clean_` before it. -/
def CleanPath (p x : Str) : Prop :=
  ∃ dir name, (dir = [] ∨ dir.getLast? = some '/') ∧ '/' ∉ name ∧ p = dir ++ name ∧ x = dir ++ ("clean_".toList ++ name)

/-- `doc` gives `key` the value `v` in the table `table`. -/
def ConfHas (doc : List ConfStmt) (table key : Str) (v : ConfVal) : Prop :=
  ∃ pre body post, doc = pre ++ (.table table :: (body ++ post)) ∧ .table table ∉ pre ∧ (∀ s ∈ body, ∃ k w, s = .pair k w) ∧
    .pair key v ∈ body ∧ ∀ w, .pair key w ∈ body → w = v

/-- The table occurs once and does not have the key. -/
def ConfLacks (doc : List ConfStmt) (table key : Str) : Prop :=
  .table table ∉ doc ∨ ∃ pre body post, doc = pre ++ (.table table :: (body ++ post)) ∧ .table table ∉ pre ∧
    (∀ s ∈ body, ∃ k w, s = .pair k w ∧ k ≠ key) ∧ (post = [] ∨ ∃ t rest, post = .table t :: rest)

/-- The channels of a serial file: column, calibrated column, keys of gain and offset, number of counts that the gain is for. -/
structure Channel where
  raw : Str
  cal : Str
  gain : Str
  offset : Str
  counts : ℚ

/-- Four channels with 24 bits, three with 10 bits. -/
def channels : List Channel :=
  [⟨"Gravity".toList, "grav_cal".toList, "GravCal".toList, "g0".toList, 2 ^ 23 - 1⟩,
   ⟨"Long".toList, "long_cal".toList, "LongCal".toList, "LongOffset".toList, 2 ^ 23 - 1⟩,
   ⟨"Cross".toList, "cross_cal".toList, "CrossCal".toList, "CrossOffset".toList, 2 ^ 23 - 1⟩,
   ⟨"Beam".toList, "beam_cal".toList, "beamgain".toList, "beamzero".toList, 2 ^ 23 - 1⟩,
   ⟨"Temp".toList, "temp_cal".toList, "stempgain".toList, "stempoffset".toList, 1⟩,
   ⟨"Pressure".toList, "pressure_cal".toList, "pressgain".toList, "presszero".toList, 1⟩,
   ⟨"ElecTemp".toList, "electemp_cal".toList, "Etempgain".toList, "Etempzero".toList, 1⟩]

/-- A function of the number; NaN stays NaN. -/
def onNum (f : ℚ → ℚ) : Val → Val
  | .num q => .num (f q)
  | v => v

end Shipgrav.Spec
