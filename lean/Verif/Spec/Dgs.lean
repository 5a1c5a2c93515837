import Verif.Spec.Bgm
import Verif.Spec.Decimal

/-! Records of DGS gravimeters. -/

namespace Shipgrav.Spec

/-- The text `s` writes the number `q`, possibly with blanks around it. -/
def NumText (s : Str) (q : ℚ) : Prop :=
  ∃ a b t, s = List.replicate a ' ' ++ (t ++ List.replicate b ' ') ∧ DecText t q

/-- The text `s` is a whole number, possibly with blanks around it. -/
def WholeText (s : Str) : Prop :=
  ∃ a b w n, s = List.replicate a ' ' ++ (zpad w n ++ List.replicate b ' ') ∧ 1 ≤ w

/-- The columns of a laptop file that are kept, with their position in the record. -/
def laptopColumns : List (Str × ℕ) :=
  [("rgrav".toList, 1), ("long_a".toList, 2), ("crss_a".toList, 3), ("status".toList, 6), ("ve".toList, 10), ("vcc".toList, 11),
   ("al".toList, 12), ("ax".toList, 13), ("lat".toList, 14), ("lon".toList, 15), ("year".toList, 19), ("month".toList, 20),
   ("day".toList, 21), ("hour".toList, 22), ("minute".toList, 23), ("second".toList, 24)]

/-- The columns of a Thompson laptop file that are kept, with their position in the record. -/
def thompsonLaptopColumns : List (Str × ℕ) :=
  [("rgrav".toList, 3), ("ve".toList, 12), ("vcc".toList, 13), ("al".toList, 14), ("ax".toList, 15), ("lat".toList, 16),
   ("lon".toList, 17)]

/-- The numbers at positions 19 to 24 of a laptop record are the date and time of the measurement. -/
def PartsAre (q : ℕ → ℚ) (x : Sample) : Prop :=
  q 19 = x.y ∧ q 20 = x.m ∧ q 21 = x.d ∧ q 22 = x.h ∧ q 23 = x.mi ∧ q 24 = x.s + x.f / 10 ^ x.k

/-- What a line of a Langseth laptop file holds after leading blanks and an optional prefix `dgsdata… <word> `. -/
inductive Payload : Str → Str → Prop
  | plain (w s : Str) (hw : ∀ c ∈ w, isSpace c = true) (hs : ∀ c, s.head? = some c → isSpace c = false)
      (hp : ¬ "dgsdata".toList <+: s) : Payload (w ++ s) s
  | prefixed (w a u b v p : Str) (hw : ∀ c ∈ w, isSpace c = true) (ha : "dgsdata".toList <+: a)
      (ha' : ∀ c ∈ a, isSpace c = false) (hu : u ≠ []) (hu' : ∀ c ∈ u, isSpace c = true) (hb : b ≠ [])
      (hb' : ∀ c ∈ b, isSpace c = false) (hv : v ≠ []) (hv' : ∀ c ∈ v, isSpace c = true) (hp : p ≠ [])
      (hp' : ∀ c, p.head? = some c → isSpace c = false) : Payload (w ++ (a ++ (u ++ (b ++ (v ++ p))))) p

/-- `kept` lists, in file order, the comma-separated fields of the lines that hold 26 of them. -/
inductive KeptFields : List Str → List (List Str) → Prop
  | nil : KeptFields [] []
  | keep (line : Str) (fs : List Str) (lines : List Str) (kept : List (List Str)) (hp : Payload line (joinC ',' fs))
      (hc : ∀ f ∈ fs, ',' ∉ f) (hl : fs.length = 26) (h : KeptFields lines kept) : KeptFields (line :: lines) (fs :: kept)
  | skip (line : Str) (lines : List Str) (kept : List (List Str))
      (hn : ∀ fs : List Str, (∀ f ∈ fs, ',' ∉ f) → fs.length = 26 → ¬ Payload line (joinC ',' fs)) (h : KeptFields lines kept) :
      KeptFields (line :: lines) kept

/-- The columns of a raw file. -/
def rawColumns : List (Str × ℕ) :=
  [("string".toList, 0), ("Gravity".toList, 1), ("Long".toList, 2), ("Cross".toList, 3), ("Beam".toList, 4), ("Temp".toList, 5),
   ("Pressure".toList, 6), ("ElecTemp".toList, 7), ("vcc".toList, 8), ("ve".toList, 9), ("al".toList, 10), ("ax".toList, 11),
   ("status".toList, 12), ("checksum".toList, 13), ("latitude".toList, 14), ("longitude".toList, 15), ("speed".toList, 16),
   ("course".toList, 17), ("timestamp".toList, 18)]

/-- The comma-separated record `fs` of a raw file: 19 fields or more, the first of which has a dollar sign or a colon, the other
ones being numbers. -/
structure RawRecord (fs : List Str) (q : ℕ → ℚ) : Prop where
  length : 19 ≤ fs.length
  fields : ∀ f ∈ fs, ',' ∉ f
  string : '$' ∈ fs.getD 0 [] ∨ ':' ∈ fs.getD 0 []
  numbers : ∀ s ∈ rawColumns, 1 ≤ s.2 → NumText (fs.getD s.2 []) (q s.2)

/-- The 19 columns of `F` are those of the records, in order. -/
structure RawTable {ι : Type} (xs : List ι) (fs : ι → List Str) (q : ι → ℕ → ℚ) (F : Table) : Prop where
  strings : F.col "string".toList = xs.map fun i => .text ((fs i).getD 0 [])
  numbers : ∀ s ∈ rawColumns, 1 ≤ s.2 → F.col s.1 = xs.map fun i => .num (q i s.2)

/-- The four cross-coupling monitors. -/
def monitors : List Str := ["ve", "vcc", "al", "ax"].map String.toList

/-- A number times 1e-5; NaN stays. -/
def times1em5 : Val → Val
  | .num q => .num (q / 100000)
  | v => v

/-- A number or NaN. -/
def Numeric (v : Val) : Prop := v = .nan ∨ ∃ q, v = .num q

/-- A character that occurs in no number. -/
def foreign (c : Char) : Bool :=
  !isDigit c && !isSpace c && c ∉ ['.', '_', '+', '-', 'e', 'E'] && lowerC c ∉ "infinityna".toList

/-- What becomes of a text in a column that has to be one of numbers: the number if it is one, and NaN if it has a character that occurs in no
number; in any case a number or NaN. -/
structure Coerced (s : Str) (v : Val) : Prop where
  number : ∀ q, NumText s q → v = .num q
  other : (∃ c ∈ s, foreign c = true) → v = .nan
  numeric : Numeric v

/-- A row with the four monitors multiplied by 1e-5. -/
def scaledRow (r : Str → Val) : Str → Val := fun c => if c ∈ monitors then times1em5 (r c) else r c

/-- The columns of a Thompson raw file after date, time and string. -/
def thompsonRawColumns : List (Str × ℕ) :=
  [("Gravity".toList, 3), ("Long".toList, 4), ("Cross".toList, 5), ("Beam".toList, 6), ("Temp".toList, 7),
   ("Pressure".toList, 8), ("ElecTemp".toList, 9), ("vcc".toList, 10), ("ve".toList, 11), ("al".toList, 12), ("ax".toList, 13),
   ("status".toList, 14), ("checksum".toList, 15), ("latitude".toList, 16), ("longitude".toList, 17), ("speed".toList, 18),
   ("course".toList, 19)]

/-- The first decimal digit of `n` is 1. -/
def LeadsWithOne (n : ℕ) : Prop := ∃ k : ℕ, 10 ^ k ≤ n ∧ n < 2 * 10 ^ k

/-- The number `yyyymmddhhmmss`. -/
def stampNumber (x : Sample) : ℕ := ((((x.y * 100 + x.m) * 100 + x.d) * 100 + x.h) * 100 + x.mi) * 100 + x.s

/-- A digit, a point or a minus sign. -/
def NumChar (c : Char) : Prop := isDigit c = true ∨ c = '-' ∨ c = '.'

/-- `raw` is an AT1M sentence whose nine gravity-related fields are the texts `g`.  The last one may be followed by anything
that does not prolong it. -/
def At1m (raw : Str) (g : List Str) : Prop :=
  ∃ v f4 f5 f6 f7 f12 f13 tail g0 g1 g2 g3 g4 g5 g6 g7 g8, g = [g0, g1, g2, g3, g4, g5, g6, g7, g8] ∧
    raw = joinC ',' ["$AT1M_".toList ++ v, g0, g1, g2, f4, f5, f6, f7, g3, g4, g5, g6, f12, f13, g7, g8 ++ tail] ∧
    (∀ f ∈ [v, f4, f5, f6, f7, f12, f13], ',' ∉ f) ∧ (∀ t ∈ g, t ≠ [] ∧ ∀ c ∈ t, NumChar c) ∧
    (∀ c, tail.head? = some c → ¬ NumChar c)

/-- The columns extracted from such sentences, in the order of the nine texts. -/
def sikuliaqColumns : List (Str × ℕ) :=
  [("rgrav".toList, 0), ("long_a".toList, 1), ("crss_a".toList, 2), ("vcc".toList, 3), ("ve".toList, 4), ("al".toList, 5),
   ("ax".toList, 6), ("lat".toList, 7), ("lon".toList, 8)]

end Shipgrav.Spec
