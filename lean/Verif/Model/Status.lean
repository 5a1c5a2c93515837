import Verif.Py.Core
import Mathlib.Data.Nat.Digits.Defs

/-! Model of `decode_dgs_status_bits`, `/repo/shipgrav/utils.py` lines 74–105. -/

namespace Shipgrav

/-- Lines 90–91. -/
def flags : List Str :=
  ["clamp status".toList, "GPSsync".toList, "reserved".toList, "feedback".toList, "R1".toList, "R2".toList,
   "ADlock".toList, "ack host".toList, "NavMod1".toList, "NavMod2".toList, "dgs1_trouble".toList,
   "dgs2_trouble".toList, "GPStime".toList, "ADsat".toList, "nemo1".toList, "nemo2".toList]

/-- Python's binary digits of a natural number, most significant first (`"0"` for zero).  Lines 96, 102. -/
def binDigits (n : ℕ) : Str :=
  if n = 0 then ['0'] else ((Nat.digits 2 n).map (fun d => if d = 1 then '1' else '0')).reverse

/-- Left-pad with zeros to width `w`.  Lines 96, 102. -/
def zfill (w : ℕ) (s : Str) : Str := List.replicate (w - s.length) '0' ++ s

/-- `format(stat, '016b')` (lines 96, 102): sign-aware zero padding to a minimal width of 16. -/
def format016b (stat : ℤ) : Str :=
  match stat with
  | Int.ofNat n => zfill 16 (binDigits n)
  | Int.negSucc n => '-' :: zfill 15 (binDigits (n + 1))

/-- Lines 98–99: `for i, f in enumerate(flags): out[f] = bt[i]`; the dict is its list of items in insertion order
(the sixteen keys are distinct). -/
def pickBits (bt : Str) : ℕ → List Str → Except PyErr (List (Str × Char))
  | _, [] => .ok []
  | i, f :: fs => do
    let c ← pyGet bt i
    let rest ← pickBits bt (i + 1) fs
    return (f, c) :: rest

/-- `decode_dgs_status_bits(stat)` for an `int` argument, lines 95–100. -/
def decodeInt (stat : ℤ) : Except PyErr (List (Str × Char)) := pickBits (format016b stat) 0 flags

/-- A cell of a DataFrame: an integer, a one-character string, or anything else (tagged).  Lines 101–104. -/
inductive Cell
  | int (z : ℤ)
  | chr (c : Char)
  | other (tag : ℕ)
  deriving DecidableEq, Repr

/-- A column: its name and its cells.  Lines 101–104. -/
structure Col where
  name : Str
  cells : List Cell
  deriving DecidableEq, Repr

/-- A DataFrame: its columns, left to right. Row labels play no role here.  Lines 101–104. -/
abbrev Frame := List Col

/-- `stat[key]` : the column of that name (`KeyError` if there is none).  Lines 101–104. -/
def getCol (df : Frame) (key : Str) : Except PyErr Col :=
  match df.find? (fun c => c.name == key) with
  | some c => .ok c
  | none => .error .keyError

/-- `format(s, '016b')` of one cell; anything but an integer raises `ValueError`.  Lines 96, 102. -/
def formatCell : Cell → Except PyErr Str
  | .int z => .ok (format016b z)
  | _ => .error .valueError

/-- `df.insert(loc, name, cells)`: in place; `ValueError` if the name exists; `IndexError` if `loc` is out of bounds.  Line 104. -/
def insertCol (df : Frame) (loc : ℕ) (name : Str) (cells : List Cell) : Except PyErr Frame :=
  if df.any (fun c => c.name == name) then .error .valueError
  else if df.length < loc then .error .indexError
  else .ok (df.insertIdx loc ⟨name, cells⟩)

/-- Lines 103–104. State: the caller's frame. Result: the frame as left in memory, and the exception if any. -/
def insertFlags (bts : List Str) : ℕ → List Str → Frame → Frame × Option PyErr
  | _, [], df => (df, none)
  | i, f :: fs, df =>
    match bts.mapM (fun b => pyGet b i) with
    | .error e => (df, some e)
    | .ok cs =>
      match insertCol df (i + 1) f (cs.map Cell.chr) with
      | .error e => (df, some e)
      | .ok df' => insertFlags bts (i + 1) fs df'

/-- What `decode_dgs_status_bits(stat, key)` does to a DataFrame `stat`, lines 101–105: the caller's frame afterwards and
the exception, if any. When there is none the *same* frame object is returned. -/
def decodeFrame (df : Frame) (key : Str) : Frame × Option PyErr :=
  match getCol df key with
  | .error e => (df, some e)
  | .ok col =>
    match col.cells.mapM formatCell with
    | .error e => (df, some e)
    | .ok bts => insertFlags bts 0 flags df

/-- The argument of `decode_dgs_status_bits`; lines 93–94 assert that `type(stat)` is exactly `int` or `DataFrame`
(so `bool`, `numpy.int64`, … are rejected). -/
inductive StatArg
  | int (z : ℤ)
  | frame (df : Frame)
  | otherType

/-- The return value.  Lines 100, 105. -/
inductive StatOut
  | dict (d : List (Str × Char))
  | frame (df : Frame)
  deriving DecidableEq

/-- `decode_dgs_status_bits(stat, key)`, lines 74–105. -/
def decodeStatus (stat : StatArg) (key : Str) : Except PyErr StatOut :=
  match stat with
  | .otherType => .error .assertionError
  | .int z => (decodeInt z).map StatOut.dict
  | .frame df =>
    match decodeFrame df key with
    | (df', none) => .ok (.frame df')
    | (_, some e) => .error e

end Shipgrav
