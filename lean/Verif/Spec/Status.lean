import Verif.Py.Core
import Mathlib.Data.Nat.Bitwise

/-! Vocabulary for the DGS status word: which bit each flag name stands for. -/

namespace Shipgrav.Spec

/-- The sixteen documented flag names, most significant bit first. -/
def flagNames : List Str :=
  ["clamp status".toList, "GPSsync".toList, "reserved".toList, "feedback".toList, "R1".toList, "R2".toList,
   "ADlock".toList, "ack host".toList, "NavMod1".toList, "NavMod2".toList, "dgs1_trouble".toList,
   "dgs2_trouble".toList, "GPStime".toList, "ADsat".toList, "nemo1".toList, "nemo2".toList]

/-- `'1'` or `'0'` according to bit `b` of `n`. -/
def bitChar (n b : ℕ) : Char := if n.testBit b then '1' else '0'

end Shipgrav.Spec
