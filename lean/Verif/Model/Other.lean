import Verif.Py.Pandas

/-! Model of `read_other_stuff`, `/repo/shipgrav/io.py` lines 784–864.

The parsed yaml file enters as its two dictionaries `format` and `fields` below the top-level key; the data file is its (ASCII)
text.  Repeated column names are outside the model (the first one wins here). -/

namespace Shipgrav

/-- The lines that successive calls of `readline()` return, without their line ends.  Lines 826, 830. -/
def readLines (s : Str) : List Str :=
  let l := splitC '\n' s
  if l.getLast? = some [] then l.dropLast else l

/-- Lines 826–830: `ln` is the line read last, `rest` what is still to be read (`s.tell() < s.size()` iff there is more). -/
def tagLoop (tag : Str) (ln : Str) : (rest : List Str) → (lines : List Str) → List Str
  | [], lines => lines
  | next :: rest, lines => tagLoop tag (rstrip next) rest (if hasSub tag ln then lines ++ [ln] else lines)

/-- Lines 822–830. -/
def tagLines (tag data : Str) : List Str :=
  match readLines data with
  | [] => []
  | first :: rest => tagLoop tag (rstrip first) rest []

/-- Lines 834–837 for one line: the text before the tag and the fields after it. -/
def tagFields (dtag ln : Str) : Except PyErr (Str × List Str) := do
  let parts := splitS dtag ln
  let after ← pyGet parts 1
  let before ← pyGet parts 0
  return (before, splitC ',' (stripChars [','] after))

/-- Line 842. -/
def otherCols (fmt : Str) : List Str := (splitC ',' (fmt.filter fun c => c ≠ '{' ∧ c ≠ '}')).drop 1

/-- `pd.to_numeric(x)` on one text, or the text itself if that raises (lines 855–862); `None` and the empty text give NaN. -/
def numericOr : Option Str → Val
  | none => .nan
  | some s =>
    if s = [] then .nan
    else if '_' ∈ s then .text s
    else match parseFloat s with
      | some (.fin q) => .num q
      | some _ => .nan
      | none => .text s

/-- Line 843: `pd.DataFrame(named_fields, columns=colnames)` pads short rows with `None`; the longest must have as many fields as
there are names. -/
def frameOf (names : List Str) (rows : List (List Str)) : Except PyErr Table :=
  if rows ≠ [] ∧ (rows.map List.length).foldl max 0 ≠ names.length then .error .valueError
  else .ok (Table.ofCols rows.length (names.zipIdx.map fun c => (c.1, rows.map fun r => numericOr r[c.2]?)))

/-- Lines 848–853. -/
def colInfo {I : Type} (fields : List (Str × I)) (names : List Str) : List (Str × I) :=
  names.filterMap fun c => match (splitC ':' c)[0]? with
    | some k => (fields.lookup k).map fun v => (c, v)
    | none => none

/-- `read_other_stuff`, lines 784–864. -/
def readOther {I : Type} (format : List (Str × Str)) (fields : List (Str × I)) (data tag0 : Str) :
    Except PyErr (Table × List (Str × I)) := do
  let tag := if startsWith ['$'] tag0 then tag0.drop 1 else tag0
  let dtag := '$' :: tag
  match format.lookup tag with
  | none => .error .assertionError
  | some fmt =>
    if data = [] then .error .valueError
    if hasSub tag data then
      let recs ← (tagLines tag data).mapM (tagFields dtag)
      let names := otherCols fmt
      let df ← frameOf names (recs.map Prod.snd)
      return (df.set "mystery".toList (recs.map fun r => numericOr (some r.1)), colInfo fields names)
    else .error .assertionError

/-- An example file for the non-vacuity of the theorems; it stands for the text read in lines 826–830. -/
private def exData : Str := "10 $PASHR,1,x,\njunk\n $PASHR,,2,b\nlast $PASHR,1,2,3\n".toList

example : tagLines "PASHR".toList exData = ["10 $PASHR,1,x,".toList, " $PASHR,,2,b".toList] := by decide +kernel
example : (tagLines "PASHR".toList exData).mapM (tagFields "$PASHR".toList)
    = .ok [("10 ".toList, ["1".toList, "x".toList]), (" ".toList, ["2".toList, "b".toList])] := by decide +kernel
example : otherCols "$PASHR,{a},{b:f},{c}".toList = ["a".toList, "b:f".toList, "c".toList] := by decide +kernel

end Shipgrav
