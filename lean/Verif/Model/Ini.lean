import Verif.Py.Num

/-! Model of `clean_ini_to_toml`, `/repo/shipgrav/utils.py` lines 108–175.  The file content is the text after
universal-newline translation. -/

namespace Shipgrav

/-- Lines 124–134: the textual substitutions, in order.  `re.sub('$', '', text)` (line 134) replaces empty matches by
nothing and is the identity. -/
def iniSubst (text : Str) : Str :=
  let text := replaceS "//".toList "#".toList text
  let text := replaceS "\t".toList "  ".toList text
  let text := replaceS "TRUE".toList "true".toList text
  replaceS "FALSE".toList "false".toList text

/-- Line 137: `ini_file.rstrip('ini')+'toml'`. -/
def iniOutPath (iniFile : Str) : Str := rstripChars "ini".toList iniFile ++ "toml".toList

/-- Lines 150–153: cut a trailing comment off the value.  `extra_comm` (second component) is computed from the already
shortened `val`. -/
def iniSplitComment (val : Str) : Except PyErr (Str × Str) :=
  if val.contains '#' then do
    let val ← pyGet (splitC '#' val) 0
    return (val, joinC '=' ((splitC '#' val).drop 1))
  else return (val, [])

/-- Lines 156–171, with `val` the stripped value of line `ln`. -/
def iniRequote (ln val extraComm : Str) : Except PyErr Str :=
  if val == "true".toList || val == "false".toList then .ok ln
  else if startsWith "\"".toList val then .ok ln
  else match parseFloat val with
    | some _ => .ok ln
    | none => do
      let val := "\"".toList ++ val ++ "\"".toList
      let k ← pyGet (splitC '=' ln) 0
      let ln := k ++ "= ".toList ++ val
      if extraComm ≠ [] then return ln ++ "   #".toList ++ extraComm else return ln

/-- The body of the loop, lines 140–171: the text written for line `ln` (without its newline), or `IndexError` from
`ln.split('=')[1]`. -/
def iniLine (ln : Str) : Except PyErr Str :=
  -- lines 141–142
  let ln := if startsWith "$".toList ln then ln.filter (· ≠ '$') else ln
  -- lines 144–147
  if startsWith "[".toList ln || startsWith "#".toList ln || ln == [] then .ok ln
  else do
    -- line 149
    let val ← pyGet (splitC '=' ln) 1
    let p ← iniSplitComment val
    -- line 154
    iniRequote ln (strip p.1) p.2

/-- The loop over lines: what has been written to the output file, and the exception that stopped it, if any.  Lines 140–172. -/
def iniLoop : List Str → Str × Option PyErr
  | [] => ([], none)
  | ln :: rest =>
    match iniLine ln with
    | .error e => ([], some e)
    | .ok out =>
      let (w, e) := iniLoop rest
      (out ++ '\n' :: w, e)

/-- Content of the output file after `clean_ini_to_toml` ran on a file with content `text`, and the exception, if any.  Lines 121–175. -/
def cleanIni (text : Str) : Str × Option PyErr := iniLoop (splitC '\n' (iniSubst text))

end Shipgrav
