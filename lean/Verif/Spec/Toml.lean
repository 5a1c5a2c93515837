import Verif.Py.Num
import Mathlib.Algebra.Order.Field.Rat
import Mathlib.Algebra.Order.GroupWithZero.Unbundled.Basic

/-! A reader for the part of TOML (version 1.0) that configuration files of gravimeters need — blank lines, comments, `[table]` headers and
`key = value` lines with bare keys and booleans, decimal numbers or strings without escapes — and ini files as lists of entries. -/

namespace Shipgrav.Spec

/-- A value in a configuration file. -/
inductive ConfVal
  | bool (b : Bool)
  | num (q : ℚ)
  | str (s : Str)
  deriving DecidableEq

/-- What a line of a configuration file says. -/
inductive ConfStmt
  | table (name : Str)
  | pair (key : Str) (v : ConfVal)
  deriving DecidableEq

/-! ### TOML -/

/-- Blank or tab. -/
def isBlank (c : Char) : Bool := c == ' ' || c == '\t'

/-- Control characters other than tab: not allowed anywhere in a line. -/
def isControl (c : Char) : Bool := (c.toNat < 32 && c != '\t') || c.toNat == 127

/-- Characters of bare keys. -/
def isBareChar (c : Char) : Bool := ('a' ≤ c && c ≤ 'z') || ('A' ≤ c && c ≤ 'Z') || isDigit c || c == '_' || c == '-'

/-- A bare key. -/
def isBareKey (s : Str) : Bool := s != [] && s.all isBareChar

/-- Without blanks around. -/
def trimBlanks (s : Str) : Str := ((s.dropWhile isBlank).reverse.dropWhile isBlank).reverse

/-- Nothing but blanks, or a comment: what may follow a header or a value. -/
def isTomlEnd (s : Str) : Bool := match s.dropWhile isBlank with
  | [] => true
  | c :: _ => c == '#'

/-- The exponent of a number. -/
def tomlExp : Str → Option ℤ
  | [] => some 0
  | c :: t =>
    if c = 'e' ∨ c = 'E' then
      let (neg, r) := takeSign t
      if r ≠ [] ∧ r.all isDigit then some (if neg then -(runVal r : ℤ) else runVal r) else none
    else none

/-- A decimal number: no leading zeros, and a point has digits on both sides. -/
def tomlNumber (s : Str) : Option ℚ :=
  let (neg, t) := takeSign s
  let ip := t.takeWhile isDigit
  if ip = [] ∨ (ip.head? = some '0' ∧ ip ≠ ['0']) then none
  else
    let signed := fun q : ℚ => if neg then -q else q
    match t.dropWhile isDigit with
    | '.' :: r =>
      let fp := r.takeWhile isDigit
      if fp = [] then none
      else (tomlExp (r.dropWhile isDigit)).map fun e => signed (((runVal ip : ℚ) + (runVal fp : ℚ) / 10 ^ fp.length) * 10 ^ e)
    | r => (tomlExp r).map fun e => signed ((runVal ip : ℚ) * 10 ^ e)

/-- A value and what follows it on the line. -/
def tomlValue (s : Str) : Option ConfVal := match s with
  | '"' :: r =>
    let body := r.takeWhile (· ≠ '"')
    match r.dropWhile (· ≠ '"') with
    | [] => none
    | _ :: rest => if body.contains '\\' || !isTomlEnd rest then none else some (.str body)
  | s =>
    let word := s.takeWhile fun c => !isBlank c && c != '#'
    if !isTomlEnd (s.dropWhile fun c => !isBlank c && c != '#') then none
    else if word = "true".toList then some (.bool true)
    else if word = "false".toList then some (.bool false)
    else (tomlNumber word).map .num

/-- One line: `none` if it cannot be read, `some none` if it says nothing. -/
def tomlLine (l : Str) : Option (Option ConfStmt) :=
  if l.any isControl then none
  else match l.dropWhile isBlank with
    | [] => some none
    | '#' :: _ => some none
    | '[' :: r =>
      let name := trimBlanks (r.takeWhile (· ≠ ']'))
      match r.dropWhile (· ≠ ']') with
      | [] => none
      | _ :: rest => if isBareKey name && isTomlEnd rest then some (some (.table name)) else none
    | s =>
      let key := trimBlanks (s.takeWhile (· ≠ '='))
      match s.dropWhile (· ≠ '=') with
      | [] => none
      | _ :: rest => if isBareKey key then (tomlValue (rest.dropWhile isBlank)).map fun v => some (.pair key v) else none

/-- The names a document defines: tables, and keys with the table they are in. -/
def confPaths : (current : List Str) → List ConfStmt → List (List Str)
  | _, [] => []
  | _, .table t :: rest => [t] :: confPaths [t] rest
  | cur, .pair k _ :: rest => (cur ++ [k]) :: confPaths cur rest

/-- A document: all lines can be read and no name is defined twice. -/
def tomlDoc (text : Str) : Option (List ConfStmt) :=
  match (splitC '\n' text).mapM tomlLine with
  | none => none
  | some ls => if (confPaths [] (ls.filterMap id)).Nodup then some (ls.filterMap id) else none

/-! ### Ini files -/

/-- A value as written in an ini file. -/
inductive IniVal
  | number (s : Str)
  | bool (upper b : Bool)
  | quoted (s : Str)
  | text (s : Str)

/-- A comment: after `//` or after `#`. -/
structure IniComment where
  slashes : Bool
  text : Str

/-- A line of an ini file.  `p1`, `p2`, `p3` are blanks and tabs before the `=`, after it and after the value. -/
inductive IniEntry
  | blank
  | comment (c : IniComment)
  | section (name : Str) (p3 : Str) (c : Option IniComment)
  | pair (key p1 p2 : Str) (v : IniVal) (p3 : Str) (c : Option IniComment)

/-- The text of a value. -/
def IniVal.line : IniVal → Str
  | .number s => s
  | .bool upper b => if upper then (if b then "TRUE".toList else "FALSE".toList) else (if b then "true".toList else "false".toList)
  | .quoted s => '"' :: s ++ ['"']
  | .text s => s

/-- What a value means. -/
def IniVal.meaning : IniVal → ConfVal
  | .number s => .num (match parseFloat s with | some (.fin q) => q | _ => 0)
  | .bool _ b => .bool b
  | .quoted s => .str s
  | .text s => .str s

/-- The text of a comment. -/
def IniComment.line (c : IniComment) : Str := (if c.slashes then "//".toList else "#".toList) ++ c.text

def commentLine (c : Option IniComment) : Str := match c with
  | none => []
  | some c => c.line

/-- The text of a line. -/
def IniEntry.line : IniEntry → Str
  | .blank => []
  | .comment c => c.line
  | .section name p3 c => '[' :: name ++ ']' :: p3 ++ commentLine c
  | .pair key p1 p2 v p3 c => key ++ p1 ++ '=' :: p2 ++ v.line ++ p3 ++ commentLine c

/-- What a line says. -/
def IniEntry.meaning : IniEntry → Option ConfStmt
  | .blank => none
  | .comment _ => none
  | .section name _ _ => some (.table name)
  | .pair key _ _ v _ _ => some (.pair key v.meaning)

/-- No control characters, and no line ends. -/
def Printable (s : Str) : Prop := ∀ c ∈ s, isControl c = false

/-- Values as users write them: a number is anything Python reads as one, an unquoted text is anything else without comment marks. -/
def IniVal.Proper : IniVal → Prop
  | .number s => (∃ q, parseFloat s = some (.fin q)) ∧ ∀ c ∈ s, isSpace c = false
  | .bool _ _ => True
  | .quoted s => Printable s ∧ '"' ∉ s
  | .text s => Printable s ∧ trimBlanks s = s ∧ '#' ∉ s ∧ ¬ "//".toList <:+: s ∧ s.head? ≠ some '"' ∧ parseFloat s = none ∧
      s ∉ ["true", "false", "TRUE", "FALSE"].map String.toList

/-- Lines as users write them; blanks stand before a comment that follows something. -/
def IniEntry.Proper : IniEntry → Prop
  | .blank => True
  | .comment c => Printable c.text
  | .section name p3 c => isBareKey name = true ∧ (∀ x ∈ p3, isBlank x = true) ∧ ∀ d ∈ c, Printable d.text ∧ p3 ≠ []
  | .pair key p1 p2 v p3 c => isBareKey key = true ∧ (∀ x ∈ p1 ++ p2 ++ p3, isBlank x = true) ∧ v.Proper ∧ ∀ d ∈ c, Printable d.text ∧ p3 ≠ []

/-- None of the texts that are replaced everywhere in the file. -/
def Untouched (s : Str) : Prop := ¬ "//".toList <:+: s ∧ '\t' ∉ s ∧ ¬ "TRUE".toList <:+: s ∧ ¬ "FALSE".toList <:+: s

/-- Values that survive: numbers in the form of TOML, texts without the replaced words, without `=`, quotes and backslashes. -/
def IniVal.Clean : IniVal → Prop
  | .number s => tomlNumber s ≠ none
  | .bool _ _ => True
  | .quoted s => Untouched s ∧ '\\' ∉ s
  | .text s => Untouched s ∧ '\\' ∉ s ∧ '"' ∉ s ∧ '=' ∉ s

/-- Lines that survive. -/
def IniEntry.Clean : IniEntry → Prop
  | .blank => True
  | .comment _ => True
  | .section name _ _ => Untouched name
  | .pair key _ _ v _ _ => Untouched key ∧ v.Clean

end Shipgrav.Spec
