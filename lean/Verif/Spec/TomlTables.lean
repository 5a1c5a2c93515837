import Verif.Spec.Toml

/-! The part of TOML (version 1.0) that the database of ships needs beyond `Spec/Toml`: literal strings, and inline tables with bare or literal keys.
A document is a list of tables. -/

namespace Shipgrav.Spec

/-- A value of a table. -/
inductive TableVal
  | plain (v : ConfVal)
  | table (kvs : List (Str × ConfVal))
  deriving DecidableEq

/-- A literal string at the beginning, and what follows it. -/
def literal : Str → Option (Str × Str)
  | '\'' :: r => match r.dropWhile (· ≠ '\'') with
    | [] => none
    | _ :: rest => some (r.takeWhile (· ≠ '\''), rest)
  | _ => none

/-- A value that is no table. -/
def plainValue (s : Str) : Option ConfVal := match literal s with
  | some (body, rest) => if isTomlEnd rest then some (.str body) else none
  | none => tomlValue s

/-- A bare or literal key, without the blanks around. -/
def tableKey (s : Str) : Option Str := match literal (trimBlanks s) with
  | some (body, rest) => if rest = [] then some body else none
  | none => if isBareKey (trimBlanks s) then some (trimBlanks s) else none

/-- `key = value` within an inline table; strings with commas, braces or equal signs, and comments, are left out. -/
def inlinePair (s : Str) : Option (Str × ConfVal) := match splitC '=' s with
  | [k, v] => if v.contains '#' then none else do
    let k ← tableKey k
    let v ← plainValue (trimBlanks v)
    return (k, v)
  | _ => none

/-- A value, and nothing but a comment behind it. -/
def tableValue (s : Str) : Option TableVal := match s with
  | '{' :: r => match r.dropWhile (· ≠ '}') with
    | [] => none
    | _ :: rest =>
      if !isTomlEnd rest then none
      else do
        let kvs ← (splitC ',' (r.takeWhile (· ≠ '}'))).mapM inlinePair
        if (kvs.map Prod.fst).Nodup then return .table kvs else none
  | s => (plainValue s).map .plain

/-- What a line says: nothing, the header of a table, or a pair. -/
inductive TableStmt
  | header (name : Str)
  | pair (key : Str) (v : TableVal)
  deriving DecidableEq

/-- One line: `none` if it cannot be read, `some none` if it says nothing. -/
def tableLine (l : Str) : Option (Option TableStmt) :=
  if l.any isControl then none
  else match l.dropWhile isBlank with
    | [] => some none
    | '#' :: _ => some none
    | '[' :: r => match r.dropWhile (· ≠ ']') with
      | [] => none
      | _ :: rest => if isBareKey (trimBlanks (r.takeWhile (· ≠ ']'))) && isTomlEnd rest then some (some (.header (trimBlanks (r.takeWhile (· ≠ ']'))))) else none
    | s => match s.dropWhile (· ≠ '=') with
      | [] => none
      | _ :: rest => do
        let k ← tableKey (s.takeWhile (· ≠ '='))
        let v ← tableValue (rest.dropWhile isBlank)
        return some (.pair k v)

/-- The pairs before the first header, and the tables behind it. -/
def collectGo : List TableStmt → List (Str × TableVal) × List (Str × List (Str × TableVal))
  | [] => ([], [])
  | .pair k v :: rest => ((k, v) :: (collectGo rest).1, (collectGo rest).2)
  | .header t :: rest => ([], (t, (collectGo rest).1) :: (collectGo rest).2)

/-- The tables of a list of statements; `none` if a pair stands before the first header. -/
def collect (l : List TableStmt) : Option (List (Str × List (Str × TableVal))) :=
  if (collectGo l).1 = [] then some (collectGo l).2 else none

/-- A document of tables: all lines can be read, no table is opened twice and no key is given twice in a table. -/
def tomlTables (text : Str) : Option (List (Str × List (Str × TableVal))) := do
  let ls ← (splitC '\n' text).mapM tableLine
  let ts ← collect (ls.filterMap id)
  if (ts.map Prod.fst).Nodup ∧ ∀ t ∈ ts, (t.2.map Prod.fst).Nodup then return ts else none

end Shipgrav.Spec
