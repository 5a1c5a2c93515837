import Verif.Spec.TomlTables

/-! `/repo/shipgrav/database.toml` as text, and the tables that are taken from it (`io.py` lines 47–52 and 438–443). -/

namespace Shipgrav
open Spec

/-- The lines of `/repo/shipgrav/database.toml`, lines 1–26 (and the empty rest behind the last line end). -/
def databaseLines : List String :=
  ["[bias-values]",
   "Atlantis = {'dgs'=969751.259, 'bgm'=855580.65}  # 2025",
   "Thompson = {'dgs'=969492.789, 'bgm'=855489.8}  # Jan 2026",
   "Revelle = {'dgs'=968888.6465, 'bgm'=855240.81987}",
   "NBP = {'dgs'=968634.2514, 'bgm'=-999}",
   "Ride = {'dgs'=968895.7718, 'bgm'=-999}",
   "Langseth = {'dgs'=969376.125, 'bgm'=854974.4}  # 2025",
   "Sikuliaq = {'dgs'=969538.8152, 'bgm'=-999}   #2025",
   "",
   "[nav-talkers]",
   "Atlantis = 'GPGGA'",
   "Thompson = 'INGGA'",
   "NBP = 'GPGGA'",
   "Ride = 'INGGA'",
   "Revelle = 'GPGGA'",
   "Langseth = 'INGGA'",
   "Sikuliaq = 'GPGGA'",
   "",
   "[BGM-scale]",
   "Atlantis = 4.994070552",
   "Thompson = 5.003353363",
   "Revelle = 4.99980755",
   "Langseth = 5.0",
   "",
   "[dgs-stuff]",
   "calibration_factor = 8388607",
   ""]

/-- The text of `/repo/shipgrav/database.toml`, lines 1–26. -/
def databaseText : Str := joinC '\n' (databaseLines.map String.toList)

/-- `tm.load(f)` and `info[table]`: io.py lines 50–52 and 440–443.  `none`: the text cannot be read, or there is no such table. -/
def infoTable (text table : Str) : Option (List (Str × TableVal)) := do
  let doc ← tomlTables text
  (doc.find? fun t => t.1 == table).map Prod.snd

/-- `nav_str[ship]`, io.py line 68. -/
def talkerOf (text ship : Str) : Option TableVal := (infoTable text "nav-talkers".toList).bind (·.lookup ship)

/-- `sc_fac[ship]`, io.py line 452. -/
def scaleOf (text ship : Str) : Option TableVal := (infoTable text "BGM-scale".toList).bind (·.lookup ship)

/-- `info['bias-values'][ship][meter]`, example-scripts/dgs_bgm_comp.py lines 51, 92 and 100. -/
def biasOf (text ship meter : Str) : Option ConfVal :=
  ((infoTable text "bias-values".toList).bind (·.lookup ship)).bind fun v => match v with
    | .table kvs => kvs.lookup meter
    | .plain _ => none

/-- `info['dgs-stuff']['calibration_factor']`, example-scripts/dgs_raw_comp.py line 54. -/
def calibrationFactorOf (text : Str) : Option TableVal := (infoTable text "dgs-stuff".toList).bind (·.lookup "calibration_factor".toList)

end Shipgrav
