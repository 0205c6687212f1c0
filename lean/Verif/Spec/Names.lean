import Verif.Env

/-!
# Names that are printed in capitals
-/

namespace SqlV

/-- Names of columns that are printed in capitals when they are written in lower case. -/
def capitalNames : List Str :=
  [str!"_table_suffix", str!"_partitiondate", str!"nfc", str!"nfkc", str!"nfd", str!"nfkd",
   str!"monday", str!"tuesday", str!"wednesday", str!"thursday", str!"friday", str!"saturday", str!"sunday"]

/-- A column as it is printed. -/
def printedName [E : PyEnv] (x : Str) : Str := if x ∈ capitalNames then E.upper x else x

end SqlV
