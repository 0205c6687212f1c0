import Verif.Tree

/-!
# Interpreter facts the repository relies on but does not define

Theorems are stated for every `PyEnv` (optionally a lawful one), so nothing is assumed about, say,
the case mapping of non-ASCII characters.
-/

namespace SqlV

/-- The types that `return_type` can return (sql.py 251-252, 900-967, 1118-1121, 1447-1529). -/
inductive PType where
  | object | bool | int | float | str | noneType
deriving DecidableEq, Repr

/-- `_FieldInfo`, sql.py 15-21.  `return_type` of an empty parenthesis is Python `None`
(sql.py 1013-1015), so the type is optional. -/
structure Field where
  name : Str
  type : Option PType
deriving DecidableEq, Repr

/-- The parts of CPython used by the code that are not modelled in detail. -/
class PyEnv where
  /-- `str.lower` -/
  lower : Str → Str
  /-- `str.upper` -/
  upper : Str → Str
  /-- `c.isdigit()` for one character -/
  isDigit : Char → Bool
  /-- `int(s)`, `none` for `ValueError` -/
  toInt : Str → Option Int
  /-- `str(float(s))`, `none` for `ValueError` -/
  floatStr : Str → Option Str
  /-- `c.isprintable()` for one character beyond ASCII -/
  printable : Char → Bool
  /-- iteration order of a `set` with the given elements -/
  setOrder : List Field → List Field

/-- `c` is an ASCII character. -/
def isAscii (c : Char) : Bool := c.toNat < 128

/-- Agreement of the interpreter with the ASCII tables on ASCII text.  (`Char.toLower`, `Char.toUpper`
and `Char.isDigit` of Lean only concern ASCII letters and digits.)  4300 is CPython's default limit on
the length of integer literals. -/
class LawfulPyEnv (E : PyEnv) : Prop where
  lower_ascii : ∀ s : Str, s.all isAscii → E.lower s = s.map Char.toLower
  upper_ascii : ∀ s : Str, s.all isAscii → E.upper s = s.map Char.toUpper
  isDigit_ascii : ∀ c : Char, isAscii c → E.isDigit c = c.isDigit
  toInt_digits : ∀ s : Str, s ≠ [] → s.all Char.isDigit → s.length ≤ 4300 →
    E.toInt s = some (Int.ofNat (s.foldl (fun a c => 10 * a + (c.toNat - '0'.toNat)) 0))
  setOrder_perm : ∀ l : List Field, (E.setOrder l).Perm l

variable [E : PyEnv]

/-- `lower(s)` of tokeniser.py 24-25 for a string (`""` is falsy and returned as is). -/
def lower (s : Str) : Str := if s = [] then [] else E.lower s

/-- `lower(s)` of tokeniser.py 24-25 for an optional string. -/
def lower? (s : Option Str) : Option Str := s.map lower

/-- `s.isdigit()` -/
def isDigits (s : Str) : Bool := !s.isEmpty && s.all E.isDigit

/-- `s.replace(".", "").isdigit()` -/
def isDottedDigits (s : Str) : Bool := isDigits (s.filter (· ≠ '.'))

/-- The ASCII environment, used for executable tests and concrete witnesses.  `floatStr` only knows
the notations on which `repr` returns the literal unchanged; anything else yields `none`. -/
@[instance_reducible] def asciiEnv : PyEnv where
  lower s := s.map Char.toLower
  upper s := s.map Char.toUpper
  isDigit c := c.isDigit
  toInt s :=
    if s ≠ [] ∧ s.all Char.isDigit ∧ s.length ≤ 4300
    then some (Int.ofNat (s.foldl (fun a c => 10 * a + (c.toNat - '0'.toNat)) 0)) else none
  floatStr s := if s.count '.' = 1 ∧ s.length < 15 then some s else none
  printable _ := false
  setOrder l := l

instance : LawfulPyEnv asciiEnv where
  lower_ascii _ _ := rfl
  upper_ascii _ _ := rfl
  isDigit_ascii _ _ := rfl
  toInt_digits _ h1 h2 h3 := if_pos ⟨h1, h2, h3⟩
  setOrder_perm _ := List.Perm.refl _

end SqlV
