/-!
# Python primitives

Strings are lists of characters, exceptions are values.  Every separator used by the code base is a
single character, so `str.split`, `str.replace` … are modelled for one-character patterns.
-/

namespace SqlV

/-- A Python `str`. -/
abbrev Str := List Char

open Lean in
/-- `str!"abc"` is the character list `['a', 'b', 'c']`. -/
macro:max "str!" s:str : term => do
  let cs : Array (TSyntax `term) :=
    (s.getString.toList.map fun c => (⟨Syntax.mkCharLit c⟩ : TSyntax `term)).toArray
  `(([$cs,*] : List Char))

/-- The exception classes that the code raises or lets escape.
`parsing msg` is `sqlvalidator.grammar.lexer.ParsingError` (lexer.py 58-59). -/
inductive PyErr where
  | parsing (msg : Str)
  | stopIteration
  | assertion
  | value
  | index
  | attribute
  | type
  | recursion
  | io
deriving DecidableEq, Repr, BEq

deriving instance DecidableEq for Except

/-- Outcome of a parser run: a value, an exception, or `diverge` (the fuel of the model ran out). -/
inductive Res (α : Type) where
  | ok (a : α)
  | err (e : PyErr)
  | diverge
deriving DecidableEq, Repr

/-- A Python generator of tokens, seen from its consumer: the tokens still to come, and whether it
then ends normally (`none`) or raises. -/
structure Stream where
  toks : List Str
  fail : Option PyErr := none
deriving DecidableEq, Repr

namespace Str

/-- `s.split(c)` for a one-character separator. -/
def splitOn (c : Char) : Str → List Str
  | [] => [[]]
  | x :: xs =>
    if x = c then [] :: splitOn c xs
    else match splitOn c xs with
      | [] => [[x]]
      | w :: ws => (x :: w) :: ws

/-- `s.replace(c, r)` for a one-character pattern. -/
def replace (c : Char) (r : Str) (s : Str) : Str :=
  s.flatMap fun x => if x = c then r else [x]

/-- `sep.join(parts)`. -/
def join (sep : Str) : List Str → Str
  | [] => []
  | [w] => w
  | w :: ws => w ++ sep ++ join sep ws

/-- `s.index(c) if c in s else len(s) + 1` (tokeniser.py 169). -/
def indexOr (s : Str) (c : Char) : Nat :=
  if c ∈ s then s.idxOf c else s.length + 1

/-- `g.startswith(p)`. -/
def startsWith (g p : Str) : Bool := p.isPrefixOf g

/-- `s.endswith(p)`. -/
def endsWith (s p : Str) : Bool := p.isSuffixOf s

/-- `p in s` for a string pattern. -/
def contains (s p : Str) : Bool :=
  match s with
  | [] => p.isEmpty
  | _ :: t => p.isPrefixOf s || contains t p

/-- Decimal digits of a natural number, most significant first. -/
def ofNat (n : Nat) : Str := Nat.toDigits 10 n

/-- `str(i)` for a Python `int`. -/
def ofInt : Int → Str
  | .ofNat n => ofNat n
  | .negSucc n => '-' :: ofNat (n + 1)

end Str

end SqlV
