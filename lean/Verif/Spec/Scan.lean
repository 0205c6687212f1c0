import Verif.Env

/-! Balanced token sequences. -/

namespace SqlV.Scan

variable [E : PyEnv]

/-- Every `(` has its `)`. -/
inductive Balanced : List Str → Prop
  | nil : Balanced []
  | tok (t : Str) (l : List Str) : t ≠ str!"(" → t ≠ str!")" → Balanced l → Balanced (t :: l)
  | group (a l : List Str) : Balanced a → Balanced l → Balanced (str!"(" :: a ++ str!")" :: l)

/-- A token that opens or closes a parenthesis, a square bracket or a CASE expression. -/
def isDelim (t : Str) : Bool :=
  t = str!"(" || t = str!")" || t = str!"[" || t = str!"]" || lower t = str!"case" ||
    lower t = str!"end"

/-- Every `(`, `[` and `CASE` has its `)`, `]` and `END`. -/
inductive Nested : List Str → Prop
  | nil : Nested []
  | tok (t : Str) (l : List Str) : isDelim t = false → Nested l → Nested (t :: l)
  | paren (a l : List Str) : Nested a → Nested l → Nested (str!"(" :: a ++ str!")" :: l)
  | square (a l : List Str) : Nested a → Nested l → Nested (str!"[" :: a ++ str!"]" :: l)
  | case (c e : Str) (a l : List Str) : lower c = str!"case" → lower e = str!"end" →
      Nested a → Nested l → Nested (c :: a ++ e :: l)

/-- A nested sequence without stop words outside parentheses, brackets and CASE expressions, except as
the second word of a kept pair. -/
inductive Clause (stop : List Str) (keep : List (Str × Str)) : List Str → Prop
  | nil : Clause stop keep []
  | tok (t : Str) (l : List Str) : isDelim t = false → lower t ∉ stop → Clause stop keep l →
      Clause stop keep (t :: l)
  | kept (p t : Str) (l : List Str) : isDelim p = false → lower p ∉ stop → isDelim t = false →
      (lower p, lower t) ∈ keep → Clause stop keep l → Clause stop keep (p :: t :: l)
  | paren (a l : List Str) : Nested a → Clause stop keep l →
      Clause stop keep (str!"(" :: a ++ str!")" :: l)
  | square (a l : List Str) : Nested a → Clause stop keep l →
      Clause stop keep (str!"[" :: a ++ str!"]" :: l)
  | case (c e : Str) (a l : List Str) : lower c = str!"case" → lower e = str!"end" →
      Nested a → Clause stop keep l → Clause stop keep (c :: a ++ e :: l)

/-- Opening delimiters are not among the stop words. -/
def NoDelims (stop : List Str) : Prop :=
  str!"(" ∉ stop ∧ str!"[" ∉ stop ∧ str!"case" ∉ stop

instance (stop : List Str) : Decidable (NoDelims stop) := inferInstanceAs (Decidable (_ ∧ _))

end SqlV.Scan
