import Verif.Spec.Lex

/-! What it means for a token list to spell a text, and for two texts to differ in layout only. -/

namespace SqlV.Lex

/-- Blanks, newlines and tabs only. -/
def Blank (w : Str) : Prop := ∀ c ∈ w, isBlank c

/-- `Spells s l`: read from left to right, `s` consists of the tokens `l`, separated by optional blanks;
the two characters of an operator may be separated by blanks as well. -/
inductive Spells : Str → List Str → Prop
  | done (w : Str) : Blank w → Spells w []
  | tok (w t s : Str) (l : List Str) : Blank w → t ≠ [] → Spells s l → Spells (w ++ t ++ s) (t :: l)
  | op (w a u b s : Str) (l : List Str) : Blank w → Blank u → a ≠ [] → b ≠ [] →
      a ++ b ∈ operators → Spells s l → Spells (w ++ a ++ u ++ b ++ s) ((a ++ b) :: l)

/-- A text cut into words, quoted literals and gaps. -/
inductive Piece where
  | word (w : Str)
  | lit (q : Char) (content : Str)
  | gap (w : Str)

/-- The text of a piece. -/
def Piece.text : Piece → Str
  | .word w => w
  | .lit q c => q :: c ++ [q]
  | .gap w => w

/-- Words have no quotes, blanks and backslashes; literals have no quotes inside and do not end in a
backslash; gaps are non-empty runs of blanks. -/
def Piece.Ok : Piece → Prop
  | .word w => ∀ c ∈ w, isQuote c = false ∧ isBlank c = false ∧ c ≠ '\\'
  | .lit q c => isQuote q ∧ (∀ x ∈ c, isQuote x = false) ∧ c.getLast? ≠ some '\\'
  | .gap w => w ≠ [] ∧ Blank w

/-- The text of a list of pieces. -/
def text (ps : List Piece) : Str := ps.flatMap Piece.text

/-- The same words and literals; gaps may differ. -/
inductive SameWords : List Piece → List Piece → Prop
  | nil : SameWords [] []
  | same (p : Piece) {ps ps' : List Piece} : SameWords ps ps' → SameWords (p :: ps) (p :: ps')
  | gap (w w' : Str) {ps ps' : List Piece} : SameWords ps ps' →
      SameWords (.gap w :: ps) (.gap w' :: ps')

end SqlV.Lex
