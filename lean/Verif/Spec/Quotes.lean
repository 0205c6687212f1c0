import Verif.Spec.Lex

/-!
# Quotes

How a text is cut at its quotes, whatever they are.  The kind of quote that comes first cuts the whole text; the parts outside
are cut again, at the kind that comes first in each of them, and so on.  At each quote the previous character tells whether it is
escaped, but a piece has at most one escaped quote: the next one ends it.
-/

namespace SqlV.Lex

variable [E : PyEnv]

/-- A part of a text. -/
inductive Part where
  | code (s : Str)
  | mark (q : Char)
  | content (s : Str)
deriving DecidableEq

/-- The pieces of a text between the quotes `q` that are not escaped: `w` is the piece read so far, `glued` tells whether it has
an escaped quote.  A piece that ends the text with a backslash gets another quote. -/
def cutAt (q : Char) : (w : Str) → (glued : Bool) → Str → List Str
  | w, glued, [] => [if endsEsc w && !glued then w ++ [q] else w]
  | w, glued, c :: cs =>
    if c = q then
      if endsEsc w && !glued then cutAt q (w ++ [q]) true cs else w :: cutAt q [] false cs
    else cutAt q (w ++ [c]) glued cs

/-- Pieces are outside and inside in turn. -/
def weave (outside : Str → List Part) (q : Char) : (inside : Bool) → List Str → List Part
  | _, [] => []
  | inside, p :: ps =>
    (if p = [] then [] else if inside then [.content p] else outside p) ++
      if ps = [] then [] else .mark q :: weave outside q (!inside) ps

/-- The parts of a text, cut at `n` kinds of quotes. -/
def parts : Nat → Str → List Part
  | 0, s => [.code s]
  | n + 1, s =>
    match s.find? isQuote with
    | none => [.code s]
    | some q => weave (parts n) q false (cutAt q [] false s)

/-- The tokens of a part. -/
def Part.words : Part → List Str
  | .code s => raw s
  | .mark q => [[q]]
  | .content s => [s]

/-- Something in the part escapes a quote, or a character at which it would be cut, outside all literals. -/
def Part.stuck : Part → Bool
  | .code s => s.any isQuote || Lex.stuck s
  | _ => false

/-- Put two-character operators together; a token that begins an operator and the next one are always taken together. -/
def pairUp : List Str → List Str
  | a :: b :: rest =>
    if opens a then if a ++ b ∈ operators then (a ++ b) :: pairUp rest else a :: b :: pairUp rest
    else a :: pairUp (b :: rest)
  | l => l

/-- A text whose literals have the same kind of quote: the text before, then the content of each literal and the text after it. -/
def sameQuotes (q : Char) (code : Str) : List (Str × Str) → Str
  | [] => code
  | (content, code') :: rest => code ++ q :: content ++ q :: sameQuotes q code' rest

/-- The tokens of such a text, before operators are put together. -/
def sameWords (q : Char) (code : Str) : List (Str × Str) → List Str
  | [] => raw code
  | (content, code') :: rest => raw code ++ [q] :: tok content ++ [q] :: sameWords q code' rest

end SqlV.Lex
