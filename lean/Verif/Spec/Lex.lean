import Verif.Env

/-!
# Reference lexer

A one-pass, left-to-right description of SQL tokens, independent of `tokeniser.py`: string literals
are an opening quote, the content, and the same quote again; blanks, newlines and tabs separate;
punctuation characters are tokens by themselves; the remaining runs are words, which are split at dots
unless they are numbers.
-/

namespace SqlV.Lex

variable [E : PyEnv]

/-- Quote characters. -/
def isQuote (c : Char) : Bool := c = '\'' || c = '"' || c = '`'

/-- Characters that separate tokens and disappear. -/
def isBlank (c : Char) : Bool := c = ' ' || c = '\n' || c = '\t'

/-- Characters that are tokens by themselves (the dot is treated separately). -/
def isPunct (c : Char) : Bool :=
  c = ',' || c = ';' || c = '(' || c = ')' || c = '[' || c = ']' || c = '+' || c = '-' || c = '*' ||
  c = '/' || c = '=' || c = '<' || c = '>'

/-- A token unless it is empty. -/
def tok (w : Str) : List Str := match w with
  | [] => []
  | _ => [w]

/-- A run without blanks, quotes and punctuation, cut at its dots: `w` is the word read so far. -/
def cutDots (w : Str) : Str → List Str
  | [] => tok w
  | c :: cs => if c = '.' then tok w ++ str!"." :: cutDots [] cs else cutDots (w ++ [c]) cs

/-- The tokens of such a run: a number with dots stays in one piece. -/
def chunk (w : Str) : List Str := if '.' ∈ w ∧ isDottedDigits w then [w] else cutDots [] w

/-- Where the lexer is: outside literals with the run read so far, or inside a literal opened by `q`
with the content read so far. -/
inductive Mode where
  | out (run : Str)
  | lit (q : Char) (content : Str)

/-- The last character is a backslash. -/
def endsEsc (w : Str) : Bool := w.getLast? = some '\\'

/-- The lexer.  A quote preceded by a backslash does not end a literal. -/
def go : Mode → Str → List Str
  | .out run, [] => chunk run
  | .out run, c :: cs =>
    if isQuote c then chunk run ++ [c] :: go (.lit c []) cs
    else if isBlank c then chunk run ++ go (.out []) cs
    else if isPunct c then chunk run ++ [c] :: go (.out []) cs
    else go (.out (run ++ [c])) cs
  | .lit _ content, [] => tok content
  | .lit q content, c :: cs =>
    if c = q ∧ !endsEsc content then tok content ++ [q] :: go (.out []) cs
    else go (.lit q (content ++ [c])) cs

/-- The tokens of a text, before two-character operators are put together. -/
def raw (s : Str) : List Str := go (.out []) s

/-- Where a text is, for `plain`: outside literals, or in a literal opened by `q`; `esc` tells whether
the previous character is a backslash, `used` whether the literal already has an escaped quote. -/
inductive Lit where
  | out
  | lit (q : Char) (esc used : Bool)

/-- Outside literals there is no backslash; no literal contains a quote character of another kind, more
than one escaped quote, or is cut off after a backslash. -/
def plain : Lit → Str → Bool
  | .out, [] => true
  | .out, c :: cs => if isQuote c then plain (.lit c false false) cs else c ≠ '\\' && plain .out cs
  | .lit _ esc _, [] => !esc
  | .lit q esc used, c :: cs =>
    if c = q then
      if esc then !used && plain (.lit q false true) cs else plain .out cs
    else !isQuote c && plain (.lit q (c = '\\') used) cs

/-- Characters at which words are cut. -/
def isMark (c : Char) : Bool := isPunct c || c = '.'

/-- Some word (up to the next blank) has a backslash in front of a punctuation character or a dot, or ends in a backslash
and has such a character elsewhere.  `mark` tells whether the current word has one, `esc` whether the previous character
is a backslash. -/
def stuckFrom (mark esc : Bool) : Str → Bool
  | [] => mark && esc
  | c :: cs =>
    if isBlank c then (mark && esc) || stuckFrom false false cs
    else if isMark c then esc || stuckFrom true false cs
    else stuckFrom mark (c = '\\') cs

/-- Some word of a text without quotes escapes a character at which it would be cut. -/
def stuck (s : Str) : Bool := stuckFrom false false s

/-- A text without quotes in which nothing is escaped that would be cut. -/
def bare (s : Str) : Prop := (∀ c ∈ s, isQuote c = false) ∧ stuck s = false

/-- The two-character operators. -/
def operators : List Str :=
  [str!"<>", str!"<=", str!">=", str!"<<", str!">>", str!"||", str!"!="]

/-- Put two-character operators together. -/
def operate : List Str → List Str
  | a :: b :: rest => if a ++ b ∈ operators then (a ++ b) :: operate rest else a :: operate (b :: rest)
  | l => l

/-- The tokens of a text. -/
def tokens (s : Str) : List Str := operate (raw s)

/-- `e` starts an operator. -/
def opens (e : Str) : Bool := operators.any fun o => e.isPrefixOf o

/-- No token that starts an operator is followed by another such token, unless they form one. -/
def noClash : List Str → Bool
  | a :: b :: rest => (!(opens a && opens b) || decide (a ++ b ∈ operators)) && noClash (b :: rest)
  | _ => true

/-- What a token of a text without quotes can be: a punctuation character, a two-character operator, a
number with dots, or a word; numbers and words contain no punctuation and no blanks. -/
inductive Atomic : Str → Prop
  | punct (c : Char) : isPunct c → Atomic [c]
  | dot : Atomic str!"."
  | op (o : Str) : o ∈ operators → Atomic o
  | number (w : Str) : '.' ∈ w → isDottedDigits w →
      (∀ c ∈ w, isQuote c = false ∧ isBlank c = false ∧ isPunct c = false) → Atomic w
  | word (w : Str) : w ≠ [] → '.' ∉ w →
      (∀ c ∈ w, isQuote c = false ∧ isBlank c = false ∧ isPunct c = false) → Atomic w

end SqlV.Lex
