import Verif.Env

/-!
# `sqlvalidator/grammar/tokeniser.py`
-/

namespace SqlV

variable [E : PyEnv]

/-- tokeniser.py 3 -/
def stringSplitTokens : List Char := ['\'', '"', '`']

/-- tokeniser.py 4 -/
def whitespaceSplitTokens : List Char := [' ', '\n', '\t']

/-- tokeniser.py 5-20 -/
def keptSplitTokens : List Char :=
  [',', ';', '(', ')', '[', ']', '+', '-', '*', '/', '=', '<', '>', '.']

/-- tokeniser.py 21 -/
def mergeTokens : List Str :=
  [str!"<>", str!"<=", str!">=", str!"<<", str!">>", str!"||", str!"!="]

/-- The glueing loop of `split_with_escaping`, tokeniser.py 102-113, over the pieces of `s.split(sep)`. -/
def glueEscaped (sep : Char) : List Str → List Str
  | [] => []
  | [v] => if v.getLast? = some '\\' then [v ++ [sep]] else [v]
  | v :: n :: rest =>
    if v.getLast? = some '\\' then (v ++ [sep] ++ n) :: glueEscaped sep rest
    else v :: glueEscaped sep (n :: rest)

/-- `split_with_escaping`, tokeniser.py 99-113 -/
def splitWithEscaping (s : Str) (sep : Char) : List Str := glueEscaped sep (Str.splitOn sep s)

/-- `split_with_sep`, tokeniser.py 89-96 (as the list of yielded values; `splitted` is never empty). -/
def yieldWithSep (sep : Char) : List Str → List Str
  | [] => []
  | [w] => if w.isEmpty then [] else [w]
  | w :: ws => (if w.isEmpty then [] else [w]) ++ [sep] :: yieldWithSep sep ws

/-- `split_with_sep`, tokeniser.py 89-96 -/
def splitWithSep (s : Str) (sep : Char) : List Str := yieldWithSep sep (splitWithEscaping s sep)

/-- `yield from a; …b`: the rest of a generator only runs if the first part did not raise. -/
def Stream.append (a b : Stream) : Stream :=
  match a.fail with
  | some _ => a
  | none => ⟨a.toks ++ b.toks, b.fail⟩

/-- `_split_on_string_token`, tokeniser.py 139-149; `rec` is `split_tokens`. -/
def splitOnString (rec : Str → Stream) (token : Char) : (inStr : Bool) → List Str → Stream
  | _, [] => ⟨[], none⟩
  | inStr, elem :: rest =>
    if elem = [token] then Stream.append ⟨[elem], none⟩ (splitOnString rec token (!inStr) rest)
    else if inStr then Stream.append ⟨[elem], none⟩ (splitOnString rec token inStr rest)
    else Stream.append (rec elem) (splitOnString rec token inStr rest)

/-- `yield from split_tokens(elem)` for each element in turn. -/
def splitEach (rec : Str → Stream) : List Str → Stream
  | [] => ⟨[], none⟩
  | e :: es => Stream.append (rec e) (splitEach rec es)

/-- `_split_on_whitespace_token`, tokeniser.py 152-155 -/
def splitOnWhitespace (rec : Str → Stream) (token : Char) (value : Str) : Stream :=
  splitEach rec ((Str.splitOn token value).filter (fun e => !e.isEmpty))

/-- `_split_on_kept_token`, tokeniser.py 158-163 -/
def splitOnKept (rec : Str → Stream) (token : Char) (value : Str) : Stream :=
  if token = '.' ∧ '.' ∈ value ∧ isDottedDigits value then ⟨[value], none⟩
  else splitEach rec (splitWithSep value token)

/-- Insertion into a list sorted by `key`, after equal keys (stable). -/
def insertByKey (key : Char → Nat) (c : Char) : List Char → List Char
  | [] => [c]
  | d :: ds => if key c < key d then c :: d :: ds else d :: insertByKey key c ds

/-- `sorted(l, key=key)` (a stable sort). -/
def sortedByKey (key : Char → Nat) (l : List Char) : List Char :=
  l.foldl (fun acc c => insertByKey key c acc) []

/-- `split_tokens`, tokeniser.py 166-185.  The first argument bounds the depth of the recursion; when
it is exhausted the interpreter's `RecursionError` is raised. -/
def splitTokens : Nat → Str → Stream
  | 0, _ => ⟨[], some .recursion⟩
  | n + 1, value =>
    match (sortedByKey (Str.indexOr value) stringSplitTokens).find? (· ∈ value) with
    | some q => splitOnString (splitTokens n) q false (splitWithSep value q)
    | none =>
      match whitespaceSplitTokens.find? (· ∈ value) with
      | some w => splitOnWhitespace (splitTokens n) w value
      | none =>
        match keptSplitTokens.find? (fun k => k ∈ value ∧ value ≠ [k]) with
        | some k => splitOnKept (splitTokens n) k value
        | none => ⟨[value], none⟩

/-- `matching_goals` of `merge_stream` is non-empty, tokeniser.py 118-119. -/
def startsMerge (goals : List Str) (element : Str) : Bool :=
  goals.any fun g => Str.startsWith g element

/-- `merge_stream`, tokeniser.py 116-136, over the remaining tokens of a generator that ends with
`fail`.  The `ValueError` branch (130-131) needs a goal listed twice. -/
def mergeStream (goals : List Str) (fail : Option PyErr) : List Str → Stream
  | [] => ⟨[], fail⟩
  | [e] =>
    if startsMerge goals e then
      match fail with
      | some err => ⟨[], some err⟩
      | none => ⟨[e], none⟩
    else ⟨[e], fail⟩
  | e :: n :: rest =>
    if startsMerge goals e then
      if n.isEmpty then
        let r := mergeStream goals fail rest
        ⟨e :: r.toks, r.fail⟩
      else if (goals.filter fun g => Str.startsWith g e && decide (e ++ n = g)).length > 1 then
        ⟨[], some .value⟩
      else if (goals.filter fun g => Str.startsWith g e && decide (e ++ n = g)).length = 1 then
        let r := mergeStream goals fail rest
        ⟨(e ++ n) :: r.toks, r.fail⟩
      else
        let r := mergeStream goals fail rest
        ⟨e :: n :: r.toks, r.fail⟩
    else
      let r := mergeStream goals fail (n :: rest)
      ⟨e :: r.toks, r.fail⟩

/-- CPython's default recursion limit; each level of `split_tokens` uses at least one frame. -/
def recursionLimit : Nat := 1000

/-- `to_tokens`, tokeniser.py 188-190, with an explicit recursion budget. -/
def toTokensAt (depth : Nat) (value : Str) : Stream :=
  let s := splitTokens depth value
  mergeStream mergeTokens s.fail s.toks

/-- `to_tokens`, tokeniser.py 188-190 -/
def toTokens (value : Str) : Stream := toTokensAt recursionLimit value

/-! ### Scanning functions used by the parser -/

/-- The loop of `get_tokens_until_closing_parenthesis`, tokeniser.py 32-38: the collected tokens,
whether the closing parenthesis was found, and the rest. -/
def scanClosing : (count : Int) → List Str → List Str × Bool × List Str
  | _, [] => ([], false, [])
  | count, t :: ts =>
    if t = str!")" ∧ count = 0 then ([], true, ts)
    else
      let count' := if t = str!"(" then count + 1 else if t = str!")" then count - 1 else count
      let r := scanClosing count' ts
      (t :: r.1, r.2.1, r.2.2)

/-- Counters of `get_tokens_until_one_of`: parentheses, square brackets, CASE expressions. -/
structure Depth where
  paren : Int
  square : Int
  caseE : Int
deriving DecidableEq, Repr

/-- tokeniser.py 62-73 -/
def Depth.step (d : Depth) (t : Str) : Depth :=
  if t = str!"(" then { d with paren := d.paren + 1 }
  else if t = str!")" then { d with paren := d.paren - 1 }
  else if t = str!"[" then { d with square := d.square + 1 }
  else if t = str!"]" then { d with square := d.square - 1 }
  else if lower t = str!"case" then { d with caseE := d.caseE + 1 }
  else if lower t = str!"end" then { d with caseE := d.caseE - 1 }
  else d

/-- tokeniser.py 48-50; note that `first_token` is compared with `"case"` without lowering. -/
def Depth.init (first : Option Str) : Depth :=
  { paren := if first = some str!"(" then 1 else 0
    square := if first = some str!"[" then 1 else 0
    caseE := if first = some str!"case" then 1 else 0 }

/-- The stop condition, tokeniser.py 52-59; `last` is `argument_tokens[-1]` if there is one. -/
def stopsHere (stop : List Str) (keep : List (Str × Str)) (last : Option Str) (d : Depth) (t : Str) :
    Bool :=
  decide (lower t ∈ stop) && decide (d.paren ≤ 0) && decide (d.square ≤ 0) && decide (d.caseE ≤ 0) &&
    (match last with
     | none => true
     | some l => !decide ((lower l, lower t) ∈ keep))

/-- The loop of `get_tokens_until_one_of`, tokeniser.py 51-74: collected tokens, the stopping token if
any, and the rest. -/
def scanOneOf (stop : List Str) (keep : List (Str × Str)) :
    (last : Option Str) → Depth → List Str → List Str × Option Str × List Str
  | _, _, [] => ([], none, [])
  | last, d, t :: ts =>
    if stopsHere stop keep last d t then ([], some t, ts)
    else
      let r := scanOneOf stop keep (some t) (d.step t) ts
      (t :: r.1, r.2.1, r.2.2)

/-- The loop of `get_tokens_until_not_in`, tokeniser.py 82-84. -/
def scanNotIn (kept : List Str) : List Str → List Str × Option Str × List Str
  | [] => ([], none, [])
  | t :: ts =>
    if lower t ∈ kept then
      let r := scanNotIn kept ts
      (t :: r.1, r.2.1, r.2.2)
    else ([], some t, ts)

end SqlV
