import Verif.Spec.Lex
import Verif.Spec.Scan
import Verif.Transform

/-!
# The core grammar

Which trees are statements of the core grammar (`core`), and which token sequences spell them
(`toks`, `Reads`).  Nothing here is taken from the parser or the printer: `toks` writes a tree as SQL
is written, and `core` says where the parts may stand.

The core grammar has SELECT [ALL | DISTINCT | DISTINCT ON (…)] with aliases, FROM with tables,
sub-queries and joins with and without conditions, WHERE, GROUP BY, HAVING, ORDER BY, LIMIT, OFFSET, WITH, and expressions made of
columns, integers, decimals, strings, NULL, TRUE and FALSE, calls, COUNT, CAST, ARRAY_AGG, FILTER, OVER, parentheses,
arrays, indices, sub-queries, CASE, arithmetic, NOT, conditions, bitwise operators, AND and OR; `*` may be
followed by EXCEPT and REPLACE, and a part of a date by FROM.
-/

namespace SqlV.Core

open Lex

/-! ### Tokens of a tree -/

/-- What a token of a statement has to be. -/
inductive Tok where
  /-- a keyword, in any letter case -/
  | kw (w : Str)
  /-- exactly this token -/
  | lit (s : Str)
  /-- a natural number, possibly with leading zeros -/
  | num (n : Nat)
deriving DecidableEq, Repr

/-- The value of a sequence of decimal digits. -/
def value (s : Str) : Nat := s.foldl (fun a c => 10 * a + (c.toNat - '0'.toNat)) 0

/-- `k` may be written `t`.  (4300 is CPython's limit on the length of integers.) -/
def Tok.reads : Tok → Str → Prop
  | .kw w, t => t.map Char.toLower = w
  | .lit s, t => t = s
  | .num n, t => t ≠ [] ∧ t.all Char.isDigit ∧ t.length ≤ 4300 ∧ value t = n

instance Tok.reads.dec : (k : Tok) → (t : Str) → Decidable (k.reads t)
  | .kw w, t => inferInstanceAs (Decidable (t.map Char.toLower = w))
  | .lit s, t => inferInstanceAs (Decidable (t = s))
  | .num n, t => inferInstanceAs (Decidable (t ≠ [] ∧ t.all Char.isDigit ∧ t.length ≤ 4300 ∧ value t = n))

/-- The sequence may be written `ts`. -/
def Reads : List Tok → List Str → Prop
  | [], [] => True
  | k :: ks, t :: ts => k.reads t ∧ Reads ks ts
  | _, _ => False

instance Reads.dec : (ks : List Tok) → (ts : List Str) → Decidable (Reads ks ts)
  | [], [] => .isTrue trivial
  | _ :: ks, _ :: ts => @instDecidableAnd _ _ inferInstance (Reads.dec ks ts)
  | [], _ :: _ => .isFalse id
  | _ :: _, [] => .isFalse id

/-- Joins with a condition, and the keywords they are written with. -/
def condJoins : List (Str × List Str) :=
  [(str!"JOIN", [str!"join"]),
   (str!"INNER JOIN", [str!"inner", str!"join"]),
   (str!"LEFT JOIN", [str!"left", str!"join"]),
   (str!"RIGHT JOIN", [str!"right", str!"join"]),
   (str!"FULL JOIN", [str!"full", str!"join"]),
   (str!"LEFT OUTER JOIN", [str!"left", str!"outer", str!"join"]),
   (str!"RIGHT OUTER JOIN", [str!"right", str!"outer", str!"join"]),
   (str!"FULL OUTER JOIN", [str!"full", str!"outer", str!"join"]),
   (str!"JOIN EACH", [str!"join", str!"each"]),
   (str!"INNER JOIN EACH", [str!"inner", str!"join", str!"each"]),
   (str!"LEFT JOIN EACH", [str!"left", str!"join", str!"each"])]

/-- Joins without a condition. -/
def crossJoins : List (Str × List Str) :=
  [(str!"CROSS JOIN", [str!"cross", str!"join"]), (str!",", [str!","])]

/-- The keywords of a join. -/
def joinToks (type : Str) : List Tok :=
  (((condJoins ++ crossJoins).lookup type).getD []).map .kw

/-- Set operators, and the keywords they are written with. -/
def setOps : List (Str × List Str) :=
  [(str!"UNION", [str!"union"]),
   (str!"UNION ALL", [str!"union", str!"all"]),
   (str!"INTERSECT", [str!"intersect"]),
   (str!"INTERSECT ALL", [str!"intersect", str!"all"]),
   (str!"EXCEPT", [str!"except"]),
   (str!"EXCEPT ALL", [str!"except", str!"all"])]

/-- The keywords of a set operator. -/
def setToks (op : Str) : List Tok := ((setOps.lookup op).getD []).map .kw

/-- The keywords of a predicate. -/
def predToks (p : Str) : List Tok :=
  if p = str!"is not" then [.kw str!"is", .kw str!"not"]
  else if p = str!"not in" then [.kw str!"not", .kw str!"in"]
  else [.kw p]

/-- `l` when `b` holds. -/
def opt (b : Bool) (l : List Tok) : List Tok := if b then l else []

/-- The alias after WITH OFFSET. -/
def offsetToks (withAs : Bool) : Option Str → List Tok
  | none => []
  | some a => opt withAs [.kw str!"as"] ++ [.lit a]

/-- The words between single blanks. -/
def words : Str → List Str
  | [] => [[]]
  | c :: s =>
    if c = ' ' then [] :: words s
    else match words s with
      | w :: ws => (c :: w) :: ws
      | [] => [[c]]

/-- LIMIT inside ARRAY_AGG. -/
def limitToks : Option Int → List Tok
  | none => []
  | some i => [.kw str!"limit", .num i.natAbs]

/-- A number without its sign. -/
def unsigned : Str → Str
  | '-' :: s => s
  | s => s

mutual

/-- How a tree is written. -/
def toks : Node → List Tok
  | .raw s => [.lit s]
  | .column v => [.lit v]
  | .chained l r => toks l ++ .lit str!"." :: toks r
  | .int i => opt (decide (i < 0)) [.lit str!"-"] ++ [.num i.natAbs]
  | .float r => opt (decide (r.head? = some '-')) [.lit str!"-"] ++ [.lit (unsigned r)]
  | .string v q none => .lit q :: (if v = [] then [] else [.lit v]) ++ [.lit q]
  | .string v q (some p) => .lit p :: .lit q :: (if v = [] then [] else [.lit v]) ++ [.lit q]
  | .null => [.kw str!"null"]
  | .bool b => [.kw (if b then str!"true" else str!"false")]
  | .type v => [.kw v]
  | .func f args => .kw f :: .lit str!"(" :: (toksList args ++ [.lit str!")"])
  | .count args d =>
    .kw str!"count" :: .lit str!"(" :: (opt d [.kw str!"distinct"] ++ toksList args ++ [.lit str!")"])
  | .cast c t => .kw str!"cast" :: .lit str!"(" :: (toks c ++ .kw str!"as" :: toks t ++ [.lit str!")"])
  | .paren args => .lit str!"(" :: (toksList args ++ [.lit str!")"])
  | .array args => .lit str!"[" :: (toksList args ++ [.lit str!"]"])
  | .index e is => toks e ++ .lit str!"[" :: (toksList is ++ [.lit str!"]"])
  | .arrayAgg c d ignore _ o l =>
    .kw str!"array_agg" :: .lit str!"(" :: (opt d [.kw str!"distinct"] ++ toks c ++
      opt ignore [.kw str!"ignore", .kw str!"nulls"] ++ toks o ++ limitToks l ++ [.lit str!")"])
  | .filtered c w =>
    toks c ++ .kw str!"filter" :: .lit str!"(" :: (.kw str!"where" :: toks w ++ [.lit str!")"])
  | .frame r f => .kw r :: (words f).map .kw
  | .analytics f part o fr =>
    toks f ++ .kw str!"over" :: .lit str!"(" ::
      (opt (!part.isEmpty) (.kw str!"partition" :: .kw str!"by" :: toksList part) ++ toks o ++ toks fr ++
        [.lit str!")"])
  | .datePart part e => .kw part :: .kw str!"from" :: toks e
  | .except_ e args => toks e ++ .kw str!"except" :: .lit str!"(" :: (toksList args ++ [.lit str!")"])
  | .replace e args => toks e ++ .kw str!"replace" :: .lit str!"(" :: (toksList args ++ [.lit str!")"])
  | .arith op l r => toks l ++ .lit op :: toks r
  | .bitwise l op r => toks l ++ .lit op :: toks r
  | .neg e => .kw str!"not" :: toks e
  | .cond l p r => toks l ++ predToks p ++ toks r
  | .boolc p l r => toks l ++ .kw p :: toks r
  | .whenThen w t => .kw str!"when" :: toks w ++ .kw str!"then" :: toks t
  | .case o ws e =>
    .kw str!"case" :: (toks o ++ toksSeq ws ++ opt e.truthy (.kw str!"else" :: toks e) ++ [.kw str!"end"])
  | .alias e al withAs => toks e ++ opt withAs [.kw str!"as"] ++ toks al
  | .table v square => if square then .lit str!"[" :: (toks v ++ [.lit str!"]"]) else toks v
  | .unnest v o oa al => toks v ++ opt o (.kw str!"with" :: .kw str!"offset" :: offsetToks oa al)
  | .combined op l r => toks l ++ setToks op ++ toks r
  | .on e => .kw str!"on" :: toks e
  | .using_ e => .kw str!"using" :: toks e
  | .join type l r on using_ => toks l ++ joinToks type ++ toks r ++ toks on ++ toks using_
  | .where_ e => .kw str!"where" :: toks e
  | .groupBy args rollup each =>
    .kw str!"group" :: (opt each [.kw str!"each"] ++ .kw str!"by" :: (opt rollup [.kw str!"rollup"] ++
      toksList args))
  | .having e => .kw str!"having" :: toks e
  | .orderItem v asc desc => toks v ++ opt asc [.kw str!"asc"] ++ opt desc [.kw str!"desc"]
  | .orderBy args => .kw str!"order" :: .kw str!"by" :: toksList args
  | .limit all v => .kw str!"limit" :: (opt all [.kw str!"all"] ++ toks v)
  | .offset v => .kw str!"offset" :: toks v
  | .select es all d on f w g h o l off semi =>
    .kw str!"select" :: (opt all [.kw str!"all"] ++ opt d [.kw str!"distinct"] ++
      opt (!on.isEmpty) (.kw str!"on" :: .lit str!"(" :: (toksList on ++ [.lit str!")"])) ++
      toksList es ++ opt f.truthy (.kw str!"from" :: toks f) ++ toks w ++ toks g ++ toks h ++ toks o ++
      toks l ++ toks off ++ opt semi [.lit str!";"])
  | .withQuery name q => .lit name :: .kw str!"as" :: .lit str!"(" :: (toks q ++ [.lit str!")"])
  | .withStmt qs s => .kw str!"with" :: (toksList qs ++ toks s)
  | _ => []

/-- A list of trees, written with commas. -/
def toksList : List Node → List Tok
  | [] => []
  | [n] => toks n
  | n :: ns => toks n ++ .lit str!"," :: toksList ns

/-- A list of trees, written one after the other. -/
def toksSeq : List Node → List Tok
  | [] => []
  | n :: ns => toks n ++ toksSeq ns

end

/-! ### Words -/

variable [E : PyEnv]

/-- Words that end an expression or a clause. -/
def stopWords : List Str :=
  [str!",", str!";", str!"from", str!"where", str!"group", str!"having", str!"order", str!"limit",
   str!"offset", str!"with", str!"asc", str!"desc", str!"as", str!"on", str!"using", str!"join",
   str!"inner", str!"left", str!"right", str!"full", str!"cross", str!"outer", str!"each", str!"union",
   str!"intersect", str!"except", str!"all"]

/-- Words that divide a CASE expression. -/
def caseWords : List Str := [str!"when", str!"then", str!"else"]

/-- Words that are not names of columns, tables or functions. -/
def reserved : List Str :=
  stopWords ++ caseWords ++
  [str!"case", str!"end", str!"select", str!"by", str!"distinct", str!"rollup", str!"and", str!"or",
   str!"not", str!"is", str!"like", str!"in", str!"contains", str!"between", str!"null", str!"true",
   str!"false", str!"yes", str!"no", str!"over", str!"filter", str!"replace", str!"cast", str!"count",
   str!"array_agg", str!"timestamp_trunc",
   str!"=", str!">", str!"<", str!"<=", str!">=", str!"!=", str!"<>", str!"'", str!"\"", str!"`", str!")", str!"]"]

/-- A name: no separators, no number, no reserved word, no operator. -/
def ident (s : Str) : Bool :=
  !s.isEmpty &&
  s.all (fun c => !isQuote c && !isBlank c && !isPunct c && c ≠ '.' && c ≠ '\\') &&
  !isDigits s && decide (lower s ∉ reserved) && !opens s &&
  decide (s ∉ [str!"&", str!"^", str!"#"])

/-- A name of a function or type: case does not matter, so it is given in lower case. -/
def fname (s : Str) : Bool := ident s && s.all isAscii && decide (s.map Char.toLower = s)

/-- Words that are names of functions too, but only at the beginning of an argument of a call or of an element of parentheses or
brackets: anywhere else the parser takes them for clauses. -/
def innerCalls : List Str := [str!"offset", str!"left", str!"right"]

/-- Words that are names of functions, but not of columns or tables. -/
def outerCalls : List Str := [str!"replace", str!"timestamp_trunc"]

/-- The name of a function that is called. -/
def cname (s : Str) : Bool := fname s || decide (s ∈ outerCalls ++ innerCalls)

/-- The text between two quotes `q`: with at most one quote of the same kind, which is escaped, and not ending in a backslash; `esc` tells
whether the previous character is a backslash, `used` whether there was an escaped quote. -/
def inside (q : Str) : (esc used : Bool) → Str → Bool
  | esc, _, [] => !esc
  | esc, used, c :: cs =>
    if [c] = q then esc && !used && inside q false true cs else inside q (c = '\\') used cs

/-- The content of a literal in quotes `q`: on one line, see `inside`, and not just a word or quote that the parser looks for between
other tokens. -/
def content (q s : Str) : Bool :=
  (s.all (fun c => c ≠ '\n') && inside q false false s) && !Scan.isDelim s &&
    decide (lower s ∉ stopWords ++ caseWords ++ [str!"timestamp_trunc", str!")", str!"]", str!"'", str!"\"", str!"`"])

/-! ### Kinds of trees -/

/-- The token in lower case, a number as `0`. -/
def Tok.word : Tok → Str
  | .kw w => w
  | .lit s => s
  | .num _ => str!"0"

/-- No comma outside parentheses; the number counts the open ones. -/
def commaFree : Int → List Tok → Bool
  | _, [] => true
  | d, k :: ks =>
    !(decide (d = 0) && decide (k.word = str!",")) &&
      commaFree (if k.word = str!"(" then d + 1 else if k.word = str!")" then d - 1 else d) ks

/-- A statement that can stand in parentheses. -/
def isSubquery : Node → Bool
  | .select _ _ _ _ _ _ _ _ _ _ _ semi => !semi
  | _ => false

/-- A statement that can stand in parentheses after FROM or after the AS of a WITH: a sub-query, or WITH and a
sub-query. -/
def isQuery : Node → Bool
  | .withStmt _ s => isSubquery s
  | n => isSubquery n

/-- A column other than `*`. -/
def isCol : Node → Bool
  | .column v => decide (v ≠ str!"*")
  | _ => false

/-- An alias written without AS, or an alias of a table. -/
def isRaw : Node → Bool
  | .raw _ => true
  | _ => false

/-- A literal without a prefix. -/
def isLit : Node → Bool
  | .string _ _ none => true
  | _ => false

/-- The alias of an expression: a name or, after AS, a literal. -/
def isAlias (al : Node) (withAs : Bool) : Bool := if withAs then isCol al || isLit al else isRaw al

mutual

/-- How tightly the parts of an expression are bound:
0 atoms, 1 with arithmetic, NOT and indices of anything but columns, 2 conditions and bitwise operators, 3 with AND
and OR, 4 with an alias, EXCEPT or REPLACE, and raw strings, 5 sub-queries without parentheses, parts of dates and calls of `innerCalls`
(arguments of calls and contents of parentheses and brackets), 9 for everything else.

A sub-query in an expression is written without commas outside parentheses, because the code splits at
every such comma. -/
def level : Node → Nat
  | .column _ | .chained .. | .int _ | .float _ | .string _ _ none | .null | .bool _ | .count .. | .cast ..
  | .case .. | .array _ | .arrayAgg .. | .filtered .. | .analytics .. => 0
  | .func f _ => if f ∈ innerCalls then 5 else 0
  | .index e _ => if isCol e then 0 else 1
  | .string _ _ (some _) => 4
  | .paren args => if levels args ≤ 5 then 0 else 9
  | .arith .. | .neg _ => 1
  | .cond .. | .bitwise .. => 2
  | .boolc .. => 3
  | .alias e al withAs => if level e ≤ 3 && isAlias al withAs then 4 else 9
  | .except_ .. | .replace .. => 4
  | .datePart .. => 5
  | n@(.select ..) => if isSubquery n && commaFree 0 (toks n) then 5 else 9
  | _ => 9

/-- The loosest of the elements. -/
def levels : List Node → Nat
  | [] => 0
  | n :: ns => max (level n) (levels ns)

end

/-- A name, possibly with an index, or a literal, as a part of a dotted path. -/
def isName : Node → Bool
  | .column _ | .string _ _ none => true
  | .index e _ => isCol e
  | _ => false

/-- The rest of a dotted path. -/
def isChain : Node → Bool
  | .column _ | .string _ _ none | .chained .. => true
  | .index e _ => isCol e
  | _ => false

/-- `*`, or a dotted path that ends in it. -/
def isStar : Node → Bool
  | .column v => decide (v = str!"*")
  | .chained _ r => isStar r
  | _ => false

/-- A call that may stand anywhere. -/
def isCall : Node → Bool
  | .func f _ => decide (f ∉ innerCalls)
  | .count .. | .cast .. | .arrayAgg .. => true
  | _ => false

/-- What may be followed by several indices: the first index of a column, calls, parentheses, arrays. -/
def indexable : Node → Bool
  | .func f _ => decide (f ∉ innerCalls)
  | .index .. | .count .. | .cast .. | .arrayAgg .. | .filtered .. | .array _ => true
  | .paren args => decide (levels args ≤ 5)
  | _ => false

/-- A call that may have a FILTER. -/
def isFunction : Node → Bool
  | .filtered .. => true
  | n => isCall n

/-- The name UNNEST, possibly with an index. -/
def unnestName : Node → Bool
  | .column v | .index (.column v) _ => decide (lower v = str!"unnest")
  | _ => false

/-- The name of a table. -/
def isPath : Node → Bool
  | .column v => decide (v ≠ str!"*") && decide (lower v ≠ str!"unnest")
  | .string _ _ none => true
  | .chained l _ => !unnestName l
  | _ => false

/-- The name begins with a quote. -/
def quoted : Node → Bool
  | .string .. => true
  | .chained l _ => l.isString
  | _ => false

def isJoin : Node → Bool
  | .join .. => true
  | _ => false

/-- Queries combined by UNION, INTERSECT or EXCEPT. -/
def isSet : Node → Bool
  | .combined .. => true
  | _ => false

/-- A call of UNNEST. -/
def isUnnestCall : Node → Bool
  | .func f _ => decide (f = str!"unnest")
  | _ => false

/-- A call of UNNEST, possibly with an alias. -/
def isUnnest : Node → Bool
  | .alias e al _ => isUnnestCall e && isRaw al
  | n => isUnnestCall n

mutual

/-- A table, UNNEST, a sub-query, or anything else of FROM in parentheses; possibly with an alias. -/
def isSource : Node → Bool
  | .table .. | .unnest .. => true
  | .paren args => isGroup args
  | .alias e al _ => isWhole e && isRaw al
  | _ => false

/-- A table whose name begins with a quote or is in brackets, or parentheses: an alias belongs to the whole. -/
def isWhole : Node → Bool
  | .table v square => square || quoted v
  | .paren args => isGroup args
  | _ => false

/-- What may stand in parentheses after FROM. -/
def isGroup : List Node → Bool
  | [f] => isQuery f || isJoin f || isSource f || isSet f
  | _ => false

end

/-- What can be the left side of a join: a source, or a join with a condition. -/
def isLeft : Node → Bool
  | .join _ _ _ on using_ => on.truthy || using_.truthy
  | n => isSource n

/-- Joins and sources. -/
def isFrom (n : Node) : Bool := isJoin n || isSource n

/-- What can stand after FROM. -/
def isBody (n : Node) : Bool := isFrom n || isSet n

/-- The right side of a join that may have a condition: sources joined without conditions, since the first ON or USING
belongs to the join itself. -/
def plainFrom : Node → Bool
  | .join _ l r on using_ => isSource l && plainFrom r && !on.truthy && !using_.truthy
  | n => isSource n

/-- `.none`, or of the given kind. -/
def orNone (p : Node → Bool) : Node → Bool
  | .none => true
  | n => p n

def isOn : Node → Bool
  | .on _ => true
  | _ => false
def isUsing : Node → Bool
  | .using_ (.paren _) => true
  | _ => false
def isWhere : Node → Bool
  | .where_ _ => true
  | _ => false
def isGroupBy : Node → Bool
  | .groupBy .. => true
  | _ => false
def isHaving : Node → Bool
  | .having _ => true
  | _ => false
def isOrderBy : Node → Bool
  | .orderBy _ => true
  | _ => false
def isOrderItem : Node → Bool
  | .orderItem .. => true
  | _ => false
def isLimit : Node → Bool
  | .limit .. => true
  | _ => false
def isOffset : Node → Bool
  | .offset _ => true
  | _ => false
def isWhen : Node → Bool
  | .whenThen .. => true
  | _ => false
def isExcept : Node → Bool
  | .except_ .. => true
  | _ => false
def isFrame : Node → Bool
  | .frame .. => true
  | _ => false
/-- An element of REPLACE: with a name after AS. -/
def isNamed : Node → Bool
  | .alias _ al withAs => withAs && isCol al
  | _ => false
def isTypeName : Node → Bool
  | .type _ => true
  | _ => false
def isNeg : Node → Bool
  | .neg _ => true
  | _ => false
def isWithQuery : Node → Bool
  | .withQuery .. => true
  | _ => false

/-- Not `* EXCEPT` or `* REPLACE`. -/
def isItem : Node → Bool
  | .except_ .. | .replace .. => false
  | _ => true

/-- A query without parentheses after a set operator: only SELECT and FROM. -/
def isBare : Node → Bool
  | .select es all _ on f w g h o l off semi =>
    !all && on.isEmpty && es.all isItem && orNone isFrom f && !w.truthy && !g.truthy && !h.truthy && !o.truthy &&
      !l.truthy && !off.truthy && !semi
  | _ => false

/-- Both bounds of BETWEEN. -/
def isRange : Node → Bool
  | .boolc p lo hi => decide (p = str!"and") && decide (level lo ≤ 1) && decide (level hi ≤ 1)
  | _ => false

/-- Predicates with two operands. -/
def corePreds : List Str :=
  [str!"=", str!">", str!"<", str!"<=", str!">=", str!"!=", str!"<>", str!"is", str!"is not",
   str!"like", str!"in", str!"not in", str!"contains"]

/-- Quotes. -/
def marks : List Str := [str!"'", str!"\"", str!"`"]

/-- Parts of dates. -/
def parts : List Str :=
  [str!"microsecond", str!"second", str!"minute", str!"hour", str!"day", str!"week", str!"month",
   str!"quarter", str!"year", str!"second_microsecond", str!"minute_microsecond",
   str!"minute_second", str!"hour_microsecond", str!"hour_second", str!"hour_minute",
   str!"day_microsecond", str!"day_second", str!"day_minute", str!"day_hour", str!"year_month",
   str!"dayofmonth", str!"dayofweek", str!"dayofyear", str!"date"]

/-- Bitwise operators. -/
def bitOps : List Str := [str!"&", str!"|", str!"^", str!"||", str!"<<", str!">>", str!"#"]

/-- Arithmetic operators. -/
def arithOps : List Str := [str!"+", str!"-", str!"*", str!"/"]

/-- Connectives of conditions. -/
def connectives : List Str := [str!"and", str!"or"]

/-- The words of window frames. -/
def frameWords : List Str :=
  [str!"unbounded", str!"preceding", str!"following", str!"current", str!"row", str!"between", str!"and"]

/-- A word of a window frame, or a number. -/
def frameWord (w : Str) : Bool := decide (w ∈ frameWords) || (!w.isEmpty && w.all Char.isDigit)

/-- Digits and one dot between them. -/
def isDecimal (s : Str) : Bool :=
  s.all (fun c => c.isDigit || decide (c = '.')) && decide (s.count '.' = 1) && decide (s.head? ≠ some '.') &&
    decide (s.getLast? ≠ some '.')

/-- The words are not among the tokens. -/
def absent (ws : List Str) (ks : List Tok) : Bool :=
  ks.all fun k => match k with
    | .kw w => decide (w ∉ ws)
    | .lit s => decide (lower s ∉ ws)
    | .num _ => true

mutual

/-- The parts of the tree stand where they may stand. -/
def wf : Node → Bool
  | .none | .null | .bool _ => true
  | .raw s => ident s
  | .column v => ident v || decide (v = str!"*")
  | .chained l r => isName l && isChain r && wf l && wf r
  | .int i => decide ((Str.ofNat i.natAbs).length ≤ 4300)
  | .float r => isDecimal (unsigned r) && decide (E.floatStr (unsigned r) = some (unsigned r))
  | .string v q pre => (match pre with | none => true | some p => decide (p ∈ [str!"r", str!"R"])) && decide (q ∈ marks) && content q v
  | .type v => fname v
  | .func f args =>
    (cname f && absent [str!"timestamp_trunc"] (toksList args)) && decide (levels args ≤ 5) && wfList args
  | .count args _ => decide (levels args ≤ 5) && wfList args
  | .cast c t => decide (level c ≤ 1) && isTypeName t && wf c && wf t
  | .paren args => (decide (levels args ≤ 5) || isGroup args) && wfList args
  | .array args => decide (levels args ≤ 5) && wfList args
  | .index e is => (isCol e || indexable e) && decide (levels is ≤ 5) && wf e && wfList is
  | .arrayAgg c _ _ respect o l =>
    decide (level c ≤ 3) && wf c && absent [str!"ignore", str!"respects"] (toks c) && !respect && orNone isOrderBy o &&
      wf o && (match l with
        | none => true
        | some i => decide (0 < i) && decide ((Str.ofNat i.natAbs).length ≤ 4300))
  | .filtered c w => isCall c && decide (level w ≤ 3) && wf c && wf w
  | .frame r f => decide (r ∈ [str!"rows", str!"range"]) && (words f).all frameWord
  | .analytics f part o fr =>
    isFunction f && wf f && decide (levels part ≤ 4) && wfList part &&
      absent [str!"rows", str!"range"] (toksList part) && orNone isOrderBy o && wf o &&
      absent [str!"rows", str!"range"] (toks o) && orNone isFrame fr && wf fr
  | .datePart part e => decide (part ∈ parts) && decide (level e ≤ 3) && wf e
  | .except_ e args => isStar e && !args.isEmpty && decide (levels args ≤ 4) && wf e && wfList args
  | .replace e args =>
    (isStar e || isExcept e) && !args.isEmpty && decide (levels args ≤ 4) && args.all isNamed && wf e && wfList args
  | .bitwise l op r => decide (op ∈ bitOps) && decide (level l ≤ 1) && decide (level r ≤ 1) && wf l && wf r
  | .arith op l r => decide (op ∈ arithOps) && decide (level l = 0) && decide (level r ≤ 1) && wf l && wf r
  | .neg e => decide (level e ≤ 1) && wf e
  | .cond l p r =>
    decide (level l ≤ 1) && wf l && wf r &&
      (if p = str!"between" then isRange r
       else decide (p ∈ corePreds) && decide (level r ≤ 1) && !(decide (p = str!"is") && isNeg r))
  | .boolc p l r => decide (p ∈ connectives) && decide (level l ≤ 2) && decide (level r ≤ 3) && wf l && wf r
  | .whenThen w t => decide (level w ≤ 3) && decide (level t ≤ 2) && wf w && wf t
  | .case o ws e =>
    (!o.truthy || decide (level o ≤ 3)) && decide ((toks o).head? ≠ some (.kw str!"case")) &&
      !ws.isEmpty && ws.all isWhen && (!e.truthy || decide (level e ≤ 3)) && wf o && wfList ws && wf e
  | .alias e al withAs =>
    ((decide (level e ≤ 3) && isAlias al withAs) || ((isWhole e || isUnnestCall e) && isRaw al)) && wf e && wf al
  | .table v square =>
    wf v &&
      (isPath v || match v with
        | .alias p al withAs => !square && isPath p && !quoted p && isAlias al withAs
        | _ => false)
  | .unnest v o oa al =>
    isUnnest v && wf v && (match al with
      | none => !oa
      | some a => o && ident a)
  | .combined op l r =>
    decide (op ∈ setOps.map (·.1)) && (isSource l || isSet l) && (isFrom r || isBare r) && wf l && wf r
  | .on e => decide (level e ≤ 3) && wf e
  | .using_ e => decide (level e = 0) && wf e
  | .join type l r on using_ =>
    isLeft l && wf l && wf r && wf on && wf using_ &&
      ((decide (type ∈ condJoins.map (·.1)) && plainFrom r &&
          ((isOn on && !using_.truthy) || (!on.truthy && isUsing using_) || (!on.truthy && !using_.truthy))) ||
       (decide (type ∈ crossJoins.map (·.1)) && isFrom r && !on.truthy && !using_.truthy))
  | .where_ e => decide (level e ≤ 3) && wf e
  | .groupBy args _ _ => !args.isEmpty && decide (levels args ≤ 2) && wfList args
  | .having e => decide (level e ≤ 3) && wf e
  | .orderItem v asc desc => decide (level v ≤ 2) && !(asc && desc) && wf v
  | .orderBy args => !args.isEmpty && args.all isOrderItem && wfList args
  | .limit all v => (if all then !v.truthy else decide (level v ≤ 2)) && wf v
  | .offset v => decide (level v ≤ 2) && wf v
  | .select es all d on f w g h o l off _ =>
    !es.isEmpty && decide (levels es ≤ 4) && wfList es && !(all && d) && (on.isEmpty || d) &&
      decide (levels on ≤ 2) && wfList on && orNone isBody f && wf f && orNone isWhere w && wf w &&
      orNone isGroupBy g && wf g && orNone isHaving h && wf h && orNone isOrderBy o && wf o &&
      orNone isLimit l && wf l && orNone isOffset off && wf off
  | .withQuery name q => ident name && isQuery q && wf q
  | .withStmt qs s => !qs.isEmpty && qs.all isWithQuery && wfList qs && s.isSelect && wf s

/-- `wf` of every element. -/
def wfList : List Node → Bool
  | [] => true
  | n :: ns => wf n && wfList ns

end

/-- What the token `b` may be after `a` if no literal holds a quote of another kind, or, given a kind of quote, if this is the kind of all
literals. -/
def follows (only : Option Char) (a b : Str) : Bool :=
  b.all fun c => !isQuote c || match only with
    | none => decide (b.length ≤ 1) || decide (a = [c])
    | some q => decide (b.length ≠ 1) || decide (c = q)

/-- Each token may follow the one before. -/
def chain (only : Option Char) : List Str → Bool
  | a :: b :: rest => follows only a b && chain only (b :: rest)
  | _ => true

/-- No literal holds a quote of another kind, or all literals have the same kind of quote. -/
def oneKind (ks : List Tok) : Bool := [none, some '\'', some '"', some '`'].any fun only => chain only (ks.map Tok.word)

/-- A statement of the core grammar. -/
def core (n : Node) : Bool :=
  wf n && (n.isSelect || match n with | .withStmt .. => true | _ => false) && oneKind (toks n)

/-- The statement ends in a semicolon. -/
def ended : Node → Bool
  | .select _ _ _ _ _ _ _ _ _ _ _ semi => semi
  | .withStmt _ s => ended s
  | _ => false

/-! ### Letter case

The parser keeps function names, types, predicates, AND and OR, window frames and parts of dates as they were
written; the printer turns them into upper case. -/

mutual

/-- The tree with these words in lower case. -/
def fold : Node → Node
  | .none => .none
  | .raw s => .raw s
  | .select es all d on f w g h o l off semi =>
    .select (foldList es) all d (foldList on) (fold f) (fold w) (fold g) (fold h) (fold o) (fold l) (fold off)
      semi
  | .where_ v => .where_ (fold v)
  | .groupBy args rollup each => .groupBy (foldList args) rollup each
  | .having v => .having (fold v)
  | .orderBy args => .orderBy (foldList args)
  | .orderItem v asc desc => .orderItem (fold v) asc desc
  | .limit all v => .limit all (fold v)
  | .offset v => .offset (fold v)
  | .withQuery name stmt => .withQuery name (fold stmt)
  | .withStmt qs s => .withStmt (foldList qs) (fold s)
  | .func name args => .func (name.map Char.toLower) (foldList args)
  | .cast c t => .cast (fold c) (fold t)
  | .count args d => .count (foldList args) d
  | .arrayAgg c d i r o l => .arrayAgg (fold c) d i r (fold o) l
  | .filtered c w => .filtered (fold c) (fold w)
  | .analytics f p o fr => .analytics (fold f) (foldList p) (fold o) (fold fr)
  | .frame r f => .frame (r.map Char.toLower) (f.map Char.toLower)
  | .column v => .column v
  | .chained l r => .chained (fold l) (fold r)
  | .type v => .type (v.map Char.toLower)
  | .datePart p e => .datePart (p.map Char.toLower) (fold e)
  | .string v q pre => .string v q pre
  | .int i => .int i
  | .float r => .float r
  | .null => .null
  | .bool b => .bool b
  | .paren args => .paren (foldList args)
  | .array args => .array (foldList args)
  | .alias e al withAs => .alias (fold e) (fold al) withAs
  | .index e is => .index (fold e) (foldList is)
  | .arith op l r => .arith op (fold l) (fold r)
  | .bitwise l op r => .bitwise (fold l) op (fold r)
  | .table v sq => .table (fold v) sq
  | .unnest v o oa al => .unnest (fold v) o oa al
  | .join type l r on using_ => .join type (fold l) (fold r) (fold on) (fold using_)
  | .combined op l r => .combined op (fold l) (fold r)
  | .on v => .on (fold v)
  | .using_ v => .using_ (fold v)
  | .cond l p r => .cond (fold l) (p.map Char.toLower) (fold r)
  | .boolc p l r => .boolc (p.map Char.toLower) (fold l) (fold r)
  | .neg e => .neg (fold e)
  | .except_ e args => .except_ (fold e) (foldList args)
  | .replace e args => .replace (fold e) (foldList args)
  | .whenThen w t => .whenThen (fold w) (fold t)
  | .case o ws e => .case (fold o) (foldList ws) (fold e)

/-- `fold` of every element. -/
def foldList : List Node → List Node
  | [] => []
  | n :: ns => fold n :: foldList ns

end

end SqlV.Core
