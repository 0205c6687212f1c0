import Verif.Tokeniser

/-!
# `sqlvalidator/grammar/lexer.py`

Each `parse` function is written over a record `Rec` of the functions it may call recursively, and
`parsers n` ties the knot `n` levels deep.  Loops whose body calls a parser are recursive calls as well.
`Res.diverge` means that `n` was too small; `Verif/Termination.lean` shows how large is large enough.
-/

namespace SqlV

/-- A parser: consumes tokens from a generator. -/
def P (α : Type) := Stream → Res (α × Stream)

namespace P

/-- A parser that consumes nothing. -/
def pure (a : α) : P α := fun s => .ok (a, s)

/-- Sequencing; exceptions and divergence propagate. -/
def bind (p : P α) (f : α → P β) : P β := fun s =>
  match p s with
  | .ok (a, s') => f a s'
  | .err e => .err e
  | .diverge => .diverge

instance : Monad P where
  pure := P.pure
  bind := P.bind

/-- `raise e` -/
def raise (e : PyErr) : P α := fun _ => .err e

/-- `assert c` -/
def assert (c : Bool) : P Unit := if c then pure () else raise .assertion

/-- Run `p` on `iter(l)`, leaving the current generator alone. -/
def sub (l : List Str) (p : P α) : P α := fun s =>
  match p ⟨l, none⟩ with
  | .ok (a, _) => .ok (a, s)
  | .err e => .err e
  | .diverge => .diverge

/-- `try: p except ParsingError: q` -/
def orElseParsing (p q : P α) : P α := fun s =>
  match p s with
  | .err (.parsing _) => q s
  | r => r

end P

/-- `next(tokens, None)` -/
def next? : P (Option Str) := fun s =>
  match s.toks, s.fail with
  | t :: ts, _ => .ok (some t, { s with toks := ts })
  | [], some e => .err e
  | [], none => .ok (none, s)

/-- `next(tokens)` -/
def next! : P Str := fun s =>
  match s.toks, s.fail with
  | t :: ts, _ => .ok (t, { s with toks := ts })
  | [], some e => .err e
  | [], none => .err .stopIteration

/-- Python truth of an optional string. -/
def truthy? : Option Str → Bool
  | none => false
  | some s => !s.isEmpty

/-- After a scan that ran into the end of the generator, the generator may raise. -/
def afterScan (stopped : Bool) (rest : List Str) (a : α) : P α := fun s =>
  if stopped then .ok (a, { s with toks := rest })
  else match s.fail with
    | some e => .err e
    | none => .ok (a, { s with toks := rest })

variable [E : PyEnv]

/-- `get_tokens_until_closing_parenthesis(tokens, first_token)`, tokeniser.py 28-40 -/
def untilClosing (first : Option Str := none) : P (List Str) := fun s =>
  let input := match first with
    | some f => if f.isEmpty then s.toks else f :: s.toks
    | none => s.toks
  let r := scanClosing 0 input
  afterScan r.2.1 r.2.2 r.1 s

/-- `get_tokens_until_one_of(tokens, stop_words, first_token, keep)`, tokeniser.py 43-76 -/
def untilOneOf (stop : List Str) (first : Option Str := none) (keep : List (Str × Str) := []) :
    P (List Str × Option Str) := fun s =>
  let r := scanOneOf stop keep first (Depth.init first) s.toks
  afterScan r.2.1.isSome r.2.2 (first.toList ++ r.1, r.2.1) s

/-- `get_tokens_until_not_in(tokens, kept_words, first_token)`, tokeniser.py 79-86 -/
def untilNotIn (kept : List Str) (first : Option Str := none) : P (List Str × Option Str) := fun s =>
  let r := scanNotIn kept s.toks
  afterScan r.2.1.isSome r.2.2 (first.toList ++ r.1, r.2.1) s

/-! ### Word lists of `sql.py` -/

/-- `String.QUOTES`, sql.py 881 -/
def quotes : List Str := [str!"'", str!"\"", str!"`"]
/-- `String.PREFIXES`, sql.py 882 -/
def stringPrefixes : List Str := [str!"r"]
/-- `Boolean.TRUE_VALUES`, sql.py 943-946 -/
def trueValues : List Str := [str!"true", str!"yes"]
/-- `Boolean.FALSE_VALUES`, sql.py 947-950 -/
def falseValues : List Str := [str!"false", str!"no"]
/-- `Null.VALUES`, sql.py 929 -/
def nullValues : List Str := [str!"null"]
/-- `Type.VALUES`, sql.py 838 -/
def typeValues : List Str :=
  [str!"int", str!"float", str!"day", str!"month", str!"timestamp", str!"int64", str!"string",
   str!"date"]
/-- `DatePartExtraction.PARTS`, sql.py 845-870 -/
def dateParts : List Str :=
  [str!"microsecond", str!"second", str!"minute", str!"hour", str!"day", str!"week", str!"month",
   str!"quarter", str!"year", str!"second_microsecond", str!"minute_microsecond",
   str!"minute_second", str!"hour_microsecond", str!"hour_second", str!"hour_minute",
   str!"day_microsecond", str!"day_second", str!"day_minute", str!"day_hour", str!"year_month",
   str!"dayofmonth", str!"dayofweek", str!"dayofyear", str!"date"]
/-- `BitwiseOperation.OPERATORS`, sql.py 1130 -/
def bitOperators : List Str :=
  [str!"&", str!"|", str!"^", str!"||", str!"<<", str!">>", str!"#"]
/-- `Join.VALUES`, sql.py 1193 -/
def joinValues : List Str :=
  [str!"join", str!"inner", str!"left", str!"right", str!"full", str!"cross", str!"outer", str!",",
   str!"each"]
/-- `CombinedQueries.SET_OPERATORS`, sql.py 1340 -/
def setOperators : List Str := [str!"union", str!"intersect", str!"except", str!"all"]
/-- `Condition.PREDICATES`, sql.py 1399-1412 -/
def predicates : List Str :=
  [str!"=", str!">", str!"<", str!"<=", str!">=", str!"!=", str!"is", str!"like", str!"<>", str!"in",
   str!"not", str!"contains"]
/-- `BooleanCondition.PREDICATES`, sql.py 1452 -/
def boolPredicates : List Str := [str!"and", str!"or"]
/-- The four symbols of lexer.py 808. -/
def arithSymbols : List Str := [str!"+", str!"-", str!"*", str!"/"]
/-- `SelectStatementParser.keywords`, lexer.py 74 -/
def selectKeywords : List Str :=
  [str!";", str!"from", str!"where", str!"group", str!"having", str!"order", str!"limit",
   str!"offset"]

/-- `lower(next_token) == w` for an optional token. -/
def isWord (t : Option Str) (w : Str) : Bool := decide (lower? t = some w)

/-- `lower(next_token) in ws` for an optional token. -/
def inWords (t : Option Str) (ws : List Str) : Bool :=
  match t with
  | some t => decide (lower t ∈ ws)
  | none => false

/-- Keyword arguments of `ExpressionParser.parse`, lexer.py 546-554 -/
structure ExprArgs where
  isRightHand : Bool := false
  canBeType : Bool := false
  canAlias : Bool := true
  untilOneOf : List Str := []
  firstToken : Option Str := none
  isChainedColumns : Bool := false

/-- The functions that are called recursively. -/
structure Rec where
  /-- `SQLStatementParser.parse` -/
  stmt : P Node
  /-- `SelectStatementParser.parse` -/
  select : P Node
  /-- `FromStatementParser.parse` -/
  from_ : P Node
  /-- `ExpressionParser.parse` -/
  expr : ExprArgs → P (Node × Option Str)
  /-- `ExpressionListParser.parse` -/
  exprList : (canBeType : Bool) → P (List Node)
  /-- `while` loop of `OrderByParser.parse` -/
  orderLoop : Option Str → P (List Node)
  /-- `while` loop of `CaseParser.parse`: result `(when_then, else_expression)` -/
  caseLoop : Option Str → List Node → Node → P (List Node × Node)
  /-- `while` loop of `WithStatementParser.parse` -/
  withLoop : List Node → P (List Node)
  /-- set operator loop of `FromStatementParser.parse` -/
  setLoop : Node → Option Str → P (Node × Option Str)
  /-- join loop of `FromStatementParser.parse` -/
  joinLoop : Node → Option Str → P Node
  /-- `while next_token == "."` loops -/
  dotLoop : (untilOneOf : List Str) → Node → Option Str → P (Node × Option Str)
  /-- `while next_token == "["` loop -/
  indexLoop : Node → Option Str → P (Node × Option Str)

/-- The record with no fuel left. -/
def Rec.bot : Rec where
  stmt _ := .diverge
  select _ := .diverge
  from_ _ := .diverge
  expr _ _ := .diverge
  exprList _ _ := .diverge
  orderLoop _ _ := .diverge
  caseLoop _ _ _ _ := .diverge
  withLoop _ _ := .diverge
  setLoop _ _ _ := .diverge
  joinLoop _ _ _ := .diverge
  dotLoop _ _ _ _ := .diverge
  indexLoop _ _ _ := .diverge

/-- `StringParser.parse`, lexer.py 934-947 -/
def stringParser (startQuote : Str) (pre : Option Str := none) : P Node := do
  let content ← next?
  match content with
  | some c =>
    if c = startQuote then
      return .string [] startQuote pre
    else
      let endQuote ← next!
      if startQuote ≠ endQuote then P.raise .value
      else return .string c startQuote pre
  | none =>
    -- `next(tokens)` on an exhausted generator
    let _ ← next!
    P.raise .value

/-- `lexer.py 62-70`, `SQLStatementParser.parse` -/
def stmtF (r : Rec) : P Node := do
  let t ← next!
  if lower t = str!"select" then r.select
  else if lower t = str!"with" then do
    let qs ← r.withLoop []
    let s ← r.select
    return .withStmt qs s
  else P.raise (.parsing [])

/-- One round of the loop of `WithStatementParser.parse`, lexer.py 389-400, then the loop test. -/
def withLoopF (r : Rec) (acc : List Node) : P (List Node) := do
  let name ← next!
  let t ← next!
  P.assert (lower t = str!"as")
  let t ← next!
  P.assert (lower t = str!"(")
  let body ← untilClosing
  let stmt ← P.sub body r.stmt
  let acc := acc ++ [.withQuery name stmt]
  let sep ← next!
  if lower sep = str!"select" then return acc
  else r.withLoop acc

/-- `OrderByItemParser.parse`, lexer.py 464-479 -/
def orderItemF (r : Rec) : P Node := do
  let (ts, t) ← untilOneOf [str!"asc", str!"desc"]
  let (e, _) ← P.sub ts (r.expr {})
  return .orderItem e (isWord t str!"asc") (!isWord t str!"asc" && isWord t str!"desc")

/-- lexer.py 456-459 -/
def orderLoopF (r : Rec) (t : Option Str) : P (List Node) :=
  if truthy? t then do
    let (ts, t) ← untilOneOf [str!","]
    let item ← P.sub ts (orderItemF r)
    let rest ← r.orderLoop t
    return item :: rest
  else return []

/-- `OrderByParser.parse`, lexer.py 448-461 -/
def orderByF (r : Rec) : P Node := do
  let (ts, t) ← untilOneOf [str!","]
  let item ← P.sub ts (orderItemF r)
  let rest ← r.orderLoop t
  return .orderBy (item :: rest)

/-- `WhereClauseParser.parse`, lexer.py 412-420 -/
def whereF (r : Rec) : P (Node × Option Str) := do
  let (e, t) ← r.expr
    { canAlias := false
      untilOneOf := [str!"group", str!"having", str!"order", str!"limit", str!"offset", str!";"] }
  return (.where_ e, t)

/-- `HavingClauseParser.parse`, lexer.py 439-445 -/
def havingF (r : Rec) : P (Node × Option Str) := do
  let (e, t) ← r.expr
    { canAlias := false
      untilOneOf := [str!"order", str!"limit", str!"offset", str!";"] }
  return (.having e, t)

/-- `GroupByParser.parse`, lexer.py 423-436; `each` is set by the caller (lexer.py 131). -/
def groupByF (r : Rec) (each : Bool) : P Node := do
  let t ← next!
  let rollup := decide (lower t = str!"rollup")
  let (ts, _) ← untilOneOf [] (first := if rollup then none else some t)
  let es ← P.sub ts (r.exprList false)
  return .groupBy es rollup each

/-- `LimitClauseParser.parse`, lexer.py 482-495 -/
def limitF (r : Rec) : P Node := do
  let t ← next!
  if lower t = str!"all" then return .limit true .none
  else do
    let (ts, _) ← untilOneOf [] (first := some t)
    let (e, _) ← P.sub ts (r.expr {})
    return .limit false e

/-- `OffsetClauseParser.parse`, lexer.py 498-502 -/
def offsetF (r : Rec) : P Node := do
  let (e, _) ← r.expr {}
  return .offset e

/-- The part of the statement before the select list, lexer.py 78-97:
`(select_all, select_distinct, select_distinct_on, first_expression_token)`. -/
def selectHeadF (r : Rec) : P (Bool × Bool × List Node × Option Str) := do
  let t ← next!
  if lower t = str!"all" then return (true, false, [], none)
  else if lower t = str!"distinct" then do
    let t ← next!
    if lower t = str!"on" then do
      let _ ← next!
      let ts ← untilClosing
      let on ← P.sub ts (r.exprList false)
      return (false, true, on, none)
    else return (false, true, [], some t)
  else return (false, false, [], some t)

/-- `FROM` part, lexer.py 104-112 -/
def selectFromF (r : Rec) (t : Option Str) : P (Node × Option Str) :=
  if isWord t str!"from" then do
    let (ts, t) ← untilOneOf
      [str!"where", str!"group", str!"having", str!"order", str!"limit", str!"offset", str!";"]
      (keep := [(str!"with", str!"offset")])
    let f ← P.sub ts r.from_
    return (f, t)
  else return (.none, t)

/-- `WHERE` part, lexer.py 114-117 -/
def selectWhereF (r : Rec) (t : Option Str) : P (Node × Option Str) :=
  if isWord t str!"where" then whereF r else return (.none, t)

/-- `GROUP BY` part, lexer.py 119-133 -/
def selectGroupF (r : Rec) (t : Option Str) : P (Node × Option Str) :=
  if isWord t str!"group" then do
    let t ← next?
    let each := isWord t str!"each"
    let t ← if each then next? else pure t
    if !isWord t str!"by" then P.raise (.parsing str!"Missing BY after GROUP")
    else do
      let (ts, t) ← untilOneOf [str!"having", str!"order", str!"limit", str!"offset", str!";"]
      let g ← P.sub ts (groupByF r each)
      return (g, t)
  else return (.none, t)

/-- `HAVING` part, lexer.py 135-138 -/
def selectHavingF (r : Rec) (t : Option Str) : P (Node × Option Str) :=
  if isWord t str!"having" then havingF r else return (.none, t)

/-- `ORDER BY` part, lexer.py 140-149 -/
def selectOrderF (r : Rec) (t : Option Str) : P (Node × Option Str) :=
  if isWord t str!"order" then do
    let t ← next?
    if !isWord t str!"by" then P.raise (.parsing str!"Missing BY after ORDER")
    else do
      let (ts, t) ← untilOneOf [str!"limit", str!"offset", str!";"]
      let o ← P.sub ts (orderByF r)
      return (o, t)
  else return (.none, t)

/-- `LIMIT` part, lexer.py 151-157 -/
def selectLimitF (r : Rec) (t : Option Str) : P (Node × Option Str) :=
  if isWord t str!"limit" then do
    let (ts, t) ← untilOneOf [str!"offset", str!";"]
    let l ← P.sub ts (limitF r)
    return (l, t)
  else return (.none, t)

/-- `OFFSET` part, lexer.py 159-163 -/
def selectOffsetF (r : Rec) (t : Option Str) : P (Node × Option Str) :=
  if isWord t str!"offset" then do
    let (ts, t) ← untilOneOf [str!";"]
    let o ← P.sub ts (offsetF r)
    return (o, t)
  else return (.none, t)

/-- `SelectStatementParser.parse`, lexer.py 73-179 -/
def selectF (r : Rec) : P Node := do
  let (all, distinct, on, first) ← selectHeadF r
  let (ts, t) ← untilOneOf selectKeywords (first := first)
  let exprs ← P.sub ts (r.exprList false)
  let (f, t) ← selectFromF r t
  let (w, t) ← selectWhereF r t
  let (g, t) ← selectGroupF r t
  let (h, t) ← selectHavingF r t
  let (o, t) ← selectOrderF r t
  let (l, t) ← selectLimitF r t
  let (off, t) ← selectOffsetF r t
  return .select exprs all distinct on f w g h o l off (decide (t = some str!";"))

/-- The alias reading shared by lexer.py 228-237, 260-269, 302-311 and 339-348, reached when
`next_token` is a token `t`: the aliased expression and the new `next_token`. -/
def fromAlias (e : Node) (t : Str) : P (Node × Option Str) := do
  let withAs := decide (lower t = str!"as")
  let a ← if withAs then next! else pure t
  let alias ← if a ∈ quotes then stringParser a else pure (Node.raw a)
  let t ← next?
  return (.alias e alias withAs, t)

/-- `UnnestParser.parse`, lexer.py 323-380 -/
def unnestF (r : Rec) : P (Node × Option Str) := do
  let t ← next!
  P.assert (t = str!"(")
  let ts ← untilClosing
  let args ← P.sub ts (r.exprList false)
  let e := Node.func str!"unnest" args
  let t ← next?
  let (e, t) ← match t with
    | some tok =>
      if !inWords t joinValues && !inWords t setOperators && !isWord t str!"with" then fromAlias e tok
      else pure (e, t)
    | none => pure (e, t)
  if isWord t str!"with" then do
    let t ← next!
    P.assert (lower t = str!"offset")
    let t ← next?
    match t with
    | some tok =>
      if !inWords t joinValues && !inWords t setOperators then do
        if lower tok = str!"as" then do
          let a ← next!
          let t ← next?
          return (.unnest e true true (some a), t)
        else do
          let t ← next?
          return (.unnest e true false (some tok), t)
      else return (.unnest e true false none, t)
    | none => return (.unnest e true false none, t)
  else return (.unnest e false false none, t)

/-- The first operand of `FROM`, lexer.py 185-221 -/
def fromHeadF (r : Rec) : P (Node × Option Str) := do
  let t ← next!
  if t = str!"(" then do
    let ts ← untilClosing
    let arg ← P.orElseParsing (P.sub ts r.stmt) (P.sub ts r.from_)
    let t ← next?
    return (.paren [arg], t)
  else if t ∈ quotes then do
    let name ← stringParser t
    let t ← next?
    let (name, t) ← r.dotLoop [] name t
    return (.table name false, t)
  else if t = str!"[" then do
    let (ts, t) ← untilOneOf [str!"]"]
    let (table, _) ← P.sub ts (r.expr {})
    P.assert (t = some str!"]")
    let t ← next?
    return (.table table true, t)
  else if lower t = str!"unnest" then unnestF r
  else do
    let (ts, t) ← untilOneOf (joinValues ++ setOperators) (first := some t)
    let (e, _) ← P.sub ts (r.expr {})
    return (.table e false, t)

/-- `FromStatementParser.parse`, lexer.py 182-313 -/
def fromF (r : Rec) : P Node := do
  let (e, t) ← fromHeadF r
  let (e, t) ← match t with
    | some tok =>
      if !inWords t joinValues && !inWords t setOperators then fromAlias e tok else pure (e, t)
    | none => pure (e, t)
  let (e, t) ← r.setLoop e t
  r.joinLoop e t

/-- lexer.py 239-269 -/
def setLoopF (r : Rec) (left : Node) (t : Option Str) : P (Node × Option Str) :=
  if inWords t setOperators then do
    let (ops, t) ← untilNotIn setOperators (first := t)
    let op := E.upper (Str.join str!" " ops)
    let (ts, t) ← untilOneOf setOperators (first := t)
    match ts with
    | [] => P.raise .index
    | t0 :: trest => do
      let right ← if lower t0 = str!"select" then P.sub trest r.select else P.sub ts r.from_
      let e := Node.combined op left right
      let (e, t) ← match t with
        | some tok => if !inWords t setOperators then fromAlias e tok else pure (e, t)
        | none => pure (e, t)
      r.setLoop e t
  else return (left, t)

/-- `list(tokens)` -/
def drain : P (List Str) := fun s =>
  match s.fail with
  | some e => .err e
  | none => .ok (s.toks, { s with toks := [] })

/-- The tokens of the right side of a join, lexer.py 278-283.  When nothing follows a CROSS JOIN or a
comma the Python code builds `[None]`, and the parser called on it raises `StopIteration`
(lexer.py 185-221 with `next_token = None`), exactly as it does on an empty list. -/
def joinTokens (type : Str) (t : Option Str) : P (List Str × Option Str) :=
  if type = str!"CROSS JOIN" ∨ type = str!"," then do
    let ts ← drain
    return (t.toList ++ (if t.isNone then [] else ts), none)
  else untilOneOf [str!"on", str!"using"] (first := t)

/-- lexer.py 271-311 -/
def joinLoopF (r : Rec) (left : Node) (t : Option Str) : P Node :=
  if inWords t joinValues then do
    let (ops, t) ← untilNotIn joinValues (first := t)
    let type := E.upper (Str.join str!" " ops)
    let (ts, onOrUsing) ← joinTokens type t
    let right ← P.sub ts r.from_
    let (ts, t) ← untilOneOf joinValues
    let (on, using_) ←
      if isWord onOrUsing str!"on" then do
        let (e, _) ← P.sub ts (r.expr {})
        pure (Node.on e, Node.none)
      else if isWord onOrUsing str!"using" then do
        let (e, _) ← P.sub ts (r.expr {})
        pure (Node.none, Node.using_ e)
      else pure (Node.none, Node.none)
    let e := Node.join type left right on using_
    let (e, t) ← match t with
      | some tok => if !inWords t joinValues then fromAlias e tok else pure (e, t)
      | none => pure (e, t)
    r.joinLoop e t
  else return left

/-- State of the splitting loop of `ExpressionListParser.parse`, lexer.py 512-514. -/
structure ListState where
  paren : Int
  square : Int
  inString : Bool

/-- lexer.py 517-526 -/
def ListState.step (d : ListState) (t : Str) : ListState :=
  if t = str!"(" then { d with paren := d.paren + 1 }
  else if t = str!")" then { d with paren := d.paren - 1 }
  else if t = str!"[" then { d with square := d.square + 1 }
  else if t = str!"]" then { d with square := d.square - 1 }
  else if t ∈ quotes then { d with inString := !d.inString }
  else d

/-- The token groups that `ExpressionListParser.parse` hands to `ExpressionParser`, lexer.py 515-540.
`acc` is `expression_tokens`; the list is `next_token` followed by the rest of the generator.  A group
is parsed before the next one is read; since the generator is a list iterator, splitting first is
equivalent.  After a comma the next token is appended unconditionally (540, 516), so `a,,b` yields the
groups `a` and `,b`. -/
def splitGroups (d : ListState) (acc : List Str) : List Str → List (List Str)
  | [] => []
  | [t] => [acc ++ [t]]
  | t :: n :: rest =>
    let d' := d.step t
    if n = str!"," ∧ d'.paren = 0 ∧ d'.square = 0 ∧ d'.inString = false then
      (acc ++ [t]) :: splitGroups d' [] rest
    else splitGroups d' (acc ++ [t]) (n :: rest)

/-- Parse each group in turn, ignoring the token left over. -/
def parseGroups (r : Rec) (canBeType : Bool) : List (List Str) → P (List Node)
  | [] => return []
  | g :: gs => do
    let (e, _) ← P.sub g (r.expr { canBeType := canBeType })
    let es ← parseGroups r canBeType gs
    return e :: es

/-- `ExpressionListParser.parse`, lexer.py 505-541 (always called on a list iterator). -/
def exprListF (r : Rec) (canBeType : Bool) : P (List Node) := do
  let ts ← drain
  parseGroups r canBeType (splitGroups ⟨0, 0, false⟩ [] ts)

/-- `CaseParser.parse`, lexer.py 950-977 -/
def caseF (r : Rec) : P Node := do
  let t ← next!
  let (operand, t) ←
    if lower t = str!"when" then pure (Node.none, some t)
    else do
      let (ts, t') ← untilOneOf [str!"when"] (first := some t)
      let (e, _) ← P.sub ts (r.expr {})
      pure (e, t')
  let (whens, els) ← r.caseLoop t [] .none
  return .case operand whens els

/-- lexer.py 964-975 -/
def caseLoopF (r : Rec) (t : Option Str) (whens : List Node) (els : Node) : P (List Node × Node) :=
  if truthy? t then
    if isWord t str!"when" then do
      let (ts, _) ← untilOneOf [str!"then"]
      let (w, _) ← P.sub ts (r.expr {})
      let (ts, t) ← untilOneOf [str!"when", str!"else"]
      let (th, _) ← P.sub ts (r.expr {})
      r.caseLoop t (whens ++ [.whenThen w th]) els
    else if isWord t str!"else" then do
      let (ts, t) ← untilOneOf []
      let (e, _) ← P.sub ts (r.expr {})
      r.caseLoop t whens e
    else r.caseLoop t whens els
  else return (whens, els)

/-- `int(s)` -/
def toIntP (s : Str) : P Int :=
  match E.toInt s with
  | some i => return i
  | none => P.raise .value

/-- `str(float(s))` -/
def floatStrP (s : Str) : P Str :=
  match E.floatStr s with
  | some f => return f
  | none => P.raise .value

/-- Expressions recognised by their first token, lexer.py 560-599: `(expression, next_token)`. -/
def primaryF (r : Rec) (a : ExprArgs) (main : Str) : P (Option Node × Option Str) :=
  if main ∈ quotes then do
    let e ← stringParser main
    return (some e, none)
  else if isDigits main then do
    let i ← toIntP main
    return (some (.int i), none)
  else if isDottedDigits main then do
    let f ← floatStrP main
    return (some (.float f), none)
  else if lower main ∈ trueValues ++ falseValues then
    return (some (.bool (decide (lower main ∈ trueValues))), none)
  else if lower main ∈ nullValues then return (some .null, none)
  else if lower main = str!"not" then do
    let (e, t) ← r.expr { isRightHand := true, untilOneOf := a.untilOneOf }
    return (some (.neg e), t)
  else if main = str!"(" then do
    let ts ← untilClosing
    let args ← P.sub ts (r.exprList false)
    return (some (.paren args), none)
  else if main = str!"[" then do
    let (ts, t) ← untilOneOf [str!"]"]
    P.assert (t = some str!"]")
    let args ← P.sub ts (r.exprList false)
    let t ← next?
    return (some (.array args), t)
  else if lower main = str!"case" then do
    let (ts, t) ← untilOneOf [str!"end"]
    P.assert (isWord t str!"end")
    let t ← next?
    let e ← P.sub ts (caseF r)
    return (some e, t)
  else if lower main = str!"select" then do
    let (ts, _) ← untilOneOf []
    let t ← next?
    let e ← P.sub ts r.select
    return (some e, t)
  else return (none, none)

/-- `CAST(...)`, lexer.py 607-621 -/
def castF (r : Rec) (a : ExprArgs) : P Node := do
  let (ts, t) ← untilOneOf [str!"as"]
  let (column, _) ← P.sub ts (r.expr { isRightHand := true, untilOneOf := a.untilOneOf })
  P.assert (isWord t str!"as")
  let type ← next!
  let t ← next!
  P.assert (lower t = str!")")
  return .cast column (.type type)

/-- `ARRAY_AGG(...)`, lexer.py 622-676.  The stop word is `respects` but the test is for `respect`. -/
def arrayAggF (r : Rec) (a : ExprArgs) : P Node := do
  let t ← next!
  let distinct := decide (lower t = str!"distinct")
  let (ts, t) ← untilOneOf [str!")", str!"ignore", str!"respects", str!"order", str!"limit"]
    (first := if distinct then none else some t)
  let (column, _) ← P.sub ts (r.expr { untilOneOf := a.untilOneOf })
  let (ignore, respect, t) ←
    if isWord t str!"ignore" then do
      let t ← next!
      P.assert (lower t = str!"nulls")
      let t ← next!
      pure (true, false, some t)
    else if isWord t str!"respect" then do
      let t ← next!
      P.assert (lower t = str!"nulls")
      let t ← next!
      pure (false, true, some t)
    else pure (false, false, t)
  let (order, t) ←
    if isWord t str!"order" then do
      let t ← next!
      P.assert (lower t = str!"by")
      let (ts, t) ← untilOneOf [str!"limit", str!")"]
      let o ← P.sub ts (orderByF r)
      pure (o, t)
    else pure (Node.none, t)
  let (limit, t) ←
    if isWord t str!"limit" then do
      let t ← next!
      let i ← toIntP t
      let t ← next!
      pure (some i, some t)
    else pure (none, t)
  P.assert (isWord t str!")")
  return .arrayAgg column distinct ignore respect order limit

/-- `COUNT(...)`, lexer.py 677-690 -/
def countF (r : Rec) : P Node := do
  let t ← next!
  let distinct := decide (lower t = str!"distinct")
  let ts ← untilClosing (first := if distinct then none else some t)
  let args ← P.sub ts (r.exprList false)
  return .count args distinct

/-- Any other call, lexer.py 691-699 -/
def callF (r : Rec) (a : ExprArgs) (name : Str) : P Node := do
  let ts ← untilClosing
  let canBeType := a.canBeType || ts.any fun t => decide (lower t = str!"timestamp_trunc")
  let args ← P.sub ts (r.exprList canBeType)
  return .func name args

/-- A call with its optional FILTER, lexer.py 606-713 (the parenthesis has been read). -/
def functionF (r : Rec) (a : ExprArgs) (main : Str) : P (Node × Option Str) := do
  let e ←
    if lower main = str!"cast" then castF r a
    else if lower main = str!"array_agg" then arrayAggF r a
    else if lower main = str!"count" then countF r
    else callF r a main
  let t ← next?
  if truthy? t && isWord t str!"filter" then do
    let t ← next!
    P.assert (t = str!"(")
    let ts ← untilClosing
    match ts with
    | [] => P.raise .index
    | w :: ws => do
      P.assert (lower w = str!"where")
      let (c, _) ← P.sub ws (r.expr { canAlias := false })
      let t ← next?
      return (.filtered e c, t)
  else return (e, t)

/-- Expressions that need the next token, lexer.py 604-754. -/
def secondaryF (r : Rec) (a : ExprArgs) (main : Str) (t : Option Str) : P (Node × Option Str) :=
  if t = some str!"(" then functionF r a main
  else if lower main ∈ dateParts ∧ isWord t str!"from" then do
    let (e, t) ← r.expr { untilOneOf := a.untilOneOf }
    return (.datePart main e, t)
  else if lower main ∈ typeValues ∧ a.canBeType then return (.type main, t)
  else if t = some str!"[" then do
    let (ts, _) ← untilOneOf [str!"]"]
    let args ← P.sub ts (r.exprList false)
    let t ← next?
    return (.index (.column main) args, t)
  else
    match t with
    | some tok =>
      if main = str!"-" ∧ isDigits tok then do
        let i ← toIntP tok
        let t ← next?
        return (.int (-i), t)
      else if main = str!"-" ∧ isDottedDigits tok then do
        let f ← floatStrP tok
        let t ← next?
        return (.float ('-' :: f), t)
      else if lower main ∈ stringPrefixes ∧ lower tok ∈ quotes then do
        let e ← stringParser tok (pre := some main)
        -- `next_token` still is the opening quote (lexer.py 750-752)
        return (e, t)
      else return (.column main, t)
    | none => return (.column main, t)

/-- `OVER (...)`, lexer.py 756-800 -/
def overF (r : Rec) (e : Node) (t : Option Str) : P (Node × Option Str) :=
  if isWord t str!"over" then do
    let t ← next?
    if t ≠ some str!"(" then P.raise (.parsing str!"expected '('")
    else do
      let ts ← untilClosing
      let (part, order, frame) ← P.sub ts do
        let t ← next?
        let (part, t) ←
          if isWord t str!"partition" then do
            let t ← next?
            if !isWord t str!"by" then P.raise (.parsing str!"Missing BY after PARTITION")
            else do
              let (ts, t) ← untilOneOf [str!"order", str!"rows", str!"range"]
              let es ← P.sub ts (r.exprList false)
              pure (es, t)
          else pure ([], t)
        let (order, t) ←
          if isWord t str!"order" then do
            let t ← next?
            if !isWord t str!"by" then P.raise (.parsing str!"Missing BY after ORDER")
            else do
              let (ts, t) ← untilOneOf [str!"rows", str!"range"]
              let o ← P.sub ts (orderByF r)
              pure (o, t)
          else pure (Node.none, t)
        let frame ← match t with
          | some tok =>
            if lower tok = str!"rows" ∨ lower tok = str!"range" then do
              let (ts, _) ← untilOneOf []
              pure (Node.frame tok (Str.join str!" " ts))
            else pure Node.none
          | none => pure Node.none
        pure (part, order, frame)
      let t ← next?
      return (.analytics e part order frame, t)
  else return (e, t)

/-- lexer.py 802-806 (and 197-202 with an empty `until_one_of`) -/
def dotLoopF (r : Rec) (until_ : List Str) (e : Node) (t : Option Str) : P (Node × Option Str) :=
  if t = some str!"." then do
    let (right, t) ← r.expr { untilOneOf := until_, isChainedColumns := true }
    r.dotLoop until_ (.chained e right) t
  else return (e, t)

/-- lexer.py 808-816 -/
def arithF (r : Rec) (a : ExprArgs) (e : Node) (t : Option Str) : P (Node × Option Str) :=
  match t with
  | some sym =>
    if sym ∈ arithSymbols ∧ !a.isChainedColumns then do
      let (right, t) ← r.expr { isRightHand := true, untilOneOf := a.untilOneOf }
      return (.arith sym e right, t)
    else return (e, t)
  | none => return (e, t)

/-- lexer.py 818-824 -/
def indexLoopF (r : Rec) (e : Node) (t : Option Str) : P (Node × Option Str) :=
  if t = some str!"[" then do
    let (ts, _) ← untilOneOf [str!"]"]
    let args ← P.sub ts (r.exprList false)
    let t ← next?
    r.indexLoop (.index e args) t
  else return (e, t)

/-- Conditions, lexer.py 829-873 -/
def condF (r : Rec) (a : ExprArgs) (e : Node) (t : Option Str) : P (Node × Option Str) :=
  match t with
  | none => return (e, t)
  | some tok =>
    if lower tok ∈ predicates then do
      let (symbol, first) ←
        if lower tok = str!"is" then do
          let n ← next!
          if lower n = str!"not" then pure (str!"is not", none) else pure (tok, some n)
        else if lower tok = str!"not" then do
          let n ← next!
          if lower n = str!"in" then pure (str!"not in", none) else pure (tok, some n)
        else pure (tok, none)
      let (right, t) ← r.expr
        { isRightHand := true, untilOneOf := a.untilOneOf, firstToken := first }
      return (.cond e symbol right, t)
    else if lower tok = str!"between" then do
      let (lo, t) ← r.expr { isRightHand := true, untilOneOf := a.untilOneOf }
      if !isWord t str!"and" then P.raise (.parsing str!"expected AND")
      else do
        let (hi, t) ← r.expr { isRightHand := true, untilOneOf := a.untilOneOf }
        return (.cond e tok (.boolc str!"and" lo hi), t)
    else if tok ∈ bitOperators then do
      let (right, t) ← r.expr { isRightHand := true, untilOneOf := a.untilOneOf }
      return (.bitwise e tok right, t)
    else return (e, t)

/-- AND / OR, lexer.py 875-888 -/
def boolF (r : Rec) (a : ExprArgs) (e : Node) (t : Option Str) : P (Node × Option Str) :=
  match t with
  | none => return (e, t)
  | some tok =>
    if lower tok ∈ boolPredicates then do
      let (right, t) ← r.expr { untilOneOf := a.untilOneOf }
      match right with
      | .alias e' al withAs => return (.alias (.boolc tok e e') al withAs, t)
      | _ => return (.boolc tok e right, t)
    else return (e, t)

/-- The parenthesised list after EXCEPT / REPLACE, lexer.py 891-895 and 900-904 -/
def starArgsF (r : Rec) : P (List Node) := do
  let t ← next?
  if t ≠ some str!"(" then P.raise (.parsing str!"expected '('")
  else do
    let ts ← untilClosing
    P.sub ts (r.exprList false)

/-- `EXCEPT (...)`, lexer.py 890-897 -/
def exceptF (r : Rec) (e : Node) (t : Option Str) : P (Node × Option Str) :=
  if isWord t str!"except" then do
    let args ← starArgsF r
    let t ← next?
    return (.except_ e args, t)
  else return (e, t)

/-- `isinstance(arg, Alias) and arg.with_as is True`, lexer.py 906-908 -/
def isAsAlias : Node → Bool
  | .alias _ _ withAs => withAs
  | _ => false

/-- `REPLACE (...)`, lexer.py 899-910 -/
def replaceF (r : Rec) (e : Node) (t : Option Str) : P (Node × Option Str) :=
  if isWord t str!"replace" then do
    let args ← starArgsF r
    P.assert (args.all isAsAlias)
    let t ← next?
    return (.replace e args, t)
  else return (e, t)

/-- Aliases, lexer.py 912-931 -/
def aliasF (r : Rec) (a : ExprArgs) (e : Node) (t : Option Str) : P (Node × Option Str) :=
  match t with
  | none => return (e, t)
  | some tok =>
    if tok ≠ str!")" ∧ ¬ (tok ∈ quotes ∧ e.isString) ∧ tok ≠ str!";" ∧ lower tok ∉ a.untilOneOf ∧
        a.canAlias then
      if lower tok = str!"as" then do
        let (al, _) ← r.expr { isRightHand := true, untilOneOf := a.untilOneOf }
        let t ← next?
        return (.alias e al true, t)
      else if tok ∈ quotes then do
        let al ← stringParser tok
        let t ← next?
        return (.alias e al false, t)
      else do
        let t ← next?
        return (.alias e (.raw tok) false, t)
    else return (e, t)

/-- What follows an operand unless it is a right-hand side, lexer.py 829-931 -/
def tailF (r : Rec) (a : ExprArgs) (e : Node) (t : Option Str) : P (Node × Option Str) := do
  let (e, t) ← condF r a e t
  let (e, t) ← boolF r a e t
  let (e, t) ← exceptF r e t
  let (e, t) ← replaceF r e t
  aliasF r a e t

/-- `main_token`, lexer.py 557: `first_token or next(tokens)` -/
def mainToken (a : ExprArgs) : P Str :=
  match a.firstToken with
  | some f => if f.isEmpty then next! else pure f
  | none => next!

/-- The expression before any OVER, dot, arithmetic operator or index, lexer.py 560-754: the expression
and the token after it. -/
def atomF (r : Rec) (a : ExprArgs) (main : Str) : P (Node × Option Str) := do
  let (e?, t) ← primaryF r a main
  let t ← match t with
    | none => next?
    | some _ => pure t
  match e? with
  | some e => pure (e, t)
  | none => secondaryF r a main t

/-- Operands, lexer.py 557-824 -/
def operandF (r : Rec) (a : ExprArgs) : P (Node × Option Str) := do
  let main ← mainToken a
  let (e, t) ← atomF r a main
  let (e, t) ← overF r e t
  let (e, t) ← r.dotLoop a.untilOneOf e t
  let (e, t) ← arithF r a e t
  r.indexLoop e t

/-- `ExpressionParser.parse`, lexer.py 544-931 -/
def exprF (r : Rec) (a : ExprArgs) : P (Node × Option Str) := do
  let (e, t) ← operandF r a
  if a.isRightHand || a.isChainedColumns then return (e, t)
  else tailF r a e t

/-- One level of all parsers. -/
def Rec.next (r : Rec) : Rec where
  stmt := stmtF r
  select := selectF r
  from_ := fromF r
  expr := exprF r
  exprList := exprListF r
  orderLoop := orderLoopF r
  caseLoop := caseLoopF r
  withLoop := withLoopF r
  setLoop := setLoopF r
  joinLoop := joinLoopF r
  dotLoop := dotLoopF r
  indexLoop := indexLoopF r

/-- The parsers with recursion depth at most `n`. -/
def parsers : Nat → Rec
  | 0 => Rec.bot
  | n + 1 => (parsers n).next

/-- `SQLStatementParser.parse(tokens)` with fuel `n`. -/
def parseAt (n : Nat) (s : Stream) : Res Node :=
  match (parsers n).stmt s with
  | .ok (e, _) => .ok e
  | .err e => .err e
  | .diverge => .diverge

/-- Fuel that always suffices, see `Verif/Termination.lean`. -/
def parseFuel (s : Stream) : Nat := 8 * s.toks.length + 16

/-- `SQLStatementParser.parse(tokens)` -/
def parse (s : Stream) : Res Node := parseAt (parseFuel s) s

end SqlV
