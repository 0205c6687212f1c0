import Verif.Spec.Core

/-!
# Small statements

What `SELECT w`, `SELECT a t b` and similar statements of a few tokens mean, for every token `w` or `t`.  The tables of
words are written out here and not shared with the parser.
-/

namespace SqlV.Words

open Core

/-- A statement with a select list only. -/
def sel (es : List Node) : Node := .select es false false [] .none .none .none .none .none .none .none false

/-- Words for TRUE. -/
def trueWords : List Str := [str!"true", str!"yes"]
/-- Words for FALSE. -/
def falseWords : List Str := [str!"false", str!"no"]
/-- Names of types that may be arguments. -/
def typeWords : List Str :=
  [str!"int", str!"float", str!"day", str!"month", str!"timestamp", str!"int64", str!"string", str!"date"]
/-- Words that stand between the operands of a condition. -/
def compareWords : List Str :=
  [str!"=", str!">", str!"<", str!"<=", str!">=", str!"!=", str!"is", str!"like", str!"<>", str!"in", str!"not",
   str!"contains"]
/-- Words that join tables. -/
def joinWords : List Str :=
  [str!"join", str!"inner", str!"left", str!"right", str!"full", str!"cross", str!"outer", str!",", str!"each"]
/-- Words that combine queries. -/
def setWords : List Str := [str!"union", str!"intersect", str!"except", str!"all"]

/-- A name that is not UNNEST, which after FROM must be called. -/
def plainName [E : PyEnv] (s : Str) : Bool := ident s && decide (lower s ≠ str!"unnest")

variable [E : PyEnv]

/-- The expression that is one token. -/
def word (w : Str) : Res Node :=
  if w ∈ marks then .err .stopIteration
  else if isDigits w then
    match E.toInt w with
    | some i => .ok (.int i)
    | none => .err .value
  else if isDigits (w.filter (· ≠ '.')) then
    match E.floatStr w with
    | some f => .ok (.float f)
    | none => .err .value
  else if lower w ∈ trueWords then .ok (.bool true)
  else if lower w ∈ falseWords then .ok (.bool false)
  else if lower w = str!"null" then .ok .null
  else if lower w = str!"not" ∨ lower w = str!"select" then .err .stopIteration
  else if w = str!"(" then .ok (.paren [])
  else if w = str!"[" ∨ lower w = str!"case" then .err .assertion
  else .ok (.column w)

/-- `SELECT w` -/
def selectWord (w : Str) : Res Node :=
  match word w with
  | .ok e => .ok (sel [e])
  | .err e => .err e
  | .diverge => .diverge

/-- The expression `a t b`, for names `a` and `b`.  Whatever is no operator is an alias, and then `b` is forgotten. -/
def infix_ (a t b : Str) : Res Node :=
  if t = str!"(" then .ok (.func a [.column b])
  else if t = str!"[" then .ok (.index (.column a) [.column b])
  else if t = str!"." then .ok (.chained (.column a) (.column b))
  else if t = str!")" then .ok (.column a)
  else if t ∈ marks then .err .stopIteration
  else if t ∈ arithOps then .ok (.arith t (.column a) (.column b))
  else if t ∈ bitOps then .ok (.bitwise (.column a) t (.column b))
  else if lower t ∈ compareWords then .ok (.cond (.column a) t (.column b))
  else if lower t ∈ connectives then .ok (.boolc t (.column a) (.column b))
  else if lower t = str!"from" ∧ lower a ∈ parts then .ok (.datePart a (.column b))
  else if lower t = str!"as" then .ok (.alias (.column a) (.column b) true)
  else if lower t = str!"between" then .err (.parsing str!"expected AND")
  else if lower t ∈ [str!"over", str!"except", str!"replace"] then .err (.parsing str!"expected '('")
  else .ok (.alias (.column a) (.raw t) false)

/-- `SELECT f(a t b)` -/
def selectCall (f a t b : Str) : Res Node :=
  match infix_ a t b with
  | .ok e => .ok (sel [.func f [e]])
  | .err e => .err e
  | .diverge => .diverge

/-- What a clause word `t` and the name `b` after the beginning of a statement mean: `none` if `t` is no such word. -/
def clause (t b : Str) (mk : (w h l o : Node) → (semi : Bool) → Node) : Option (Res Node) :=
  if t = str!";" then some (.ok (mk .none .none .none .none true))
  else if lower t = str!"where" then some (.ok (mk (.where_ (.column b)) .none .none .none false))
  else if lower t = str!"having" then some (.ok (mk .none (.having (.column b)) .none .none false))
  else if lower t = str!"limit" then some (.ok (mk .none .none (.limit false (.column b)) .none false))
  else if lower t = str!"offset" then some (.ok (mk .none .none .none (.offset (.column b)) false))
  else if lower t = str!"group" then some (.err (.parsing str!"Missing BY after GROUP"))
  else if lower t = str!"order" then some (.err (.parsing str!"Missing BY after ORDER"))
  else none

/-- `SELECT a t b` -/
def selectInfix (a t b : Str) : Res Node :=
  match clause t b fun w h l o semi =>
      .select [.column a] false false [] .none w .none h .none l o semi with
  | some r => r
  | none =>
    if lower t = str!"from" then
      .ok (.select [.column a] false false [] (.table (.column b) false) .none .none .none .none .none .none false)
    else if t = str!"," then .ok (sel [.column a, .column b])
    else match infix_ a t b with
      | .ok e => .ok (sel [e])
      | .err e => .err e
      | .diverge => .diverge

/-- What stands after FROM: `a t b`. -/
def source (a t b : Str) : Res Node :=
  if lower t ∈ setWords then .ok (.combined (t.map Char.toUpper) (.table (.column a) false) (.table (.column b) false))
  else if lower t ∈ joinWords then
    .ok (.join (t.map Char.toUpper) (.table (.column a) false) (.table (.column b) false) .none .none)
  else match infix_ a t b with
    | .ok e => .ok (.table e false)
    | .err e => .err e
    | .diverge => .diverge

/-- `SELECT c FROM a t b` -/
def fromInfix (c a t b : Str) : Res Node :=
  match clause t b fun w h l o semi =>
      .select [.column c] false false [] (.table (.column a) false) w .none h .none l o semi with
  | some r => r
  | none => match source a t b with
    | .ok f => .ok (.select [.column c] false false [] f .none .none .none .none .none .none false)
    | .err e => .err e
    | .diverge => .diverge

/-- A name that is an argument of a function below TIMESTAMP_TRUNC. -/
def typed (w : Str) : Node := if lower w ∈ typeWords then .type w else .column w

/-- A name and a literal. -/
def prefixed (w v q : Str) : Node :=
  if lower w = str!"r" then .string v q (some w) else .alias (.column w) (.string v q none) false

end SqlV.Words
