import Verif.Query

/-!
# The trees that the parser builds

A grammar of trees: `built s n` says that the tree `n` may stand at the place `s`.  Expressions have five levels; each
includes those below it.
-/

namespace SqlV.Built

/-- Places in a tree. -/
inductive Slot where
  /-- 0: a single operand without operators; 1: a dotted path, a window; 2: an operand; 3: a comparison; 4: any expression. -/
  | ex (level : Nat)
  /-- the bounds of BETWEEN -/
  | bounds
  /-- the name after an expression, without AS, or after a table -/
  | name
  /-- the type in CAST -/
  | type
  /-- WHEN and THEN -/
  | branch
  | frame
  /-- a whole statement -/
  | stmt
  /-- an element of WITH -/
  | query
  | from_
  /-- what is in parentheses after FROM -/
  | inner
  /-- the right side of UNION and the like -/
  | right
  /-- the call in UNNEST, with its alias -/
  | call
  | on
  | using_
  | where_
  | group
  | having
  | order
  | item
  | limit
  | offset
deriving DecidableEq

/-- A place for expressions of this level. -/
def Slot.takes (s : Slot) (k : Nat) : Bool :=
  match s with
  | .ex m => decide (k ≤ m)
  | _ => false

/-- A place for tables, sub-queries and joins. -/
def Slot.source (s : Slot) : Bool := decide (s = .from_) || decide (s = .inner) || decide (s = .right)

/-- Nothing. -/
def absent : Node → Bool
  | .none => true
  | _ => false

/-- A column. -/
def isColumn : Node → Bool
  | .column _ => true
  | _ => false

/-- An alias. -/
def isAlias : Node → Bool
  | .alias .. => true
  | _ => false

/-- An alias with AS. -/
def namedAs : Node → Bool
  | .alias _ _ w => w
  | _ => false

/-- A call. -/
def isCall : Node → Bool
  | .func .. | .count .. | .cast .. | .arrayAgg .. => true
  | _ => false

/-- A SELECT statement. -/
def isQuery : Node → Bool
  | .select .. => true
  | _ => false

/-- The words that are types. -/
def types : List Str := [str!"int", str!"float", str!"day", str!"month", str!"timestamp", str!"int64", str!"string", str!"date"]

/-- The words before FROM in EXTRACT. -/
def parts : List Str :=
  [str!"microsecond", str!"second", str!"minute", str!"hour", str!"day", str!"week", str!"month", str!"quarter", str!"year",
   str!"second_microsecond", str!"minute_microsecond", str!"minute_second", str!"hour_microsecond", str!"hour_second",
   str!"hour_minute", str!"day_microsecond", str!"day_second", str!"day_minute", str!"day_hour", str!"year_month",
   str!"dayofmonth", str!"dayofweek", str!"dayofyear", str!"date"]

/-- The comparisons. -/
def comparisons : List Str :=
  [str!"=", str!">", str!"<", str!"<=", str!">=", str!"!=", str!"<>", str!"is", str!"is not", str!"like", str!"in", str!"not",
   str!"not in", str!"contains"]

variable [E : PyEnv]

mutual

/-- The tree may stand at this place. -/
def built (s : Slot) : Node → Bool
  | .none => false
  | .raw _ => decide (s = .name)
  | .string _ q pre =>
    decide (lower q ∈ [str!"'", str!"\"", str!"`"]) && (match pre with
      | none => s.takes 0 || decide (s = .name)
      | some p => s.takes 0 && decide (lower p = str!"r"))
  | .int _ | .float _ | .null | .bool _ | .column _ => s.takes 0
  | .type v => s.takes 0 && decide (lower v ∈ types) || decide (s = .type)
  | .neg v => s.takes 0 && built (.ex 2) v
  | .array args | .count args _ => s.takes 0 && builtList (.ex 4) args
  | .func name args => (s.takes 0 || decide (s = .call) && decide (name = str!"unnest")) && builtList (.ex 4) args
  | .paren args => s.takes 0 && builtList (.ex 4) args || s.source && decide (args.length = 1) && builtList .inner args
  | .case operand whens els =>
    s.takes 0 && (absent operand || built (.ex 4) operand) && builtList .branch whens && (absent els || built (.ex 4) els)
  | .whenThen a b => decide (s = .branch) && built (.ex 4) a && built (.ex 4) b
  | .cast a t => s.takes 0 && built (.ex 2) a && built .type t
  | .arrayAgg e _ ignore respect o _ => s.takes 0 && built (.ex 4) e && !(ignore && respect) && (absent o || built .order o)
  | .filtered e c => s.takes 0 && isCall e && built (.ex 0) e && built (.ex 4) c
  | .datePart p e => s.takes 0 && decide (lower p ∈ parts) && built (.ex 4) e
  | .index e args => s.takes 0 && (isColumn e || s.takes 1 && built s e) && builtList (.ex 4) args
  | .analytics e part o f =>
    s.takes 1 && built (.ex 0) e && builtList (.ex 4) part && (absent o || built .order o) && (absent f || built .frame f)
  | .frame w _ => decide (s = .frame) && decide (lower w ∈ [str!"rows", str!"range"])
  | .chained l r => s.takes 1 && built (.ex 1) l && built (.ex 1) r
  | .arith op l r => s.takes 2 && decide (op ∈ [str!"+", str!"-", str!"*", str!"/"]) && built (.ex 1) l && built (.ex 2) r
  | .bitwise l op r =>
    s.takes 3 && decide (op ∈ [str!"&", str!"|", str!"^", str!"||", str!"<<", str!">>", str!"#"]) && built (.ex 2) l &&
      built (.ex 2) r
  | .cond l p r =>
    s.takes 3 && built (.ex 2) l &&
      (decide (lower p ∈ comparisons) && built (.ex 2) r || decide (lower p = str!"between") && built .bounds r)
  | .boolc t l r =>
    s.takes 4 && decide (lower t ∈ [str!"and", str!"or"]) && built (.ex 3) l && built (.ex 4) r ||
      decide (s = .bounds) && decide (t = str!"and") && built (.ex 2) l && built (.ex 2) r
  | .except_ e args => s.takes 4 && built (.ex 4) e && builtList (.ex 4) args
  | .replace e args => s.takes 4 && built (.ex 4) e && args.all namedAs && builtList (.ex 4) args
  | .alias e a w =>
    s.takes 4 && built (.ex 4) e && (if w then built (.ex 2) a else built .name a) ||
      s.source && !isAlias e && built .from_ e && built .name a || decide (s = .call) && !isAlias e && built .call e && built .name a
  | .select es _ _ on f w g h o l off _ =>
    (s.takes 0 || decide (s = .stmt) || decide (s = .inner) || decide (s = .right)) && builtList (.ex 4) es && builtList (.ex 4) on &&
      (absent f || built .from_ f) && (absent w || built .where_ w) && (absent g || built .group g) && (absent h || built .having h) &&
      (absent o || built .order o) && (absent l || built .limit l) && (absent off || built .offset off)
  | .withStmt qs q => (decide (s = .stmt) || decide (s = .inner)) && !qs.isEmpty && builtList .query qs && isQuery q && built .stmt q
  | .withQuery _ q => decide (s = .query) && built .stmt q
  | .table v _ => s.source && built (.ex 4) v
  | .unnest v offset offsetAs a =>
    s.source && built .call v && (offset || !offsetAs && a.isNone) && (!offsetAs || a.isSome)
  | .combined _ l r => s.source && built .from_ l && built .right r
  | .join _ l r on using_ =>
    s.source && built .from_ l && built .from_ r && (absent on || built .on on) && (absent using_ || built .using_ using_) &&
      (absent on || absent using_)
  | .on v => decide (s = .on) && built (.ex 4) v
  | .using_ v => decide (s = .using_) && built (.ex 4) v
  | .where_ v => decide (s = .where_) && built (.ex 4) v
  | .groupBy args _ _ => decide (s = .group) && builtList (.ex 4) args
  | .having v => decide (s = .having) && built (.ex 4) v
  | .orderBy args => decide (s = .order) && !args.isEmpty && builtList .item args
  | .orderItem v asc desc => decide (s = .item) && !(asc && desc) && built (.ex 4) v
  | .limit all v => decide (s = .limit) && if all then absent v else built (.ex 4) v
  | .offset v => decide (s = .offset) && built (.ex 4) v

/-- All of them may. -/
def builtList (s : Slot) : List Node → Bool
  | [] => true
  | n :: ns => built s n && builtList s ns

end

mutual

/-- The number of statements that begin with WITH. -/
def withs : Node → Nat
  | .none | .raw _ | .int _ | .float _ | .null | .bool _ | .string .. | .column _ | .type _ | .frame .. => 0
  | .select es _ _ on f w g h o l off _ =>
    withsList on + withsList es + withs f + withs w + withs g + withs h + withs o + withs l + withs off
  | .where_ v | .having v | .on v | .using_ v | .datePart _ v | .neg v | .table v _ | .unnest v _ _ _ | .orderItem v _ _ | .offset v
  | .limit _ v | .withQuery _ v => withs v
  | .groupBy args _ _ | .orderBy args | .func _ args | .count args _ | .array args | .paren args => withsList args
  | .withStmt qs s => 1 + withsList qs + withs s
  | .cast a b | .filtered a b | .chained a b | .bitwise a _ b | .combined _ a b | .cond a _ b | .alias a b _ | .arith _ a b
  | .boolc _ a b | .whenThen a b => withs a + withs b
  | .arrayAgg c _ _ _ o _ => withs c + withs o
  | .analytics f part o frame => withs f + withsList part + withs o + withs frame
  | .index e args | .except_ e args | .replace e args => withs e + withsList args
  | .join _ l r on using_ => withs l + withs r + withs on + withs using_
  | .case operand whens els => withs operand + withsList whens + withs els

/-- All of them. -/
def withsList : List Node → Nat
  | [] => 0
  | n :: ns => withs n + withsList ns

end

/-- How often a word occurs, in capitals or not. -/
def occurrences (w : Str) (ws : List Str) : Nat := (ws.filter fun t => decide (lower t = w)).length

/-- What the parser raises. -/
def raised : PyErr → Bool
  | .parsing m => decide (m ∈ [[], str!"Missing BY after GROUP", str!"Missing BY after ORDER", str!"Missing BY after PARTITION",
      str!"expected '('", str!"expected AND"])
  | .stopIteration | .assertion | .value | .index => true
  | .attribute | .type | .recursion | .io => false

end SqlV.Built
