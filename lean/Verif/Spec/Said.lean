import Verif.Tree
import Verif.Env

/-!
# What a tree says

`said n` is the set of word lists by which a tree may have been written, commas included, closing brackets and the
opening quotes of literals left out.  It is used to say that the parser reads nothing into a text: whatever it returns
was said by the tokens, in the same order.  (Closing brackets are left out because the parser does not insist on them,
opening quotes because one of them may be read twice: after `r'x'` the parser still holds the opening quote.)

The words are written out here; nothing is taken from the tables of the parser.
-/

namespace SqlV.Said

/-- A set of word lists. -/
def Lang := List Str → Prop

/-- One after the other. -/
def Lang.cat (a b : Lang) : Lang := fun ws => ∃ x y, a x ∧ b y ∧ ws = x ++ y

@[inherit_doc] infixr:67 " ⋆ " => Lang.cat

/-- No word. -/
def skip : Lang := fun ws => ws = []

/-- One word, of which something is known. -/
def one (p : Str → Prop) : Lang := fun ws => ∃ w, p w ∧ ws = [w]

/-- This very word. -/
def tok (t : Str) : Lang := one (· = t)

/-- The word, or nothing. -/
def optional : Option Str → Lang
  | none => skip
  | some t => tok t

/-- Either of two. -/
def either (a b : Lang) : Lang := fun ws => a ws ∨ b ws

/-- These very words. -/
def lit (l : List Str) : Lang := fun ws => ws = l

variable [E : PyEnv]

/-- A keyword, in capitals or not. -/
def word (k : Str) : Lang := one fun w => lower w = k

/-- One of some keywords. -/
def anyWord (ks : List Str) : Lang := one fun w => lower w ∈ ks

/-- A keyword that is there if the flag is set. -/
def flag (b : Bool) (k : Str) : Lang := if b then word k else skip

/-- Something introduced by a keyword, or nothing at all. -/
def headed (k : Str) (n : Node) (a : Lang) : Lang := either (fun ws => n = .none ∧ ws = []) (word k ⋆ a)

/-- Words of a list that give the text when joined by spaces and put in capitals. -/
def spaced (ks : List Str) (text : Str) : Lang := fun ws =>
  ws ≠ [] ∧ (∀ w ∈ ws, lower w ∈ ks) ∧ text = E.upper (Str.join str!" " ws)

/-- A comparison: `IS NOT` and `NOT IN` are two words. -/
def comparison (p : Str) : Lang :=
  either (one fun w => w = p ∧ lower w ∈ [str!"=", str!">", str!"<", str!"<=", str!">=", str!"!=", str!"<>", str!"is",
      str!"like", str!"in", str!"not", str!"contains", str!"between"])
    (either (fun ws => p = str!"is not" ∧ (word str!"is" ⋆ word str!"not") ws)
      (fun ws => p = str!"not in" ∧ (word str!"not" ⋆ word str!"in") ws))

/-- A number without sign, or one with a minus before it. -/
def number (i : Int) : Lang :=
  either (one fun w => isDigits w ∧ E.toInt w = some i)
    (tok str!"-" ⋆ one fun w => isDigits w ∧ E.toInt w = some (-i))

/-- The same for decimals. -/
def decimal (f : Str) : Lang :=
  either (one fun w => isDottedDigits w ∧ E.floatStr w = some f)
    (tok str!"-" ⋆ one fun w => isDottedDigits w ∧ ∃ g, E.floatStr w = some g ∧ f = '-' :: g)

/-- An integer after LIMIT in a call. -/
def limited : Option Int → Lang
  | none => skip
  | some i => word str!"limit" ⋆ one fun w => E.toInt w = some i

/-- The words of a join. -/
def joinWords : List Str :=
  [str!"join", str!"inner", str!"left", str!"right", str!"full", str!"cross", str!"outer", str!",", str!"each"]

/-- The parts of a date. -/
def partWords : List Str :=
  [str!"microsecond", str!"second", str!"minute", str!"hour", str!"day", str!"week", str!"month", str!"quarter",
   str!"year", str!"second_microsecond", str!"minute_microsecond", str!"minute_second", str!"hour_microsecond",
   str!"hour_second", str!"hour_minute", str!"day_microsecond", str!"day_second", str!"day_minute", str!"day_hour",
   str!"year_month", str!"dayofmonth", str!"dayofweek", str!"dayofyear", str!"date"]

/-- Plain strings stand for themselves.  (No plain string of the tree is a quote.) -/
def plain (s : Str) : Lang := if lower s ∈ [str!"'", str!"\"", str!"`"] then skip else tok s

/-- A literal: its prefix, its content unless that is empty, and the closing quote. -/
def literal (v q : Str) (pre : Option Str) : Lang :=
  optional pre ⋆ (if v = [] then skip else tok v) ⋆ one fun w => w = q ∧ lower w ∈ [str!"'", str!"\"", str!"`"]

mutual

/-- The word lists that say a tree. -/
def said : Node → Lang
  | .none => skip
  | .raw s => plain s
  | .select es all distinct on f w g h o l off semi =>
    word str!"select" ⋆ flag all str!"all" ⋆ flag distinct str!"distinct" ⋆
      (if on = [] then skip else word str!"on" ⋆ saidList on) ⋆ saidList es ⋆ headed str!"from" f (said f) ⋆
      said w ⋆ said g ⋆ said h ⋆ said o ⋆ said l ⋆ said off ⋆ (if semi then tok str!";" else skip)
  | .where_ v => word str!"where" ⋆ said v
  | .groupBy args rollup each =>
    word str!"group" ⋆ flag each str!"each" ⋆ word str!"by" ⋆ flag rollup str!"rollup" ⋆ saidList args
  | .having v => word str!"having" ⋆ said v
  | .orderBy args => word str!"order" ⋆ word str!"by" ⋆ saidList args
  | .orderItem v asc desc => said v ⋆ flag asc str!"asc" ⋆ flag desc str!"desc"
  | .limit all v => word str!"limit" ⋆ flag all str!"all" ⋆ said v
  | .offset v => word str!"offset" ⋆ said v
  | .withQuery name q => tok name ⋆ word str!"as" ⋆ word str!"(" ⋆ said q
  | .withStmt qs s => word str!"with" ⋆ saidSeq qs ⋆ said s
  | .func name args =>
    (one fun w => w = name ∨ name = str!"unnest" ∧ lower w = name) ⋆ tok str!"(" ⋆ saidList args
  | .cast c t => word str!"cast" ⋆ tok str!"(" ⋆ said c ⋆ word str!"as" ⋆ said t
  | .count args distinct => word str!"count" ⋆ tok str!"(" ⋆ flag distinct str!"distinct" ⋆ saidList args
  | .arrayAgg c distinct ignore respect o lim =>
    word str!"array_agg" ⋆ tok str!"(" ⋆ flag distinct str!"distinct" ⋆ said c ⋆
      (if ignore then word str!"ignore" ⋆ word str!"nulls" else skip) ⋆
      (if respect then word str!"respect" ⋆ word str!"nulls" else skip) ⋆ said o ⋆ limited lim
  | .filtered c w => said c ⋆ word str!"filter" ⋆ tok str!"(" ⋆ word str!"where" ⋆ said w
  | .analytics f part o frame =>
    said f ⋆ word str!"over" ⋆ tok str!"(" ⋆
      (if part = [] then skip else word str!"partition" ⋆ word str!"by" ⋆ saidList part) ⋆ said o ⋆ said frame
  | .frame unit bounds =>
    (one fun w => w = unit ∧ lower w ∈ [str!"rows", str!"range"]) ⋆ fun ws => bounds = Str.join str!" " ws
  | .column v => tok v
  | .chained l r => said l ⋆ tok str!"." ⋆ said r
  | .type v => tok v
  | .datePart part e => (one fun w => w = part ∧ lower w ∈ partWords) ⋆ word str!"from" ⋆ said e
  | .string v q pre => literal v q pre
  | .int i => number i
  | .float f => decimal f
  | .null => word str!"null"
  | .bool b => anyWord (if b then [str!"true", str!"yes"] else [str!"false", str!"no"])
  | .paren args => tok str!"(" ⋆ saidList args
  | .array args => tok str!"[" ⋆ saidList args ⋆ tok str!"]"
  | .alias e a withAs => said e ⋆ flag withAs str!"as" ⋆ said a
  | .index e is => said e ⋆ tok str!"[" ⋆ saidList is
  | .arith op l r =>
    said l ⋆ (one fun w => w = op ∧ w ∈ [str!"+", str!"-", str!"*", str!"/"]) ⋆ said r
  | .bitwise l op r =>
    said l ⋆ (one fun w => w = op ∧ w ∈ [str!"&", str!"|", str!"^", str!"||", str!"<<", str!">>", str!"#"]) ⋆ said r
  | .table v square => if square then tok str!"[" ⋆ said v ⋆ tok str!"]" else said v
  | .unnest v offset withAs a =>
    said v ⋆ (if offset then word str!"with" ⋆ word str!"offset" else skip) ⋆ flag withAs str!"as" ⋆ optional a
  | .join type l r on using_ => said l ⋆ spaced joinWords type ⋆ said r ⋆ said on ⋆ said using_
  | .combined op l r => said l ⋆ spaced [str!"union", str!"intersect", str!"except", str!"all"] op ⋆ said r
  | .on v => word str!"on" ⋆ said v
  | .using_ v => word str!"using" ⋆ said v
  | .cond l p r => said l ⋆ comparison p ⋆ said r
  | .boolc type l r =>
    said l ⋆ (one fun w => (w = type ∨ type = str!"and" ∧ lower w = type) ∧ lower w ∈ [str!"and", str!"or"]) ⋆ said r
  | .neg e => word str!"not" ⋆ said e
  | .except_ e args => said e ⋆ word str!"except" ⋆ tok str!"(" ⋆ saidList args
  | .replace e args => said e ⋆ word str!"replace" ⋆ tok str!"(" ⋆ saidList args
  | .whenThen w t => word str!"when" ⋆ said w ⋆ word str!"then" ⋆ said t
  | .case operand whens els => word str!"case" ⋆ said operand ⋆ saidSeq whens ⋆ headed str!"else" els (said els)

/-- One after the other. -/
def saidSeq : List Node → Lang
  | [] => skip
  | n :: ns => said n ⋆ saidSeq ns

/-- Each with a comma before it. -/
def saidMore : List Node → Lang
  | [] => skip
  | n :: ns => word str!"," ⋆ said n ⋆ saidMore ns

/-- With commas between them. -/
def saidList : List Node → Lang
  | [] => skip
  | n :: ns => said n ⋆ saidMore ns

end

/-- A plain string, if it is not a quote. -/
def unquoted (s : Str) : List Str := if lower s ∈ [str!"'", str!"\"", str!"`"] then [] else [s]

mutual

/-- The words of a tree that the writer chose: names of columns, functions, types and queries, parts of dates, contents of
literals and aliases, from left to right.  (The name of UNNEST is a keyword.) -/
def written : Node → List Str
  | .none | .int _ | .float _ | .null | .bool _ => []
  | .frame u _ => [u]
  | .raw s => unquoted s
  | .select es _ _ on f w g h o l off _ =>
    writtenList on ++ writtenList es ++ written f ++ written w ++ written g ++ written h ++ written o ++ written l ++ written off
  | .where_ v | .having v | .offset v | .on v | .using_ v | .neg v | .table v _ => written v
  | .groupBy args _ _ | .orderBy args | .count args _ | .paren args | .array args => writtenList args
  | .orderItem v _ _ => written v
  | .limit _ v => written v
  | .withQuery name q => name :: written q
  | .withStmt qs s => writtenList qs ++ written s
  | .func name args => (if name = str!"unnest" then [] else [name]) ++ writtenList args
  | .cast c t => written c ++ written t
  | .arrayAgg c _ _ _ o _ => written c ++ written o
  | .filtered c w => written c ++ written w
  | .analytics f part o frame => written f ++ writtenList part ++ written o ++ written frame
  | .column v => [v]
  | .chained l r => written l ++ written r
  | .type v => [v]
  | .datePart part e => part :: written e
  | .string v _ pre => pre.toList ++ if v = [] then [] else [v]
  | .alias e a _ => written e ++ written a
  | .index e is => written e ++ writtenList is
  | .arith _ l r => written l ++ written r
  | .bitwise l _ r => written l ++ written r
  | .unnest v _ _ a => written v ++ a.toList
  | .join _ l r on using_ => written l ++ written r ++ written on ++ written using_
  | .combined _ l r => written l ++ written r
  | .cond l _ r => written l ++ written r
  | .boolc _ l r => written l ++ written r
  | .except_ e args => written e ++ writtenList args
  | .replace e args => written e ++ writtenList args
  | .whenThen w t => written w ++ written t
  | .case operand whens els => written operand ++ writtenList whens ++ written els

/-- The same for a list. -/
def writtenList : List Node → List Str
  | [] => []
  | n :: ns => written n ++ writtenList ns

end

end SqlV.Said
