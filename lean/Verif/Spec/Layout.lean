import Verif.Spec.Core
import Verif.Spec.Names

/-!
# How a statement of the core grammar is laid out

The layout is described with blocks of lines that are put beside and above each other.  Keywords, function
names and type names are in capitals; each clause begins a line; lists with several elements have one element
per line, indented by one blank; so are sub-queries, and conditions that do not fit on a line.
-/

namespace SqlV.Core

open Lex

/-! ### Blocks of lines -/

/-- Lines from top to bottom. -/
abbrev Doc := List Str

/-- The text of the lines. -/
def Doc.text : Doc → Str
  | [] => []
  | [l] => l
  | l :: ls => l ++ '\n' :: Doc.text ls

/-- `d` followed by `e`: the first line of `e` continues the last line of `d`. -/
def Doc.beside : Doc → Doc → Doc
  | [], e => e
  | [l], [] => [l]
  | [l], m :: ms => (l ++ m) :: ms
  | l :: ls, e => l :: Doc.beside ls e

@[inherit_doc] infixl:67 " <+> " => Doc.beside

/-- Every line moved by one blank. -/
def Doc.indent (d : Doc) : Doc := d.map (' ' :: ·)

/-- Number of characters of the text. -/
def Doc.width (d : Doc) : Nat := (Doc.text d).length

/-- More than one line. -/
def Doc.tall (d : Doc) : Bool := decide (1 < d.length)

/-- Elements on one line. -/
def commas : List Doc → Doc
  | [] => [[]]
  | [d] => d
  | d :: ds => d <+> [str!", "] <+> commas ds

/-- Each element on its own lines. -/
def stacked : List Doc → Doc
  | [] => []
  | [d] => d
  | d :: ds => d <+> [str!","] ++ stacked ds

/-- In `k` parentheses on lines of their own. -/
def boxed (k : Nat) (d : Doc) : Doc := [List.replicate k '('] ++ Doc.indent d ++ [List.replicate k ')']

/-- A keyword and a list: a single element follows on the same line. -/
def listed (kw : Str) : List Doc → Doc
  | [d] => [kw ++ str!" "] <+> d
  | ds => [kw] ++ Doc.indent (stacked ds)

/-- A keyword and a condition: on the same line, unless it is tall and not in parentheses. -/
def clause (kw : Str) (paren : Bool) (d : Doc) : Doc :=
  if paren || !Doc.tall d then [kw ++ str!" "] <+> d else [kw] ++ Doc.indent d

/-- In capitals. -/
def caps (s : Str) : Str := s.map Char.toUpper

/-- How a token is written in formatted text: keywords in capitals, numbers without leading zeros. -/
def Tok.canon : Tok → Str
  | .kw w => caps w
  | .lit s => s
  | .num n => Str.ofNat n

/-- The length lines should have. -/
def limitLength : Nat := 88

/-! ### Layout -/

/-- Where a tree stands. -/
inductive Pos where
  /-- anywhere not mentioned below -/
  | plain
  /-- directly after WHERE, HAVING, ON, USING or WHEN -/
  | block
  /-- an operand of a condition with AND or OR that has been broken into lines -/
  | operand
  /-- directly after FROM -/
  | source
  /-- inside the parentheses of ARRAY_AGG -/
  | inline
  /-- a side of a join, after so many opening parentheses -/
  | side (parens : Nat)
deriving DecidableEq

/-- Parentheses around a side of a join. -/
def Pos.wrap : Pos → Doc → Doc
  | .side (k + 1), d => boxed (k + 1) d
  | _, d => d

def isTable : Node → Bool
  | .table .. => true
  | _ => false

def isParen : Node → Bool
  | .paren _ => true
  | _ => false

/-- The elements of parentheses; sub-queries stand on lines of their own. -/
def parenDoc : List Node → List (Pos → Doc) → List Doc
  | n :: ns, d :: ds => (if n.isSelect then [[]] ++ Doc.indent (d .plain) ++ [[]] else d .plain) :: parenDoc ns ds
  | _, _ => []

/-- Parentheses. -/
def layParen (args : List Node) (ds : List (Pos → Doc)) (pos : Pos) : Doc :=
  let flat := [str!"("] <+> commas (parenDoc args ds) <+> [str!")"]
  match pos, ds with
  | .operand, [d] => if Doc.tall (d .plain) then boxed 1 (d .plain) else [str!"("] <+> d .plain <+> [str!")"]
  | .block, [d] => if Doc.tall flat then boxed 1 (d .plain) else flat
  | .source, [d] => boxed 1 (d .plain)
  | .side k, [d] => d (.side (k + 1))
  | pos, _ => pos.wrap flat

/-- A call: the arguments on one line if they fit. -/
def layCall (name : Str) (ds : List Doc) : Doc :=
  if ds.any Doc.tall || decide (limitLength < Doc.width (commas ds)) then
    [name ++ str!"("] ++ Doc.indent (stacked ds) ++ [str!")"]
  else [name ++ str!"("] <+> commas ds <+> [str!")"]

/-- `* EXCEPT (…)` and `* REPLACE (…)`: several elements stand on lines of their own. -/
def layStar (e : Doc) (kw : Str) : List Doc → Doc
  | [d] => e <+> [str!" " ++ kw ++ str!" ("] <+> d <+> [str!")"]
  | ds => (e <+> [str!" " ++ kw ++ str!" ("]) ++ stacked (ds.map ([str!" "] <+> ·)) ++ [str!")"]

/-- LIMIT inside ARRAY_AGG. -/
def layLimit : Option Int → Str
  | none => []
  | some i => str!" LIMIT " ++ Str.ofInt i

/-- WITH OFFSET after UNNEST. -/
def layOffset : Bool → Bool → Option Str → Str
  | false, _, _ => []
  | true, _, none => str!" WITH OFFSET"
  | true, withAs, some a => str!" WITH OFFSET" ++ (if withAs then str!" AS " else str!" ") ++ a

/-- PARTITION BY. -/
def layPart : List Doc → Doc
  | [] => []
  | [d] => [str!" PARTITION BY "] <+> d
  | ds => [str!" PARTITION BY"] ++ stacked (ds.map ([str!"  "] <+> ·))

/-- A call with OVER: each part of the window on its own line, unless there is only a frame. -/
def layOver (f : Doc) (part : List Doc) (order frame : Doc) : Doc :=
  let rows := layPart part ++ Doc.indent order
  if rows.isEmpty && !Doc.tall f then f <+> [str!" OVER ("] <+> frame <+> [str!")"]
  else (f <+> [str!" OVER ("]) ++ rows ++ Doc.indent frame ++ [str!")"]

/-- A branch of CASE. -/
def layWhen (w t : Doc) : Doc :=
  if Doc.tall w then Doc.indent w ++ ([str!" THEN "] <+> t) else Doc.indent w <+> [str!" THEN "] <+> t

/-- The blocks above each other that exist. -/
def optional (b : Bool) (d : Doc) : Doc := if b then d else []

mutual

/-- The layout of a tree. -/
def lay : Node → Pos → Doc
  | .raw s, p => p.wrap [s]
  | .column v, p => p.wrap [v]
  | .int i, p => p.wrap [Str.ofInt i]
  | .float r, p => p.wrap [r]
  | .string v q none, p => p.wrap [q ++ v ++ q]
  | .string v q (some pre), p => p.wrap [pre ++ q ++ v ++ q]
  | .null, p => p.wrap [str!"NULL"]
  | .bool b, p => p.wrap [if b then str!"TRUE" else str!"FALSE"]
  | .type v, p => p.wrap [caps v]
  | .chained l r, p => p.wrap (lay l .plain <+> [str!"."] <+> lay r .plain)
  | .func f args, p => p.wrap (layCall (caps f) ((layList args).map (· .plain)))
  | .count args d, p =>
    p.wrap ([str!"COUNT(" ++ (if d then str!"DISTINCT " else [])] <+> commas ((layList args).map (· .plain)) <+> [str!")"])
  | .cast c t, p => p.wrap ([str!"CAST("] <+> lay c .plain <+> [str!" AS "] <+> lay t .plain <+> [str!")"])
  | .paren args, p => layParen args (layList args) p
  | .array args, p => p.wrap ([str!"["] <+> commas ((layList args).map (· .plain)) <+> [str!"]"])
  | .index e is, p => p.wrap (lay e .plain <+> [str!"["] <+> commas ((layList is).map (· .plain)) <+> [str!"]"])
  | .arrayAgg c d ignore _ o l, p =>
    p.wrap ([str!"ARRAY_AGG(" ++ (if d then str!"DISTINCT " else [])] <+> lay c .plain <+>
      [if ignore then str!" IGNORE NULLS" else []] <+> lay o .inline <+> [layLimit l ++ str!")"])
  | .filtered c w, p => p.wrap (lay c .plain <+> [str!" FILTER (WHERE "] <+> lay w .plain <+> [str!")"])
  | .frame r f, _ => [caps r ++ str!" " ++ caps f]
  | .analytics f part o fr, p =>
    p.wrap (layOver (lay f .plain) ((layList part).map (· .plain)) (lay o .plain) (lay fr .plain))
  | .datePart part e, p => p.wrap ([caps part ++ str!" FROM "] <+> lay e .plain)
  | .except_ e args, p => p.wrap (layStar (lay e .plain) str!"EXCEPT" ((layList args).map (· .plain)))
  | .replace e args, p => p.wrap (layStar (lay e .plain) str!"REPLACE" ((layList args).map (· .plain)))
  | .bitwise l op r, p => p.wrap (lay l .plain <+> [str!" " ++ op ++ str!" "] <+> lay r .plain)
  | .arith op l r, p => p.wrap (lay l .plain <+> [str!" " ++ op ++ str!" "] <+> lay r .plain)
  | .neg e, p => p.wrap ([if isParen e then str!"NOT" else str!"NOT "] <+> lay e .plain)
  | .cond l pred r, p => p.wrap (lay l .plain <+> [str!" " ++ caps pred ++ str!" "] <+> lay r .plain)
  | .boolc op l r, p =>
    let flat := lay l .plain <+> [str!" " ++ caps op ++ str!" "] <+> lay r .plain
    let broken := lay l .operand ++ ([caps op ++ str!" "] <+> lay r .operand)
    if p ≠ .operand ∧ Doc.width flat < limitLength then p.wrap flat else p.wrap broken
  | .whenThen w t, _ => layWhen (clause str!"WHEN" (isParen w) (lay w .block)) (lay t .plain)
  | .case o ws e, p =>
    p.wrap ((if o.truthy then [str!"CASE "] <+> lay o .plain else [str!"CASE"]) ++ ((layList ws).map (· .plain)).flatten ++
      optional e.truthy ([str!" ELSE "] <+> lay e .plain) ++ [str!"END"])
  | .alias e al withAs, p =>
    let tail := [if withAs then str!" AS " else str!" "] <+> lay al .plain
    if p = .source ∨ p = .side 0 then lay e p <+> tail else p.wrap (lay e .plain <+> tail)
  | .table v square, p => p.wrap (if square then [str!"["] <+> lay v .plain <+> [str!"]"] else lay v .plain)
  | .join type l r on using_, p =>
    let sides := if type = str!"," then lay l (.side 0) <+> [str!", "] <+> lay r (.side 0)
      else lay l (.side 0) ++ ([type ++ str!" "] <+> lay r (.side 0))
    p.wrap (sides ++ optional on.truthy (lay on .plain) ++ optional using_.truthy (lay using_ .plain))
  | .unnest v o oa al, p => p.wrap (lay v .plain <+> [layOffset o oa al])
  | .combined op l r, p =>
    p.wrap (lay l .plain ++ (if isTable r then [op ++ str!" "] <+> lay r .plain else [op] ++ lay r .plain))
  | .on e, _ => clause str!"ON" (isParen e) (lay e .block)
  | .using_ e, _ => clause str!"USING" (isParen e) (lay e .block)
  | .where_ e, _ => clause str!"WHERE" (isParen e) (lay e .block)
  | .having e, _ => clause str!"HAVING" (isParen e) (lay e .block)
  | .groupBy args rollup each, _ =>
    listed (str!"GROUP " ++ (if each then str!"EACH " else []) ++ str!"BY" ++ (if rollup then str!" ROLLUP" else []))
      ((layList args).map (· .plain))
  | .orderItem v asc desc, _ =>
    lay v .plain <+> [if asc then str!" ASC" else if desc then str!" DESC" else []]
  | .orderBy args, p =>
    if p = .inline then [str!" ORDER BY "] <+> commas ((layList args).map (· .plain))
    else listed str!"ORDER BY" ((layList args).map (· .plain))
  | .limit all v, _ => if all then [str!"LIMIT ALL"] else [str!"LIMIT "] <+> lay v .plain
  | .offset v, _ => [str!"OFFSET "] <+> lay v .plain
  | .select es all d on f w g h o l off semi, p =>
    let head : Doc := [str!"SELECT" ++ (if all then str!" ALL" else []) ++ (if d then str!" DISTINCT" else [])]
    let head := if on.isEmpty then head
      else head <+> [str!" ON ("] <+> commas ((layList on).map (· .plain)) <+> [str!")"]
    let list : Doc := match layList es with
      | [e] => head <+> [str!" "] <+> e .plain
      | es => head ++ Doc.indent (stacked (es.map (· .plain)))
    let stmt := list ++ optional f.truthy ([str!"FROM "] <+> lay f .source) ++ optional w.truthy (lay w .plain) ++
      optional g.truthy (lay g .plain) ++ optional h.truthy (lay h .plain) ++ optional o.truthy (lay o .plain) ++
      optional l.truthy (lay l .plain) ++ optional off.truthy (lay off .plain)
    p.wrap (if semi then stmt <+> [str!";"] else stmt)
  | .withQuery name q, _ => [name ++ str!" AS ("] ++ Doc.indent (lay q .plain) ++ [str!")"]
  | .withStmt qs s, p => p.wrap (([str!"WITH "] <+> stacked ((layList qs).map (· .plain))) ++ lay s .plain)
  | _, _ => []

/-- The layouts of several trees. -/
def layList : List Node → List (Pos → Doc)
  | [] => []
  | n :: ns => lay n :: layList ns

end

/-- The text of a statement. -/
def layout (n : Node) : Str := Doc.text (lay n .plain)

/-! ### Literals -/

mutual

/-- The literals of a tree, with their quotes. -/
def literals : Node → List Str
  | .string v q _ => [q ++ v ++ q]
  | .chained l r => literals l ++ literals r
  | .func _ args => literalsList args
  | .count args _ => literalsList args
  | .cast c t => literals c ++ literals t
  | .paren args => literalsList args
  | .array args => literalsList args
  | .index e is => literals e ++ literalsList is
  | .arrayAgg c _ _ _ o _ => literals c ++ literals o
  | .filtered c w => literals c ++ literals w
  | .analytics f part o _ => literals f ++ literalsList part ++ literals o
  | .datePart _ e => literals e
  | .except_ e args => literals e ++ literalsList args
  | .replace e args => literals e ++ literalsList args
  | .bitwise l _ r => literals l ++ literals r
  | .arith _ l r => literals l ++ literals r
  | .neg e => literals e
  | .cond l _ r => literals l ++ literals r
  | .boolc _ l r => literals l ++ literals r
  | .whenThen w t => literals w ++ literals t
  | .case o ws e => literals o ++ literalsList ws ++ literals e
  | .alias e al _ => literals e ++ literals al
  | .table v _ => literals v
  | .join _ l r on using_ => literals l ++ literals r ++ literals on ++ literals using_
  | .unnest v _ _ _ => literals v
  | .combined _ l r => literals l ++ literals r
  | .on e => literals e
  | .using_ e => literals e
  | .where_ e => literals e
  | .having e => literals e
  | .groupBy args _ _ => literalsList args
  | .orderItem v _ _ => literals v
  | .orderBy args => literalsList args
  | .limit all v => if all then [] else literals v
  | .offset v => literals v
  | .select es _ _ on f w g h o l off _ =>
    literalsList es ++ literalsList on ++ literals f ++ literals w ++ literals g ++ literals h ++ literals o ++ literals l ++ literals off
  | .withQuery _ q => literals q
  | .withStmt qs s => literalsList qs ++ literals s
  | _ => []

/-- The literals of several trees. -/
def literalsList : List Node → List Str
  | [] => []
  | n :: ns => literals n ++ literalsList ns

end

/-! ### Parenthesised lists

A list with several elements in parentheses, directly as an operand of AND or OR or as the whole condition of a
clause, is not part of the grammar below: the printer looks at its first element only when it breaks lines. -/

/-- Not parentheses with several or no elements. -/
def single : Node → Bool
  | .paren args => decide (args.length = 1)
  | _ => true

/-- The same, but lists of columns are allowed. -/
def singleOrColumns : Node → Bool
  | .paren args => decide (args.length = 1) || args.all fun n => match n with | .column _ => true | _ => false
  | _ => true

mutual

/-- There is no such list, no column with one of the names that are printed in upper case (sql.py 765-779), and no WITH
directly inside the parentheses of another (printing raises a TypeError, sql.py 498 with 516). -/
def tidy : Node → Bool
  | .column s => decide (s ∉ capitalNames)
  | .chained l r => tidy l && tidy r
  | .func _ args => tidyList args
  | .count args _ => tidyList args
  | .cast c _ => tidy c
  | .paren args => tidyList args
  | .array args => tidyList args
  | .index e is => tidy e && tidyList is
  | .arrayAgg c _ _ _ o _ => tidy c && tidy o
  | .filtered c w => tidy c && tidy w
  | .analytics f part o _ => tidy f && tidyList part && tidy o
  | .datePart _ e => tidy e
  | .except_ e args => tidy e && tidyList args
  | .replace e args => tidy e && tidyList args
  | .bitwise l _ r => tidy l && tidy r
  | .arith _ l r => tidy l && tidy r
  | .neg e => tidy e
  | .cond l _ r => tidy l && tidy r
  | .boolc _ l r => single l && single r && tidy l && tidy r
  | .whenThen w t => singleOrColumns w && tidy w && tidy t
  | .case o ws e => tidy o && tidyList ws && tidy e
  | .alias e a _ => tidy e && tidy a
  | .table v _ => tidy v
  | .join _ l r on using_ => tidy l && tidy r && tidy on && tidy using_
  | .unnest v _ _ _ => tidy v
  | .combined _ l r => tidy l && tidy r
  | .on e => singleOrColumns e && tidy e
  | .using_ e => singleOrColumns e && tidy e
  | .where_ e => singleOrColumns e && tidy e
  | .having e => singleOrColumns e && tidy e
  | .groupBy args _ _ => tidyList args
  | .orderItem v _ _ => tidy v
  | .orderBy args => tidyList args
  | .limit _ v => tidy v
  | .offset v => tidy v
  | .select es _ _ on f w g h o l off _ =>
    tidyList es && tidyList on && tidy f && tidy w && tidy g && tidy h && tidy o && tidy l && tidy off
  | .withQuery _ q => q.isSelect && tidy q
  | .withStmt qs s => tidyList qs && tidy s
  | _ => true

/-- `tidy` of every element. -/
def tidyList : List Node → Bool
  | [] => true
  | n :: ns => tidy n && tidyList ns

end

end SqlV.Core
