import Verif.Spec.Printable
import Verif.Spec.Scope

/-!
# What validation makes of any tree

`judge strict sure k n` says what validation of `n` comes to where the columns `k` are known.  Where `strict` is false it
says that nothing is raised; where it is true, that moreover there is no message.  `sure` matters for columns of the same
name and different types: Python takes the type of any of them.  Where `sure` is true all of them have to be right, where
it is false one of them.
-/

namespace SqlV.Verdict

open SqlV.Core (has anything column? untyped untypedAlias expand qualify bare found plainAliases first kind conditioned)
open SqlV.Shown (present)
open SqlV.Printable (prints isStatement)

variable [E : PyEnv]

/-! ### The columns that a FROM clause offers -/

/-- The text of an object, if it has one; `Verif/Spec/Printable.lean` says which have. -/
def text (n : Node) : Option Str :=
  match transform n with
  | .ok x => some x
  | .error _ => none

/-- A plain text, as the parser leaves it for an alias after FROM. -/
def isPlain : Node → Bool
  | .raw _ => true
  | _ => false

/-- The columns offered by a FROM clause or a query, if these are known. -/
def offer : Node → Option (List Field)
  | .table .. => some [anything]
  | .paren (n :: _) => some ((offer n).getD [])
  | .alias e a _ => (offer e).bind fun k => if k.isEmpty then some [] else (text a).map (qualify · k)
  | .join _ l r _ _ => (offer l).bind fun a => (offer r).map (a ++ ·)
  | .select es _ _ _ f _ _ _ _ _ _ _ =>
    if es.any untypedAlias then none else
    match f with
    | .paren (s :: _) => if isStatement s then (offer s).map (expand (es.filterMap column?)) else some (es.filterMap column?)
    | _ => some (es.filterMap column?)
  | _ => none

/-- The columns known inside a query. -/
def inside (k : List Field) (f : Node) : List Field := k ++ (offer f).getD []

/-- The aliases in a select list are names, up to the first one of a query. -/
def named : List Node → Bool
  | [] => true
  | .alias e (.column _) _ :: es => untyped e || named es
  | .alias e (.raw _) _ :: es => untyped e || named es
  | .alias e _ _ :: _ => untyped e
  | _ :: es => named es

/-- Printing it raises at most what is caught. -/
def mild (n : Node) : Bool :=
  match transform n with
  | .ok _ => true
  | .error e => decide (e = .attribute)

/-- Asking for the columns of a FROM clause or a query raises at most what is caught: there are no empty parentheses, and
aliases are names.  `joined` is true for the sides of a join. -/
def listable (joined : Bool) : Node → Bool
  | .paren [] => false
  | .paren (n :: _) => listable false n
  | .alias e a _ => listable false e && (((offer e).getD []).isEmpty || if joined then isPlain a else mild a)
  | .join _ l r _ _ => listable true l && (!(offer l).isSome || listable true r)
  | .select es _ _ _ f _ _ _ _ _ _ _ => named es && (es.any untypedAlias || match f with
    | .paren [] => false
    | .paren (s :: _) => !isStatement s || listable false s
    | _ => true)
  | _ => true

/-! ### Names and types -/

/-- The type is boolean or not known; where not `strict`, there is a type. -/
def boolish (strict : Bool) : Option PType → Bool
  | none => false
  | some t => !strict || decide (t = .bool) || decide (t = .object)

/-- A class that has types. -/
def typable : Node → Bool
  | .none | .raw _ | .select .. | .whenThen .. => false
  | _ => true

/-- A condition is of the right type: the type of the columns that are called as its text is, or its own. -/
def condition (strict sure : Bool) (k : List Field) (n : Node) : Bool :=
  typable n && if k.isEmpty then boolish strict (kind n) else
    match text n with
    | none => false
    | some x =>
      if !has k x then boolish strict (kind n)
      else if sure then k.all fun f => decide (f.name ≠ x) || boolish strict f.type
      else k.any fun f => decide (f.name = x) && boolish strict f.type

/-- Two columns have this name and different qualifiers or types. -/
def twice (k : List Field) (x : Str) : Bool :=
  k.any fun f => decide (bare f.name = x) && k.any fun g => decide (bare g.name = x) && decide (g ≠ f)

/-- A name in GROUP BY: if it is not known as it stands, not several columns may be meant. -/
def keyName (strict : Bool) (k : List Field) (es : List Node) (v : Str) : Bool :=
  if strict then found k v || decide (v ∈ plainAliases es)
  else has k v || has k str!"*" || decide (v ∈ plainAliases es) || !twice k v

/-- An element of GROUP BY. -/
def key (strict : Bool) (k : List Field) (es : List Node) (n : Node) : Bool :=
  match first n with
  | none => false
  | some (.int i) => !strict || decide (1 ≤ i) && decide (i ≤ es.length)
  | some (.column v) => keyName strict k es v
  | some (.string v _ _) => keyName strict k es v
  | some _ => true

/-- A clause GROUP BY. -/
def keys (strict : Bool) (k : List Field) (es : List Node) : Node → Bool
  | .groupBy args _ _ => args.all (key strict k es)
  | _ => false

/-- The argument of LIMIT or OFFSET. -/
def number (strict : Bool) (n : Node) : Bool :=
  match first n with
  | none => false
  | some (.int i) => !strict || decide (0 ≤ i)
  | some m => !strict && !untyped m

/-- A dotted path. -/
def path (strict sure : Bool) (k : List Field) (l r : Node) : Bool :=
  match text (.chained l r), text l with
  | some x, some y => has k str!"*" || has k x || has k (y ++ str!".*") || !strict && prints sure .str r
  | _, _ => false

mutual

/-- Validation of a tree. -/
def judge (strict sure : Bool) (k : List Field) : Node → Bool
  | .none | .raw _ | .whenThen .. | .groupBy .. | .orderBy _ | .orderItem .. | .cast .. => false
  | .column v => !strict || decide (v = str!"*") || found k v
  | .chained l r => path strict sure k l r
  | .paren args | .func _ args | .count args _ => judgeList strict sure k args
  | .arrayAgg e _ _ _ _ _ | .alias e _ _ => judge strict sure k e
  | .filtered e w => judge strict sure k e && judge strict sure k w
  | .analytics f part o _ =>
    judge strict sure k f && judgeList strict sure k part && (!present o || judgeOrder strict sure k none o)
  | .cond l p r => judge strict sure k l && if E.lower p = str!"between" then judgeBounds strict sure k r else judge strict sure k r
  | .boolc _ l r =>
    judge strict sure k l && condition strict sure k l && judge strict sure k r && condition strict sure k r
  | .where_ v | .having v => judge strict sure k v && condition strict sure k v
  | .limit _ v | .offset v => number strict v
  | .join type _ _ on using_ => !strict || conditioned type on using_
  | .replace _ args => judgeAliases strict sure k args
  | .select es _ _ _ f w g h o l off _ =>
    listable false f && judgeList strict sure (inside k f) es && (!present f || judge strict sure [] f) &&
      (!present w || judge strict sure (inside k f) w) && (!present g || keys strict (inside k f) es g) &&
      (!present h || judge strict sure (inside k f) h) && (!present o || judgeOrder strict sure (inside k f) (some es.length) o) &&
      (!present l || judge strict sure (inside k f) l) && (!present off || judge strict sure (inside k f) off)
  | _ => true

/-- All of them. -/
def judgeList (strict sure : Bool) (k : List Field) : List Node → Bool
  | [] => true
  | n :: ns => judge strict sure k n && judgeList strict sure k ns

/-- The names in REPLACE. -/
def judgeAliases (strict sure : Bool) (k : List Field) : List Node → Bool
  | [] => true
  | .alias _ a _ :: ns => judge strict sure k a && judgeAliases strict sure k ns
  | _ :: _ => false

/-- The bounds of BETWEEN. -/
def judgeBounds (strict sure : Bool) (k : List Field) : Node → Bool
  | .boolc _ l r => judge strict sure k l && judge strict sure k r
  | _ => false

/-- A clause ORDER BY or an element of it; `width` is the length of the select list, if there is one. -/
def judgeOrder (strict sure : Bool) (k : List Field) (width : Option Nat) : Node → Bool
  | .orderBy args => judgeOrders strict sure k width args
  | .orderItem v _ _ =>
    match first v with
    | none => false
    | some (.int i) =>
      if i ≤ 0 then !strict else match width with
        | none => false
        | some m => !strict || decide (i ≤ m)
    | some _ => judge strict sure k v
  | _ => false

/-- All elements of ORDER BY. -/
def judgeOrders (strict sure : Bool) (k : List Field) (width : Option Nat) : List Node → Bool
  | [] => true
  | n :: ns => judgeOrder strict sure k width n && judgeOrders strict sure k width ns

end

/-- The verdict on a whole statement: only SELECT statements can be validated. -/
def passes (strict sure : Bool) (n : Node) : Bool := isStatement n && judge strict sure [] n

end SqlV.Verdict
