import Verif.Spec.Layout
import Verif.Spec.Sound

/-!
# Correct queries

What `is_valid` checks, with the columns that a FROM clause offers.  `fits k n` says that nothing is wrong in `n` where
the columns `k` are known.
-/

namespace SqlV.Core

/-! ### The columns that a FROM clause offers -/

/-- A column of that name is known. -/
def has (k : List Field) (x : Str) : Bool := k.any fun f => decide (f.name = x)

/-- Columns of which nothing is known. -/
def anything : Field := ⟨str!"*", some .object⟩

/-- The name of an alias. -/
def aliasName : Node → Str
  | .column a => a
  | .raw a => a
  | _ => []

/-- The column that an element of a select list makes: a plain column or an alias.  Dotted paths and other expressions
without an alias make none. -/
def column? : Node → Option Field
  | .column v => some ⟨v, some .object⟩
  | .alias e a _ => some ⟨aliasName a, kind e⟩
  | _ => none

mutual

/-- A query, possibly in parentheses, or the first of several expressions in parentheses. -/
def untyped : Node → Bool
  | .none | .raw _ | .select .. | .whenThen .. => true
  | .paren args => untypedFirst args
  | .alias e _ _ => untyped e
  | .chained _ r => untyped r
  | _ => false

/-- The same for the first of a list. -/
def untypedFirst : List Node → Bool
  | [] => false
  | n :: _ => untyped n

end

/-- An alias for a query, which has no type. -/
def untypedAlias : Node → Bool
  | .alias e _ _ => untyped e
  | _ => false

/-- The columns of a query over a sub-query: a star stands for the columns of the sub-query if these are known. -/
def expand (own sub : List Field) : List Field :=
  if has own str!"*" && !has sub str!"*" then own.filter (fun f => decide (f.name ≠ str!"*")) ++ sub else own

/-- The columns with a qualifier in front. -/
def qualify (q : Str) (k : List Field) : List Field := k.map fun f => ⟨q ++ str!"." ++ f.name, f.type⟩

/-- The columns offered by a FROM clause or a query, if these are known. -/
def offers : Node → Option (List Field)
  | .table .. => some [anything]
  | .paren (n :: _) => some ((offers n).getD [])
  | .alias e a _ => (offers e).map (qualify (aliasName a))
  | .join _ l r _ _ => (offers l).bind fun a => (offers r).map (a ++ ·)
  | .select es _ _ _ f _ _ _ _ _ _ _ =>
    if es.any untypedAlias then none else
    match f with
    | .paren (s :: _) => if s.isSelect then (offers s).map (expand (es.filterMap column?)) else some (es.filterMap column?)
    | _ => some (es.filterMap column?)
  | _ => none

/-- The columns known inside a query. -/
def scope (k : List Field) (f : Node) : List Field := k ++ (offers f).getD []

/-! ### Names and types -/

/-- A name without its first qualifier. -/
def bare (s : Str) : Str :=
  match s.dropWhile (· ≠ '.') with
  | [] => s
  | _ :: t => t

/-- A column that may be written: nothing is known about some columns, or it is known, or exactly one known column has
this name and a qualifier. -/
def found (k : List Field) (x : Str) : Bool :=
  has k str!"*" || has k x ||
    k.any fun f => decide (bare f.name = x) && k.all fun g => decide (bare g.name ≠ x) || decide (g = f)

/-- The same for a dotted path. -/
def foundPath (k : List Field) (l r : Node) : Bool :=
  has k str!"*" || has k (layout (.chained l r)) || has k (layout l ++ str!".*")

/-- The type of an expression among known columns. -/
def kindIn (k : List Field) (n : Node) : Option PType :=
  match k.find? fun f => decide (f.name = layout n) with
  | some f => f.type
  | none => kind n

/-- Boolean as far as can be known. -/
def boolishIn (k : List Field) (n : Node) : Bool := decide (kindIn k n = some .bool) || decide (kindIn k n = some .object)

/-- Known columns of the same name have the same type. -/
def agree (k : List Field) : Bool := k.all fun f => k.all fun g => decide (f.name ≠ g.name) || decide (f.type = g.type)

/-- The aliases without AS in a select list. -/
def plainAliases (es : List Node) : List Str :=
  es.filterMap fun e => match e with
    | .alias _ (.raw a) _ => some a
    | _ => none

/-- An element of GROUP BY: a position in the select list, a name, or any expression. -/
def goodKeyIn (k : List Field) (es : List Node) (n : Node) : Bool :=
  match first n with
  | some (.int i) => decide (1 ≤ i) && decide (i ≤ es.length)
  | some (.column v) => found k v || decide (v ∈ plainAliases es)
  | some (.string v _ _) => found k v || decide (v ∈ plainAliases es)
  | some _ => true
  | none => false

/-- The names in REPLACE. -/
def goodNames (k : List Field) (args : List Node) : Bool :=
  args.all fun a => match a with
    | .alias _ al _ => decide (aliasName al = str!"*") || found k (aliasName al)
    | _ => true

mutual

/-- Nothing is wrong in an expression, a clause, a FROM clause or a query; `k` are the known columns, `es` is the select
list for GROUP BY and ORDER BY. -/
def fits (k : List Field) (es : Option (List Node)) : Node → Bool
  | .column v => decide (v = str!"*") || found k v
  | .chained l r => foundPath k l r
  | .paren args => isUnseen args || fitsList k none args
  | .func _ args => fitsList k none args
  | .count args _ => fitsList k none args
  | .cast .. => false
  | .arrayAgg c _ _ _ _ _ => fits k none c
  | .filtered c w => fits k none c && fits k none w
  | .analytics f part o _ => fits k none f && fitsList k none part && fits k none o
  | .alias e _ _ => fits k none e
  | .replace _ args => goodNames k args
  | .cond l p r => fits k none l && (if p = str!"between" then fitsBounds k r else fits k none r)
  | .boolc _ l r => fits k none l && boolishIn k l && fits k none r && boolishIn k r
  | .where_ v => fits k none v && boolishIn k v
  | .having v => fits k none v && boolishIn k v
  | .groupBy args _ _ => args.all (goodKeyIn k (es.getD []))
  | .orderBy args => fitsList k es args
  | .orderItem v _ _ =>
    match first v with
    | none => false
    | some (.int i) => match es with
      | none => false
      | some es => decide (1 ≤ i) && decide (i ≤ es.length)
    | some _ => fits k none v
  | .limit _ v => isCount v
  | .offset v => isCount v
  | .join type _ _ on using_ => conditioned type on using_
  | .select es _ _ _ f w g h o l off _ =>
    fitsList (scope k f) none es && fits [] none f && fits (scope k f) none w && fits (scope k f) (some es) g &&
      fits (scope k f) none h && fits (scope k f) (some es) o && fits (scope k f) none l && fits (scope k f) none off
  | .withStmt .. => false
  | _ => true

/-- The bounds of BETWEEN. -/
def fitsBounds (k : List Field) : Node → Bool
  | .boolc _ l r => fits k none l && fits k none r
  | _ => false

/-- `fits` for every element. -/
def fitsList (k : List Field) (es : Option (List Node)) : List Node → Bool
  | [] => true
  | n :: ns => fits k es n && fitsList k es ns

end

mutual

/-- Wherever validation looks, known columns of the same name have the same type, and all of them have names. -/
def unmixed (k : List Field) : Node → Bool
  | .paren args => unmixedList k args
  | .func _ args => unmixedList k args
  | .count args _ => unmixedList k args
  | .cast c _ => unmixed k c
  | .arrayAgg c _ _ _ _ _ => unmixed k c
  | .filtered c w => unmixed k c && unmixed k w
  | .analytics f part o _ => unmixed k f && unmixedList k part && unmixed k o
  | .alias e _ _ => unmixed k e
  | .cond l _ r => unmixed k l && unmixed k r
  | .boolc _ l r => unmixed k l && unmixed k r
  | .where_ v => unmixed k v
  | .having v => unmixed k v
  | .orderBy args => unmixedList k args
  | .orderItem v _ _ => unmixed k v
  | .select es _ _ _ f w _ h o _ _ _ =>
    agree (scope k f) && unmixedList (scope k f) es && unmixed [] f && unmixed (scope k f) w && unmixed (scope k f) h &&
      unmixed (scope k f) o && namedFrom f
  | _ => true

/-- `unmixed` for every element. -/
def unmixedList (k : List Field) : List Node → Bool
  | [] => true
  | n :: ns => unmixed k n && unmixedList k ns

end

end SqlV.Core
