import Verif.Spec.Scope

/-!
# What validation says

The messages about a statement in the order in which they are given, or the exception that is raised instead.
-/

namespace SqlV.Core

/-- Messages, or an exception. -/
abbrev Notes := Except PyErr (List Str)

/-- All messages; the first exception counts. -/
def gather : List Notes → Notes
  | [] => .ok []
  | a :: as =>
    match a with
    | .error e => .error e
    | .ok m =>
      match gather as with
      | .error e => .error e
      | .ok ms => .ok (m ++ ms)

/-- How Python calls a type. -/
def called : PType → Str
  | .object => str!"object"
  | .bool => str!"bool"
  | .int => str!"int"
  | .float => str!"float"
  | .str => str!"str"
  | .noneType => str!"NoneType"

/-- Some known column has this name after its first dot. -/
def candidate (k : List Field) (x : Str) : Bool := k.any fun f => decide (bare f.name = x)

/-- A column in an expression. -/
def columnNotes (k : List Field) (v : Str) : Notes :=
  if decide (v = str!"*") || found k v then .ok []
  else if candidate k v then .ok [str!"column \"" ++ v ++ str!"\" is ambiguous"]
  else .ok [str!"The column " ++ v ++ str!" was not found"]

/-- A dotted path. -/
def pathNotes (k : List Field) (l r : Node) : Notes :=
  if foundPath k l r then .ok []
  else .ok [str!"The column " ++ layout r ++ str!" was not found in alias " ++ layout l]

/-- A condition that must be boolean; a query has no type. -/
def booleanNotes (k : List Field) (word : Str) (n : Node) : Notes :=
  match kindIn k n with
  | none => .error .attribute
  | some t =>
    if boolishIn k n then .ok []
    else .ok [str!"The argument of " ++ word ++ str!" must be type boolean, not type " ++ called t]

/-- A position in a select list of that length. -/
def positionNotes (word : Str) (width : Nat) (i : Int) : Notes :=
  if 1 ≤ i ∧ i ≤ width then .ok []
  else .ok [word ++ str!" BY position " ++ Str.ofInt i ++ str!" is not in select list"]

/-- A name in GROUP BY; one that could be several columns makes validation raise. -/
def keyNotes (k : List Field) (es : List Node) (v : Str) : Notes :=
  if found k v || decide (v ∈ plainAliases es) then .ok []
  else if candidate k v then .error .attribute
  else .ok [str!"column \"" ++ v ++ str!"\" does not exist"]

/-- An element of GROUP BY. -/
def groupNotes (k : List Field) (es : List Node) (n : Node) : Notes :=
  match first n with
  | none => .error .index
  | some (.int i) => positionNotes str!"GROUP" es.length i
  | some (.column v) => keyNotes k es v
  | some (.string v _ _) => keyNotes k es v
  | some _ => .ok []

/-- The argument of LIMIT or OFFSET, with the messages for other expressions than integers and for negative integers. -/
def countNotes (other negative : Str) (n : Node) : Notes :=
  match first n with
  | none => .error .index
  | some (.int i) => if 0 ≤ i then .ok [] else .ok [negative]
  | some m => if untyped m then .error .attribute else .ok [other]

/-- A name in REPLACE. -/
def nameNotes (k : List Field) : Node → Notes
  | .alias _ a _ => columnNotes k (aliasName a)
  | _ => .ok []

mutual

/-- What is said about an expression, a clause, a FROM clause or a query; `k` are the known columns, `es` is the select
list for GROUP BY and ORDER BY. -/
def report (k : List Field) (es : Option (List Node)) : Node → Notes
  | .column v => columnNotes k v
  | .chained l r => pathNotes k l r
  | .paren args => if isUnseen args then .ok [] else reportList k none args
  | .func _ args => reportList k none args
  | .count args _ => reportList k none args
  | .cast c _ => gather [report k none c, .error .attribute]
  | .arrayAgg c _ _ _ _ _ => report k none c
  | .filtered c w => gather [report k none c, report k none w]
  | .analytics f part o _ => gather [report k none f, reportList k none part, report k none o]
  | .alias e _ _ => report k none e
  | .replace _ args => gather (args.map (nameNotes k))
  | .cond l p r => gather [report k none l, if p = str!"between" then reportBounds k r else report k none r]
  | .boolc t l r =>
    gather [report k none l, booleanNotes k (caps t) l, report k none r, booleanNotes k (caps t) r]
  | .where_ v => gather [report k none v, booleanNotes k str!"WHERE" v]
  | .having v => gather [report k none v, booleanNotes k str!"HAVING" v]
  | .groupBy args _ _ => gather (args.map (groupNotes k (es.getD [])))
  | .orderBy args => reportList k es args
  | .orderItem v _ _ =>
    match first v with
    | none => .error .index
    | some (.int i) => match es with
      | none => if 1 ≤ i then .error .type else positionNotes str!"ORDER" 0 i
      | some es => positionNotes str!"ORDER" es.length i
    | some _ => report k none v
  | .limit _ v => countNotes str!"argument of LIMIT must not contain variables" str!"LIMIT must not be negative" v
  | .offset v => countNotes str!"argument of OFFSET must be integer" str!"OFFSET must not be negative" v
  | .join type _ _ on using_ => .ok (if conditioned type on using_ then [] else [str!"Missing ON or USING for join"])
  | .select es _ _ _ f w g h o l off _ =>
    gather [reportList (scope k f) none es, report [] none f, report (scope k f) none w, report (scope k f) (some es) g,
      report (scope k f) none h, report (scope k f) (some es) o, report (scope k f) none l, report (scope k f) none off]
  | .withStmt .. => .error .type
  | _ => .ok []

/-- The bounds of BETWEEN need not be boolean. -/
def reportBounds (k : List Field) : Node → Notes
  | .boolc _ l r => gather [report k none l, report k none r]
  | _ => .ok []

/-- `report` for every element. -/
def reportList (k : List Field) (es : Option (List Node)) : List Node → Notes
  | [] => .ok []
  | n :: ns => gather [report k es n, reportList k es ns]

end

end SqlV.Core
