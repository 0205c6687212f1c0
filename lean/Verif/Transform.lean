import Verif.Parser
import Verif.Repr

/-!
# Rendering: the `transform` and `__str__` methods of `sqlvalidator/grammar/sql.py`

The methods of one object only look at the methods of its children (and at their classes), so they are
computed bottom-up: `render n` is the table of everything a caller may ask of `n`.
-/

namespace SqlV

/-- Result of a method that returns a `str` or raises. -/
abbrev RStr := Except PyErr Str

/-- `DEFAULT_LINE_LENGTH`, sql.py 6 -/
def lineLength : Nat := 88

/-- `s.replace("\n", "\n ")` -/
def indentNL (s : Str) : Str := Str.replace '\n' str!"\n " s

/-- `s.replace("\n", "\n  ")` -/
def indentNL2 (s : Str) : Str := Str.replace '\n' str!"\n  " s

/-- `"\n" in s` -/
def hasNL (s : Str) : Bool := decide ('\n' ∈ s)

/-- What `Join.__str__` needs of a side after removing an alias and parentheses, sql.py 1206-1218. -/
structure Peel where
  /-- `num_parenthesis` -/
  count : Nat
  /-- `isinstance(right_from, SelectStatement)` -/
  isSelect : Bool
  /-- `right_element` before the parentheses are added -/
  text : Str

/-- The methods of one object. -/
structure R where
  /-- `transform(obj)`, sql.py 9-12 -/
  t : RStr
  /-- `str(obj)` -/
  s : RStr
  /-- `obj.transform(is_subquery=True)` -/
  sub : RStr
  /-- `obj.transform(with_newline=True)`, for a `BooleanCondition` -/
  nl : RStr
  /-- `obj.transform(allow_linebreak=False)`, for an `OrderByClause` -/
  flat : RStr
  /-- `transform(obj.args[0])`, for a `Parenthesis` -/
  arg0 : RStr
  /-- parentheses removed, sql.py 1211-1218 -/
  peel : Except PyErr Peel
  /-- `Join.__str__` on an aliased side: the expression, `with_as`, `str(alias.alias)` -/
  aliased : Option (Except PyErr Peel × Bool × RStr)
  /-- the `FROM` part, sql.py 77-97 -/
  fromPos : RStr
  isParen : Bool
  isSelect : Bool
  isTable : Bool
  isBoolc : Bool
  /-- `group_each_by`, for a `GroupByClause` -/
  each : Bool
  /-- false for `None` -/
  truthy : Bool

/-- The table of an object whose class has only `__str__`; `transform` falls back on `str`
(sql.py 9-12), and calls of methods that do not exist raise `AttributeError`. -/
def R.ofStr (s : RStr) : R where
  t := s
  s := s
  sub := .error .attribute
  nl := .error .attribute
  flat := .error .attribute
  arg0 := .error .attribute
  peel := s.map fun x => ⟨0, false, x⟩
  aliased := none
  fromPos := s
  isParen := false
  isSelect := false
  isTable := false
  isBoolc := false
  each := false
  truthy := true

/-- The table of an object whose class has a method `transform` without the requested keyword
arguments, and whose `str` is `s`. -/
def R.ofTransform (t s : RStr) : R :=
  { R.ofStr s with
    t := t
    sub := .error .type
    nl := .error .type
    flat := .error .type
    peel := t.map fun x => ⟨0, false, x⟩
    fromPos := t }

/-- `map(f, l)` with exceptions. -/
def mapR (f : R → RStr) : List R → Except PyErr (List Str)
  | [] => .ok []
  | r :: rs => do
    let x ← f r
    let xs ← mapR f rs
    return x :: xs

/-- The body shared by `WhereClause.transform` (sql.py 262-268), `HavingClause.__str__` (349-355),
`OnClause.__str__` (1379-1385) and `UsingClause.__str__` (1389-1395). -/
def clauseBody (v : R) : RStr := do
  let tv ← v.t
  if v.isParen && hasNL tv then do
    let a ← v.arg0
    return str!" (\n " ++ indentNL a ++ str!"\n)"
  else if hasNL tv then return str!"\n " ++ indentNL tv
  else return ' ' :: tv

/-- `GroupByClause.__str__`, sql.py 292-301 -/
def groupByStr (args : List R) (rollup : Bool) : RStr := do
  let s ← match args with
    | [] => .error .index
    | [a] => do
      let x ← a.t
      pure (' ' :: x)
    | args => do
      let xs ← mapR R.s args
      pure (indentNL ('\n' :: Str.join str!",\n" xs))
  return if rollup then str!" ROLLUP" ++ s else s

/-- `OrderByClause.transform`, sql.py 374-383 -/
def orderByStr (args : List R) (allowLinebreak : Bool) : RStr :=
  match args with
  | [] => .error .index
  | [a] => do
    let x ← a.t
    return ' ' :: x
  | args => do
    let xs ← mapR R.s args
    if allowLinebreak then return indentNL ('\n' :: Str.join str!",\n" xs)
    else return ' ' :: Str.join str!", " xs

/-- `OrderByItem.__str__`, sql.py 410-416 -/
def orderItemStr (v : R) (asc desc : Bool) : RStr := do
  let s ← v.s
  return if asc then s ++ str!" ASC" else if desc then s ++ str!" DESC" else s

/-- `FunctionCall.__str__`, sql.py 536-552; `name` is `self.function_name.upper()`. -/
def funcStr (name : Str) (args : List R) : RStr := do
  let xs ← mapR R.t args
  if xs.any hasNL || decide ((Str.join str!", " xs).length > lineLength) then
    return name ++ str!"(" ++ str!"\n " ++ Str.join str!",\n " (xs.map indentNL) ++ str!"\n)"
  else return name ++ str!"(" ++ Str.join str!", " xs ++ str!")"

/-- `CountFunctionCall.__str__`, sql.py 591-596 -/
def countStr (name : Str) (args : List R) (distinct : Bool) : RStr := do
  let xs ← mapR R.t args
  return name ++ str!"(" ++ (if distinct then str!"DISTINCT " else []) ++ Str.join str!", " xs ++
    str!")"

/-- `ArrayAggFunctionCall.__str__`, sql.py 620-640; `LIMIT 0` is falsy. -/
def arrayAggStr (name : Str) (column : R) (distinct ignore respect : Bool) (order : R)
    (limit : Option Int) : RStr := do
  let c ← column.t
  let nulls := if ignore then str!" IGNORE NULLS" else if respect then str!" RESPECT NULLS" else []
  let o ← if order.truthy then do
      let x ← order.flat
      pure (str!" ORDER BY" ++ x)
    else pure []
  let l := match limit with
    | some i => if i = 0 then [] else str!" LIMIT " ++ Str.ofInt i
    | none => []
  return name ++ str!"(" ++ (if distinct then str!"DISTINCT " else []) ++ c ++ nulls ++ o ++ l ++
    str!")"

/-- `AnalyticsClause.__str__`, sql.py 674-694 -/
def analyticsStr (func : R) (part : List R) (order frame : R) : RStr := do
  let f ← func.t
  let s := f ++ str!" OVER ("
  let s ← match part with
    | [] => pure s
    | [p] => do
      let x ← p.t
      pure (s ++ str!"\n PARTITION BY" ++ str!" " ++ x)
    | ps => do
      let xs ← mapR R.t ps
      pure (s ++ str!"\n PARTITION BY" ++ str!"\n  " ++ Str.join str!",\n  " xs)
  let s ← if order.truthy then do
      let x ← order.t
      pure (s ++ str!"\n ORDER BY" ++ indentNL x)
    else pure s
  let s ← if frame.truthy then do
      let s := if hasNL s then s ++ str!"\n " else s
      let x ← frame.t
      pure (s ++ x)
    else pure s
  return s ++ (if hasNL s then str!"\n)" else str!")")

/-- `Parenthesis.__str__`, sql.py 974-982 -/
def parenStr (args : List R) : RStr := do
  let xs ← mapR (fun a => if a.isSelect then (do
      let x ← a.sub
      return '\n' :: x ++ str!"\n") else a.t) args
  return str!"(" ++ Str.join str!", " xs ++ str!")"

/-- `Alias.transform()`, sql.py 1042-1048, given the text of the expression. -/
def aliasStr (e : RStr) (alias : R) (withAs : Bool) : RStr := do
  let x ← e
  let a ← alias.t
  return x ++ (if withAs then str!" AS " else str!" ") ++ a

/-- `BooleanCondition.transform`, sql.py 1459-1480; `type` is `self.type.upper()`. -/
def boolStr (type : Str) (l r : R) (withNewline : Bool) : RStr := do
  let a ← l.t
  let b ← r.t
  let cond := a ++ str!" " ++ type ++ str!" " ++ b
  if decide (cond.length < lineLength) && !withNewline then return cond
  else do
    let arg (x : R) : RStr :=
      if x.isBoolc then x.nl
      else if x.isParen then do
        let y ← x.arg0
        return if hasNL y then str!"(\n " ++ indentNL y ++ str!"\n)" else str!"(" ++ y ++ str!")"
      else x.t
    let a ← arg l
    let b ← arg r
    return a ++ str!"\n" ++ type ++ str!" " ++ b

/-- One side of `Join.__str__`, sql.py 1203-1235 (right) and 1237-1266 (left); `lead` is the space in
front of the right side. -/
def joinSide (lead : Str) (x : R) : RStr := do
  let (p, alias) ← match x.aliased with
    | some (p, withAs, a) => do
      let p ← p
      pure (p, some (withAs, a))
    | none => do
      let p ← x.peel
      pure (p, none)
  let e :=
    if p.count > 0 then
      let y := '\n' :: p.text
      let y := if p.isSelect then y else indentNL y
      lead ++ List.replicate p.count '(' ++ y ++ str!"\n" ++ List.replicate p.count ')'
    else lead ++ p.text
  match alias with
  | some (withAs, a) => do
    let a ← a
    return e ++ (if withAs then str!" AS" else []) ++ str!" " ++ a
  | none => return e

/-- `Join.__str__`, sql.py 1202-1280; `upper` is `self.join_type.upper()`. -/
def joinStr (type upper : Str) (l r on using_ : R) : RStr := do
  let right ← joinSide str!" " r
  let left ← joinSide [] l
  let j := left ++ (if type = str!"," then str!"," else '\n' :: upper) ++ right
  if on.truthy then do
    let x ← on.t
    return j ++ str!"\nON" ++ x
  else if using_.truthy then do
    let x ← using_.t
    return j ++ str!"\nUSING" ++ x
  else return j

/-- `SelectAllClause.__str__`, sql.py 1544-1550 -/
def selectAllStr (e : R) (keyword : Str) (args : List R) : RStr := do
  let x ← e.t
  let s := x ++ str!" " ++ keyword ++ str!" ("
  match args with
  | [] => .error .index
  | [a] => do
    let y ← a.t
    return s ++ y ++ str!")"
  | args => do
    let ys ← mapR R.t args
    return s ++ str!"\n " ++ Str.join str!",\n " ys ++ str!"\n" ++ str!")"

/-- One WHEN … THEN …, sql.py 1581-1593 -/
def whenStr (w th : R) : RStr := do
  let tw ← w.t
  let s ← if w.isParen && hasNL tw then do
      let a ← w.arg0
      pure (str!"WHEN" ++ str!" (\n  " ++ indentNL2 a ++ str!"\n )\n ")
    else if hasNL tw then pure (str!"WHEN" ++ str!"\n  " ++ indentNL2 tw ++ str!"\n ")
    else pure (str!"WHEN" ++ str!" " ++ tw ++ str!" ")
  let y ← th.s
  return s ++ str!"THEN " ++ y

/-- `Case.__str__`, sql.py 1573-1600; the elements of `whens` are rendered pairs. -/
def caseStr (operand : R) (whens : List R) (els : R) : RStr := do
  let s ← if operand.truthy then do
      let x ← operand.t
      pure (str!"CASE" ++ str!" " ++ x)
    else pure str!"CASE"
  let ws ← mapR R.t whens
  let s := s ++ str!"\n " ++ Str.join str!"\n " ws
  let s ← if els.truthy then do
      let x ← els.t
      pure (s ++ str!"\n ELSE " ++ x)
    else pure s
  return s ++ str!"\nEND"

/-- The optional clause `name` of a `SELECT`, sql.py 99-118. -/
def optClause (name : Str) (c : R) : RStr :=
  if c.truthy then do
    let x ← c.t
    return name ++ x
  else return []

/-- `SelectStatement.transform` up to the sub-query / semicolon handling, sql.py 54-118 -/
def selectBody (exprs : List R) (all distinct : Bool) (on : List R)
    (from_ where_ groupBy having orderBy limit offset : R) : RStr := do
  let head ←
    if all then pure str!"SELECT ALL"
    else if distinct then
      if on.isEmpty then pure str!"SELECT DISTINCT"
      else do
        let xs ← mapR R.s on
        pure (str!"SELECT DISTINCT ON (" ++ Str.join str!", " xs ++ str!")")
    else pure str!"SELECT"
  let es ← match exprs with
    | [e] => do
      let x ← e.t
      pure (' ' :: x)
    | es => do
      let xs ← mapR R.t es
      pure (str!"\n " ++ Str.join str!",\n " (xs.map indentNL))
  let f ← if from_.truthy then do
      let x ← from_.fromPos
      pure (str!"\nFROM " ++ x)
    else pure []
  let w ← optClause str!"\nWHERE" where_
  let g ← optClause (str!"\nGROUP " ++ (if groupBy.each then str!"EACH " else []) ++ str!"BY") groupBy
  let h ← optClause str!"\nHAVING" having
  let o ← optClause str!"\nORDER BY" orderBy
  let l ← optClause str!"\nLIMIT " limit
  let off ← optClause str!"\nOFFSET " offset
  return head ++ es ++ f ++ w ++ g ++ h ++ o ++ l ++ off

variable [E : PyEnv]

/-- `Column.KEYWORDS`, sql.py 765-779 -/
def columnKeywords : List Str :=
  [str!"_table_suffix", str!"_partitiondate", str!"nfc", str!"nfkc", str!"nfd", str!"nfkd",
   str!"monday", str!"tuesday", str!"wednesday", str!"thursday", str!"friday", str!"saturday",
   str!"sunday"]

/-- `SelectStatement`, sql.py 53-124; `str()` of it is `repr` (`object.__str__`). -/
def R.select (n : Node) (exprs : List R) (all distinct : Bool) (on : List R)
    (from_ where_ groupBy having orderBy limit offset : R) (semi : Bool) : R :=
  let body := selectBody exprs all distinct on from_ where_ groupBy having orderBy limit offset
  let t : RStr := do
    let x ← body
    return if semi then x ++ str!";" else x
  let sub : RStr := do
    let x ← body
    return ' ' :: indentNL x
  { R.ofTransform t (pyRepr n) with
    sub := sub
    isSelect := true
    peel := sub.map fun x => ⟨0, true, x⟩ }

/-- `Parenthesis`, sql.py 970-982, and its treatment after `FROM`, sql.py 84-91. -/
def R.paren (args : List R) : R :=
  let s := parenStr args
  { R.ofStr s with
    isParen := true
    arg0 := match args with
      | [] => .error .index
      | a :: _ => a.t
    peel := match args with
      | [] => .error .index
      | a :: _ => a.peel.map fun p => { p with count := p.count + 1 }
    fromPos := match args with
      | [] => .error .index
      | a :: _ => do
        let inner ← if a.isSelect then a.sub else do
          let x ← a.t
          pure (' ' :: indentNL x)
        return str!"(\n" ++ inner ++ str!"\n)" }

/-- `Alias`, sql.py 1036-1048: it has no `value`, so `str` raises.  After `FROM` the expression is
rendered separately (sql.py 77-96); an empty text would fall back on the expression (1043). -/
def R.alias (e alias : R) (withAs : Bool) : R :=
  let t := aliasStr e.t alias withAs
  { R.ofTransform t (.error .attribute) with
    aliased := some (e.peel, withAs, alias.s)
    fromPos := do
      let x ← (if e.isParen then e.fromPos else e.t)
      if x.isEmpty then t else aliasStr (.ok x) alias withAs }

mutual

/-- The methods of each class. -/
def render : Node → R
  | .none => { R.ofStr (.ok str!"None") with truthy := false }
  | .raw s => R.ofStr (.ok s)
  | n@(.select exprs all distinct on from_ where_ groupBy having orderBy limit offset semi) =>
    R.select n (renderList exprs) all distinct (renderList on) (render from_) (render where_)
      (render groupBy) (render having) (render orderBy) (render limit) (render offset) semi
  | .where_ v => R.ofTransform (clauseBody (render v)) (render v).s
  | .groupBy args rollup each =>
    { R.ofStr (groupByStr (renderList args) rollup) with each := each }
  | .having v => R.ofStr (clauseBody (render v))
  | .orderBy args =>
    { R.ofTransform (orderByStr (renderList args) true) (.error .attribute) with
      flat := orderByStr (renderList args) false }
  | .orderItem v asc desc => R.ofStr (orderItemStr (render v) asc desc)
  -- sql.py 451-456
  | .limit all v => R.ofStr (if all then .ok str!"ALL" else (render v).s)
  -- sql.py 238-239
  | .offset v => R.ofStr (render v).s
  -- sql.py 497-500
  | .withQuery name stmt => R.ofStr do
      let x ← (render stmt).sub
      return name ++ str!" AS (\n" ++ x ++ str!"\n)"
  -- sql.py 516-520
  | .withStmt queries sel => R.ofTransform (do
      let qs ← mapR R.t (renderList queries)
      let x ← (render sel).t
      return str!"WITH " ++ Str.join str!",\n" qs ++ str!"\n" ++ x) (.error .attribute)
  | .func name args => R.ofStr (funcStr (E.upper name) (renderList args))
  -- sql.py 578-583
  | .cast column type => R.ofStr do
      let x ← (render column).t
      let y ← (render type).t
      return E.upper str!"cast" ++ str!"(" ++ x ++ str!" AS " ++ y ++ str!")"
  | .count args distinct => R.ofStr (countStr (E.upper str!"count") (renderList args) distinct)
  | .arrayAgg column distinct ignore respect order limit =>
    R.ofStr (arrayAggStr (E.upper str!"array_agg") (render column) distinct ignore respect
      (render order) limit)
  -- sql.py 648-651
  | .filtered call cond => R.ofStr do
      let x ← (render call).t
      let y ← (render cond).t
      return x ++ str!" FILTER (WHERE " ++ y ++ str!")"
  | .analytics func part order frame =>
    R.ofStr (analyticsStr (render func) (renderList part) (render order) (render frame))
  -- sql.py 743-744
  | .frame rowsRange frame => R.ofStr (.ok (E.upper rowsRange ++ str!" " ++ E.upper frame))
  -- sql.py 781-784
  | .column v => R.ofStr (.ok (if v ∈ columnKeywords then E.upper v else v))
  -- sql.py 807-808
  | .chained l r => R.ofStr do
      let x ← (render l).t
      let y ← (render r).t
      return x ++ str!"." ++ y
  -- sql.py 840-841
  | .type v => R.ofStr (.ok (E.upper v))
  -- sql.py 876-877
  | .datePart part e => R.ofStr do
      let x ← (render e).t
      return E.upper part ++ str!" FROM " ++ x
  -- sql.py 889-892
  | .string v quotes pre => R.ofStr (.ok (pre.getD [] ++ quotes ++ v ++ quotes))
  | .int i => R.ofStr (.ok (Str.ofInt i))
  | .float repr => R.ofStr (.ok repr)
  | .null => R.ofStr (.ok str!"NULL")
  -- sql.py 962-963
  | .bool b => R.ofStr (.ok (E.upper (if b then str!"True" else str!"False")))
  | .paren args => R.paren (renderList args)
  -- sql.py 1022-1023
  | .array args => R.ofStr do
      let xs ← mapR R.t (renderList args)
      return str!"[" ++ Str.join str!", " xs ++ str!"]"
  | .alias e alias withAs => R.alias (render e) (render alias) withAs
  -- sql.py 1084-1087
  | .index e indices => R.ofStr do
      let x ← (render e).t
      let xs ← mapR R.t (renderList indices)
      return x ++ str!"[" ++ Str.join str!", " xs ++ str!"]"
  -- sql.py 1100-1102
  | .arith op l r => R.ofStr do
      let x ← (render l).s
      let y ← (render r).s
      return x ++ (str!" " ++ op ++ str!" ") ++ y
  -- sql.py 1137-1140
  | .bitwise l op r => R.ofStr do
      let x ← (render l).t
      let y ← (render r).t
      return x ++ str!" " ++ op ++ str!" " ++ y
  -- sql.py 1153-1157
  | .table v sq =>
    { R.ofStr (do
        let x ← (render v).t
        return if sq then str!"[" ++ x ++ str!"]" else x) with isTable := true }
  -- sql.py 1172-1180
  | .unnest v withOffset withOffsetAs offsetAlias => R.ofStr do
      let x ← (render v).t
      if withOffset then
        let a := offsetAlias.getD []
        return x ++ str!" WITH OFFSET" ++
          (if a.isEmpty then [] else (if withOffsetAs then str!" AS" else []) ++ str!" " ++ a)
      else return x
  | .join type l r on using_ =>
    R.ofStr (joinStr type (E.upper type) (render l) (render r) (render on) (render using_))
  -- sql.py 1347-1355
  | .combined op l r => R.ofStr do
      let x ← (render l).t
      let y ← (render r).t
      return x ++ str!"\n" ++ E.upper op ++ (if (render r).isTable then str!" " else str!"\n") ++ y
  | .on v => R.ofStr (clauseBody (render v))
  | .using_ v => R.ofStr (clauseBody (render v))
  -- sql.py 1419-1422
  | .cond l pred r => R.ofStr do
      let x ← (render l).t
      let y ← (render r).t
      return x ++ str!" " ++ E.upper pred ++ str!" " ++ y
  | .boolc type l r =>
    { R.ofTransform (boolStr (E.upper type) (render l) (render r) false) (.error .attribute) with
      nl := boolStr (E.upper type) (render l) (render r) true
      isBoolc := true }
  -- sql.py 1521-1525
  | .neg e => R.ofStr do
      let x ← (render e).t
      return str!"NOT" ++ (if (render e).isParen then [] else str!" ") ++ x
  | .except_ e args => R.ofStr (selectAllStr (render e) str!"EXCEPT" (renderList args))
  | .replace e args => R.ofStr (selectAllStr (render e) str!"REPLACE" (renderList args))
  | .whenThen w t => R.ofStr (whenStr (render w) (render t))
  | .case operand whens els => R.ofStr (caseStr (render operand) (renderList whens) (render els))

/-- `render` on a list of objects. -/
def renderList : List Node → List R
  | [] => []
  | n :: ns => render n :: renderList ns

end

/-- `transform(obj)`, sql.py 9-12; for statements this is `obj.transform()`. -/
def transform (n : Node) : RStr := (render n).t

end SqlV
