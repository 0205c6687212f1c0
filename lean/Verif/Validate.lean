import Verif.Transform

/-!
# Validation: the `validate`, `return_type`, `resolve_return_type` and `known_fields` members of
`sqlvalidator/grammar/sql.py`

Sets of `_FieldInfo` are lists without duplicates; the only place where their iteration order is
observable is `resolve_return_type`, which asks `PyEnv.setOrder`.
-/

namespace SqlV

/-- `t.__name__` -/
def PType.pyName : PType → Str
  | .object => str!"object"
  | .bool => str!"bool"
  | .int => str!"int"
  | .float => str!"float"
  | .str => str!"str"
  | .noneType => str!"NoneType"

/-- `t.__name__` where `t` may be `None`. -/
def typeName : Option PType → Except PyErr Str
  | some t => .ok t.pyName
  | none => .error .attribute

/-- `value_type not in (bool, object)` -/
def notBoolean (t : Option PType) : Bool := !(decide (t = some .bool) || decide (t = some .object))

/-- `fields.add(f)` -/
def addField (fields : List Field) (f : Field) : List Field :=
  if f ∈ fields then fields else fields ++ [f]

/-- `a | b` -/
def unionFields (a b : List Field) : List Field := b.foldl addField a

/-- `any(f.name == n for f in fields)` -/
def hasField (fields : List Field) (n : Str) : Bool := fields.any fun f => decide (f.name = n)

/-- `s.split(".", 1)[-1]` -/
def afterDot (s : Str) : Str := if '.' ∈ s then (s.dropWhile (· ≠ '.')).drop 1 else s

/-- `[f for f in known_fields if f.name.split(".", 1)[-1] == value]` -/
def fieldsWithoutAlias (fields : List Field) (v : Str) : List Field :=
  fields.filter fun f => decide (afterDot f.name = v)

/-- Result of a `validate` method. -/
abbrev VRes := Except PyErr (List Str)

variable [E : PyEnv]

mutual

/-- `n.return_type` (`AttributeError` for objects that have none).  sql.py: 251-252 (default), 821-822,
900-901, 912-913, 924-925, 938-939, 966-967, 1013-1015, 1068-1069, 1118-1121, 1447-1448, 1511-1512,
1528-1529.  `isinstance(a, float)` in 1119 is false for every expression object. -/
def returnType : Node → Except PyErr (Option PType)
  | .none => .error .attribute
  | .raw _ => .error .attribute
  | .select .. => .error .attribute
  | .whenThen .. => .error .attribute
  | .chained _ r => returnType r
  | .string .. => .ok (some .str)
  | .int _ => .ok (some .int)
  | .float _ => .ok (some .float)
  | .null => .ok (some .noneType)
  | .bool _ => .ok (some .bool)
  | .paren args => returnTypeHead args
  | .alias e _ _ => returnType e
  | .arith .. => .ok (some .int)
  | .cond .. => .ok (some .bool)
  | .boolc .. => .ok (some .bool)
  | .neg _ => .ok (some .bool)
  | _ => .ok (some .object)

/-- `for a in self.args: return a.return_type`, sql.py 1014-1015 -/
def returnTypeHead : List Node → Except PyErr (Option PType)
  | [] => .ok none
  | a :: _ => returnType a

end

/-- `n.resolve_return_type(known_fields)`, sql.py 254-258.  `transform(self)` is evaluated once per
field, so an exception it raises only shows if there is a field. -/
def resolveType (n : Node) (known : List Field) : Except PyErr (Option PType) :=
  match n with
  | .select .. | .none | .raw _ | .whenThen .. => .error .attribute
  | _ =>
    if known.isEmpty then returnType n
    else do
      let name ← transform n
      match (E.setOrder known).filter (fun f => decide (f.name = name)) with
      | f :: _ => return f.type
      | [] => returnType n

/-- `hasattr(x, "known_fields")` followed by the attribute: `AttributeError` means no. -/
def optFields (r : Except PyErr (List Field)) : Except PyErr (Option (List Field)) :=
  match r with
  | .ok fs => .ok (some fs)
  | .error .attribute => .ok none
  | .error e => .error e

/-- The alias name used as a field name by `SelectStatement.known_fields`, sql.py 157-160: a column or
a `str`; any other expression is not hashable. -/
def aliasField : Node → Except PyErr Str
  | .column v => .ok v
  | .raw s => .ok s
  | _ => .error .type

/-- Fields exported by the select list, sql.py 152-160 -/
def exprFields : List Node → List Field → Except PyErr (List Field)
  | [], acc => .ok acc
  | e :: es, acc => do
    let acc ← match e with
      | .column v => pure (addField acc ⟨v, some .object⟩)
      | .alias e' a _ => do
        -- the type is evaluated before the field is hashed
        let ty ← returnType e'
        let name ← aliasField a
        pure (addField acc ⟨name, ty⟩)
      | _ => pure acc
    exprFields es acc

/-- `alias + "." + field.name` for each field, sql.py 1318-1320 and 1325-1332: a `String` cannot be
concatenated. -/
def prefixFields (alias : Node) : List Field → List Field → Except PyErr (List Field)
  | [], acc => .ok acc
  | f :: fs, acc =>
    match alias with
    | .raw a => prefixFields alias fs (addField acc ⟨a ++ str!"." ++ f.name, f.type⟩)
    | _ => .error .type

/-- `"{}.{}".format(transform(self.alias), f.name)` for each field, sql.py 1073-1076 -/
def formatFields (alias : Node) : List Field → List Field → Except PyErr (List Field)
  | [], acc => .ok acc
  | f :: fs, acc => do
    let a ← transform alias
    formatFields alias fs (addField acc ⟨a ++ str!"." ++ f.name, f.type⟩)

mutual

/-- `n.known_fields`, sql.py 151-173 (SelectStatement), 1007-1010 (Parenthesis), 1072-1076 (Alias),
1160-1161 (Table), 1315-1336 (Join); `AttributeError` for the other classes. -/
def knownFields : Node → Except PyErr (List Field)
  | .select exprs _ _ _ from_ _ _ _ _ _ _ _ => do
    let fields ← exprFields exprs []
    match from_ with
    | .paren args => do
      match args with
      | [] => .error .index
      | a :: _ =>
        if a.isSelect then do
          let subq ← knownFields a
          if hasField fields str!"*" && !hasField subq str!"*" then
            return unionFields (fields.filter fun f => decide (f.name ≠ str!"*")) subq
          else return fields
        else return fields
    | _ => return fields
  | .paren args => knownFieldsHead args
  | .alias e a _ => do
    let fs ← knownFields e
    formatFields a fs []
  | .table _ _ => .ok [⟨str!"*", some .object⟩]
  | .join _ l r _ _ => do
    let left ← match l with
      | .alias e a _ => do
        let fs ← knownFields e
        prefixFields a fs []
      | l => do
        let fs ← knownFields l
        pure (unionFields [] fs)
    match r with
    | .alias e a _ => do
      let fs ← knownFields e
      prefixFields a fs left
    | r => do
      let fs ← knownFields r
      return unionFields left fs
  | _ => .error .attribute

/-- `Parenthesis.known_fields`, sql.py 1007-1010 -/
def knownFieldsHead : List Node → Except PyErr (List Field)
  | [] => .error .index
  | a :: _ => do
    let fs ← optFields (knownFields a)
    return fs.getD []

end

mutual

/-- `while isinstance(x, Parenthesis): x = x.args[0]`, sql.py 320-321, and
`while isinstance(x, Parenthesis): x = x.value`, sql.py 433-434, 467-468, 481-482 with 994-998. -/
def unparen : Node → Except PyErr Node
  | .paren args => unparenHead args
  | n => .ok n

/-- `args[0]`, then continue. -/
def unparenHead : List Node → Except PyErr Node
  | [] => .error .index
  | a :: _ => unparen a

end

/-- The aliases of the select list that are plain strings; an alias after `AS` is an object and never
equals a `str`, sql.py 332-333 -/
def rawAliases : List Node → List Str
  | [] => []
  | .alias _ (.raw a) _ :: es => a :: rawAliases es
  | _ :: es => rawAliases es

/-- One argument of `GroupByClause.validate`, sql.py 320-343 -/
def validateGroupArg (known : List Field) (select : List Node) (arg : Node) : VRes := do
  let check (v : Str) : VRes :=
    if !hasField known v && decide (v ∉ rawAliases select) && !hasField known str!"*" then
      if (fieldsWithoutAlias known v).length > 1 then .error .attribute -- `self.value`, 341
      else if (fieldsWithoutAlias known v).length = 0 then
        return [str!"column \"" ++ v ++ str!"\" does not exist"]
      else return []
    else return []
  match ← unparen arg with
  | .int i =>
    if i ≤ 0 ∨ i > select.length then
      return [str!"GROUP BY position " ++ Str.ofInt i ++ str!" is not in select list"]
    else return []
  | .column v => check v
  | .string v _ _ => check v
  | _ => return []

/-- `errors += …` over a list. -/
def concatV (f : Node → VRes) : List Node → VRes
  | [] => .ok []
  | n :: ns => do
    let a ← f n
    let b ← concatV f ns
    return a ++ b

/-- `GroupByClause.validate`, sql.py 317-345 -/
def validateGroupBy (known : List Field) (select args : List Node) : VRes :=
  concatV (validateGroupArg known select) args

/-- `Column.validate`, sql.py 786-800 -/
def validateColumn (known : List Field) (v : Str) : VRes :=
  if !hasField known v && decide (v ≠ str!"*") && !hasField known str!"*" then
    if (fieldsWithoutAlias known v).length > 1 then
      .ok [str!"column \"" ++ v ++ str!"\" is ambiguous"]
    else if (fieldsWithoutAlias known v).length = 0 then
      .ok [str!"The column " ++ v ++ str!" was not found"]
    else .ok []
  else .ok []

/-- `ChainedColumns.validate`, sql.py 824-834 -/
def validateChained (known : List Field) (l r : Node) : VRes := do
  let full ← transform (.chained l r)
  let alias ← transform l
  if !hasField known full && !hasField known (alias ++ str!".*") && !hasField known str!"*" then do
    let last ← (render r).s
    return [str!"The column " ++ last ++ str!" was not found in alias " ++ alias]
  else return []

/-- `LimitClause.validate`, sql.py 464-474, and `OffsetClause.validate`, 478-488 -/
def validateCount (v : Node) (notInt negative : Str) : VRes := do
  let v ← unparen v
  let ty ← returnType v
  match v with
  | .int i =>
    if ty ≠ some .int then return [notInt]
    else if i < 0 then return [negative]
    else return []
  | _ => return [notInt]

/-- The type check of WHERE (sql.py 273-279) and HAVING (360-366). -/
def mustBeBoolean (msg : Str) (n : Node) (known : List Field) : VRes := do
  let ty ← resolveType n known
  if notBoolean ty then do
    let name ← typeName ty
    return [msg ++ name]
  else return []

/-- The methods used by validation. -/
structure V where
  /-- `obj.validate(known_fields)` -/
  v : List Field → VRes
  /-- `obj.validate(known_fields, is_between_predicate=True)` -/
  between : List Field → VRes
  /-- `obj.validate(known_fields, select_expressions)`, for `OrderByClause` and `OrderByItem`
  (`GroupByClause` only needs its arguments' classes) -/
  vIn : List Field → Option (List Node) → VRes
  truthy : Bool

/-- A class without the two special signatures. -/
def V.of (v : List Field → VRes) : V := ⟨v, fun _ => .error .type, fun _ _ => .error .type, true⟩

/-- `errors += a.validate(known_fields)` over a list. -/
def V.concat (known : List Field) : List V → VRes
  | [] => .ok []
  | x :: xs => do
    let a ← x.v known
    let b ← V.concat known xs
    return a ++ b

/-- `errors += arg.validate(known_fields, select_expressions)` over a list. -/
def V.concatIn (known : List Field) (select : Option (List Node)) : List V → VRes
  | [] => .ok []
  | x :: xs => do
    let a ← x.vIn known select
    let b ← V.concatIn known select xs
    return a ++ b

/-- `BooleanCondition.validate`, sql.py 1495-1508; `type` is `self.type.upper()`. -/
def validateBool (type : Str) (l r : Node) (vl vr : V) (isBetween : Bool) (known : List Field) :
    VRes := do
  let msg := str!"The argument of " ++ type ++ str!" must be type boolean, not type "
  let a ← vl.v known
  let b ← if isBetween then pure [] else mustBeBoolean msg l known
  let c ← vr.v known
  let d ← if isBetween then pure [] else mustBeBoolean msg r known
  return a ++ b ++ c ++ d

/-- `OrderByItem.validate`, sql.py 430-443; `select = none` is `None` (sql.py 734). -/
def validateOrderItem (v : Node) (vv : V) (known : List Field) (select : Option (List Node)) :
    VRes := do
  match ← unparen v with
  | .int i =>
    if i ≤ 0 then
      return [str!"ORDER BY position " ++ Str.ofInt i ++ str!" is not in select list"]
    else
      match select with
      | none => .error .type
      | some es =>
        if i > es.length then
          return [str!"ORDER BY position " ++ Str.ofInt i ++ str!" is not in select list"]
        else return []
  | _ => vv.v known

/-- An optional clause of `SelectStatement.validate`. -/
def optV (c : Node) (r : VRes) : VRes := if c.truthy then r else .ok []

mutual

/-- The `validate` methods; classes that inherit `Expression.validate` return `[]` (sql.py 247-248),
and objects without the method raise `AttributeError`. -/
def vtable : Node → V
  | .none => { V.of (fun _ => .error .attribute) with truthy := false }
  | .raw _ => V.of fun _ => .error .attribute
  | .whenThen .. => V.of fun _ => .error .attribute
  -- sql.py 126-148
  | .select exprs _ _ _ from_ where_ groupBy having orderBy limit offset _ => V.of fun known => do
    let fromFields ← optFields (knownFields from_)
    let known := match fromFields with
      | some fs => unionFields known fs
      | none => known
    let a ← V.concat known (vtableList exprs)
    let b ← optV from_ ((vtable from_).v [])
    let c ← optV where_ ((vtable where_).v known)
    let d ← optV groupBy (match groupBy with
      | .groupBy args _ _ => validateGroupBy known exprs args
      | _ => .error .type)
    let e ← optV having ((vtable having).v known)
    let f ← optV orderBy ((vtable orderBy).vIn known (some exprs))
    let g ← optV limit ((vtable limit).v known)
    let h ← optV offset ((vtable offset).v known)
    return a ++ b ++ c ++ d ++ e ++ f ++ g ++ h
  -- sql.py 270-280
  | .where_ v => V.of fun known => do
    let a ← (vtable v).v known
    let b ← mustBeBoolean str!"The argument of WHERE must be type boolean, not type " v known
    return a ++ b
  -- sql.py 357-367
  | .having v => V.of fun known => do
    let a ← (vtable v).v known
    let b ← mustBeBoolean str!"The argument of HAVING must be type boolean, not type " v known
    return a ++ b
  -- sql.py 317: a second argument is required
  | .groupBy .. => V.of fun _ => .error .type
  -- sql.py 397-401
  | .orderBy args =>
    ⟨fun _ => .error .type, fun _ => .error .type, fun known select =>
      V.concatIn known select (vtableList args), true⟩
  | .orderItem v _ _ =>
    ⟨fun _ => .error .type, fun _ => .error .type, fun known select =>
      validateOrderItem v (vtable v) known select, true⟩
  | .limit _ v => V.of fun _ =>
    validateCount v str!"argument of LIMIT must not contain variables"
      str!"LIMIT must not be negative"
  | .offset v => V.of fun _ =>
    validateCount v str!"argument of OFFSET must be integer" str!"OFFSET must not be negative"
  -- sql.py 554-558
  | .func _ args => V.of fun known => V.concat known (vtableList args)
  -- `"AS".validate` does not exist, sql.py 576 with 556-557
  | .cast column _ => V.of fun known => do
    let _ ← (vtable column).v known
    .error .attribute
  | .count args _ => V.of fun known => V.concat known (vtableList args)
  | .arrayAgg column _ _ _ _ _ => V.of fun known => (vtable column).v known
  -- sql.py 660-664
  | .filtered call cond => V.of fun known => do
    let a ← (vtable call).v known
    let b ← (vtable cond).v known
    return a ++ b
  -- sql.py 727-735
  | .analytics func part order _ => V.of fun known => do
    let a ← (vtable func).v known
    let b ← V.concat known (vtableList part)
    let c ← optV order ((vtable order).vIn known none)
    return a ++ b ++ c
  | .column v => V.of fun known => validateColumn known v
  | .chained l r => V.of fun known => validateChained known l r
  -- sql.py 1000-1004
  | .paren args => V.of fun known => V.concat known (vtableList args)
  -- sql.py 1062-1065
  | .alias e _ _ => V.of fun known => (vtable e).v known
  -- sql.py 1308-1312
  | .join type _ _ on using_ => V.of fun _ =>
    if type ≠ str!"CROSS JOIN" ∧ type ≠ str!"," ∧ !(using_.truthy || on.truthy) then
      .ok [str!"Missing ON or USING for join"]
    else .ok []
  -- sql.py 1437-1444
  | .cond l pred r => V.of fun known => do
    let a ← (vtable l).v known
    let b ← if E.lower pred = str!"between" then (vtable r).between known else (vtable r).v known
    return a ++ b
  | .boolc type l r =>
    ⟨validateBool (E.upper type) l r (vtable l) (vtable r) false,
     validateBool (E.upper type) l r (vtable l) (vtable r) true,
     fun _ _ => .error .type, true⟩
  -- sql.py 1560-1564
  | .replace _ args => V.of fun known => V.concat known (vtableAliases args)
  | _ => V.of fun _ => .ok []

/-- `vtable` on a list. -/
def vtableList : List Node → List V
  | [] => []
  | n :: ns => vtable n :: vtableList ns

/-- The `alias` attributes of the arguments of REPLACE. -/
def vtableAliases : List Node → List V
  | [] => []
  | .alias _ a _ :: ns => vtable a :: vtableAliases ns
  | _ :: ns => V.of (fun _ => .error .attribute) :: vtableAliases ns

end

/-- `obj.validate(known_fields)` -/
def validateWith (n : Node) (known : List Field) : VRes := (vtable n).v known

/-- `obj.validate()` as called by `SQLQuery._validate` (sql_validator.py 33): only `SelectStatement`
has a default for `known_fields`. -/
def validate (n : Node) : VRes :=
  match n with
  | .select .. => validateWith n []
  | .none | .raw _ | .whenThen .. => .error .attribute
  | _ => .error .type

end SqlV
