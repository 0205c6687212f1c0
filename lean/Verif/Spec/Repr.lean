import Verif.Tree

/-!
# Representations

What a string literal of Python stands for, as far as `repr` writes it: with the escapes `\\`, `\'`, `\"`, `\t`, `\n`, `\r`, `\xhh`,
`\uhhhh` and `\Uhhhhhhhh` (The Python Language Reference, 2.4.1).
-/

namespace SqlV.PyLit

/-- The value of a hexadecimal digit. -/
def hexValue (c : Char) : Option Nat :=
  if '0'.toNat ≤ c.toNat ∧ c.toNat ≤ '9'.toNat then some (c.toNat - '0'.toNat)
  else if 'a'.toNat ≤ c.toNat ∧ c.toNat ≤ 'f'.toNat then some (c.toNat - 'a'.toNat + 10)
  else none

/-- The value of hexadecimal digits. -/
def hexNumber (ds : Str) : Option Nat := ds.foldlM (fun a c => (hexValue c).map (16 * a + ·)) 0

/-- The character whose number has `k` digits, and what follows. -/
def coded (k : Nat) (r : Str) : Option (Char × Str) :=
  if (r.take k).length = k then (hexNumber (r.take k)).map fun n => (Char.ofNat n, r.drop k) else none

/-- What follows a backslash: the character that is meant, and the rest. -/
def escape : Str → Option (Char × Str)
  | [] => none
  | c :: r =>
    if c = 't' then some ('\t', r) else if c = 'n' then some ('\n', r) else if c = 'r' then some ('\r', r)
    else if c = 'x' then coded 2 r else if c = 'u' then coded 4 r else if c = 'U' then coded 8 r
    else if c = '\\' ∨ c = '\'' ∨ c = '"' then some (c, r) else none

/-- The string of at most `k` characters that stands between two quotes `q`. -/
def body (q : Char) : Nat → Str → Option Str
  | _, [] => some []
  | 0, _ :: _ => none
  | k + 1, c :: r =>
    if c = '\\' then (escape r).bind fun p => (body q k p.2).map (p.1 :: ·)
    else if c = q ∨ c = '\n' then none
    else (body q k r).map (c :: ·)

/-- What a literal stands for. -/
def value (lit : Str) : Option Str :=
  match lit with
  | q :: r => if (q = '\'' ∨ q = '"') ∧ r.getLast? = some q then body q r.length r.dropLast else none
  | [] => none

end SqlV.PyLit

namespace SqlV.Picture

/-- `template.format(*args)`, for templates in which `{}` marks the places. -/
def fill : Str → List Str → Str
  | '{' :: '}' :: t, x :: xs => x ++ fill t xs
  | c :: t, xs => c :: fill t xs
  | [], _ => []

/-- True or False. -/
def truth : Bool → Str
  | true => str!"True"
  | false => str!"False"

/-- The texts with commas between them. -/
def listed : List Str → Str
  | [] => []
  | [x] => x
  | x :: y :: xs => x ++ str!", " ++ listed (y :: xs)

/-- The list, or None if there is nothing in it. -/
def listOrNone (xs : List Str) : Str := if xs = [] then str!"None" else fill str!"[{}]" [listed xs]

mutual

/-- The representation of an object, given how strings are put in quotes: the templates of `sql.py`, filled in. -/
def picture (quoted : Str → Str) : Node → Str
  | .none => str!"None"
  | .raw s => quoted s
  | .select es all distinct on f w g h o l off semi =>
    fill str!"<SelectStatement:\n  Expressions: [{}]\n  Select All: {} - Select Distinct: {} - Select Distinct On: {}\n  From: {}\n  Where: {}\n  Group By: {}\n  Having: {}\n  Order By: {}\n  Limit: {}\n  Offset: {}\n  Semi Colon: {}\n>\n        "
      [listed (pictures quoted es), truth all, truth distinct, listOrNone (pictures quoted on), picture quoted f, picture quoted w,
        picture quoted g, picture quoted h, picture quoted o, picture quoted l, picture quoted off, truth semi]
  | .where_ v => fill str!"<WhereClause: {}>" [picture quoted v]
  | .groupBy args rollup _ => fill str!"<GroupByClause: {} - rollup={}>" [listed (pictures quoted args), truth rollup]
  | .having v => fill str!"<HavingClause: {}>" [picture quoted v]
  | .orderBy args => fill str!"<OrderByClause: {}>" [listed (pictures quoted args)]
  | .orderItem v asc desc => fill str!"<OrderByItem: {} has_asc={} has_desc={}>" [picture quoted v, truth asc, truth desc]
  | .limit all v => fill str!"<LimitClause: {} limit_all={}>" [picture quoted v, truth all]
  | .offset v => fill str!"<OffsetClause: {}>" [picture quoted v]
  | .withQuery .. | .withStmt .. | .filtered .. => []
  | .func name args => fill str!"<FunctionCall {} - {}>" [name, listed (pictures quoted args)]
  | .cast column type => fill str!"<FunctionCall cast - {}, 'AS', {}>" [picture quoted column, picture quoted type]
  | .count args _ => fill str!"<FunctionCall count - {}>" [listed (pictures quoted args)]
  | .arrayAgg column _ _ _ _ _ => fill str!"<FunctionCall array_agg - {}>" [picture quoted column]
  | .analytics func part order frame =>
    fill str!"<AnalyticsClause:\n  Function: {}\n  Partition By: {}\n  Order By: {}\n  Frame Clause: {}\n"
      [picture quoted func, listOrNone (pictures quoted part), picture quoted order, picture quoted frame]
  | .frame rowsRange frame => fill str!"<WindowFrameClause:\n  Row Range: {}\n  Frame: {}\n" [quoted rowsRange, quoted frame]
  | .column v => fill str!"<Column: {}>" [quoted v]
  | .chained l r => fill str!"<ChainedColumns: {}.{}>" [picture quoted l, picture quoted r]
  | .type v => fill str!"<Type: {}>" [quoted v]
  | .datePart _ e => fill str!"<DatePartExtraction: {}>" [picture quoted e]
  | .string v quotes pre => fill str!"<String: {} quotes={} prefix={}>" [quoted v, quoted quotes, match pre with
    | none => str!"None"
    | some p => quoted p]
  | .int i => fill str!"<Integer: {}>" [Str.ofInt i]
  | .float x => fill str!"<Float: {}>" [x]
  | .null => str!"<Null: None>"
  | .bool b => fill str!"<Boolean: {}>" [truth b]
  | .paren args => fill str!"<Parenthesis: {}>" [listed (pictures quoted args)]
  | .array args => fill str!"<Array: {}>" [listed (pictures quoted args)]
  | .alias e alias withAs => fill str!"<Alias: {} as={} {}>" [picture quoted e, truth withAs, picture quoted alias]
  | .index e indices => fill str!"<Index: {} indices={}>" [picture quoted e, quoted (listed (pictures quoted indices))]
  | .arith op l r => fill str!"<ArithmaticOperator {}: {}, {}>" [op, picture quoted l, picture quoted r]
  | .bitwise l op r => fill str!"<BitwiseOperation: {} {} {}>" [picture quoted l, op, picture quoted r]
  | .table v _ => fill str!"<Table: {}>" [picture quoted v]
  | .unnest v _ _ _ => fill str!"<Unnest: {}>" [picture quoted v]
  | .join type l r on using_ =>
    fill str!"<Join:\n  Join Type: {}\n  Left part: {}\n  Right part: {}\n  On: {}\n  Using {}\n"
      [quoted type, picture quoted l, picture quoted r, picture quoted on, picture quoted using_]
  | .combined op l r =>
    fill str!"<CombinedQueries:\n  Set Operator: {}\n  Left query: {}\n  Right query: {}\n" [quoted op, picture quoted l, picture quoted r]
  | .on v => fill str!"<OnClause: {}>" [picture quoted v]
  | .using_ v => fill str!"<UsingClause: {}>" [picture quoted v]
  | .cond l pred r => fill str!"<Condition: {} {} {}>" [picture quoted l, pred, picture quoted r]
  | .boolc type l r => fill str!"<BooleanCondition {}: {}, {}>" [type, picture quoted l, picture quoted r]
  | .neg e => fill str!"<Negation: {}>" [picture quoted e]
  | .except_ e args => fill str!"<ExceptClause: {} args: [{}]>" [picture quoted e, listed (pictures quoted args)]
  | .replace e args => fill str!"<ReplaceClause: {} args: [{}]>" [picture quoted e, listed (pictures quoted args)]
  | .whenThen w t => fill str!"({}, {})" [picture quoted w, picture quoted t]
  | .case operand _ _ => fill str!"<Case: {}>" [picture quoted operand]

/-- The representations of objects. -/
def pictures (quoted : Str → Str) : List Node → List Str
  | [] => []
  | n :: ns => picture quoted n :: pictures quoted ns

end

end SqlV.Picture
