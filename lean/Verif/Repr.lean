import Verif.Env

/-!
# Representations: the `__repr__` methods of `sqlvalidator/grammar/sql.py`

They are reached by the formatter: `str` of a `SelectStatement` is `repr` of it (`object.__str__`).

Simplification: `select_distinct_on` and `partition_by` print as `None` if they are empty lists (`DISTINCT ON ()`, and `PARTITION BY`
with nothing after it), where Python prints `[]`; `Node` does not tell these apart.
-/

namespace SqlV

/-- The last `k` hexadecimal digits of `n`, `"%0kx"`. -/
def hexDigits : Nat → Nat → Str
  | 0, _ => []
  | k + 1, n => hexDigits k (n / 16) ++ [Nat.digitChar (n % 16)]

variable [E : PyEnv]

/-- One character in `repr` of a `str` in quotes `q` (CPython 3.11, `unicode_repr` of Objects/unicodeobject.c). -/
def reprChar (q c : Char) : Str :=
  if c = q ∨ c = '\\' then ['\\', c]
  else if c = '\t' then str!"\\t"
  else if c = '\n' then str!"\\n"
  else if c = '\r' then str!"\\r"
  else if c.toNat < 32 ∨ c.toNat = 127 then str!"\\x" ++ hexDigits 2 c.toNat
  else if c.toNat < 127 ∨ E.printable c then [c]
  else if c.toNat < 256 then str!"\\x" ++ hexDigits 2 c.toNat
  else if c.toNat < 65536 then str!"\\u" ++ hexDigits 4 c.toNat
  else str!"\\U" ++ hexDigits 8 c.toNat

/-- `repr` of a `str`: in single quotes, or in double quotes if there are single and no double quotes in it. -/
def reprStr (s : Str) : Str :=
  let q := if '\'' ∈ s ∧ '"' ∉ s then '"' else '\''
  q :: s.flatMap (reprChar q) ++ [q]

/-- `repr` of a `bool`. -/
def reprBool (b : Bool) : Str := if b then str!"True" else str!"False"

/-- `repr` of a `str` or `None`. -/
def reprOpt : Option Str → Str
  | none => str!"None"
  | some s => reprStr s

/-- `repr` of a `list`, given those of its elements. -/
def reprSeq (xs : List Str) : Str := str!"[" ++ Str.join str!", " xs ++ str!"]"

/-- `Expression.__repr__`, sql.py 241-242 -/
def reprValue (cls v : Str) : Str := str!"<" ++ cls ++ str!": " ++ v ++ str!">"

mutual

/-- `repr` of an object.  `FilteredFunctionCall`, `WithQuery` and `WithStatement` inherit `Expression.__repr__`, but have no `value`. -/
def pyRepr : Node → Except PyErr Str
  | .none => .ok str!"None"
  | .raw s => .ok (reprStr s)
  -- sql.py 204-231
  | .select es all distinct on f w g h o l off semi => do
      let es ← pyReprs es
      let on ← pyReprs on
      let f ← pyRepr f
      let w ← pyRepr w
      let g ← pyRepr g
      let h ← pyRepr h
      let o ← pyRepr o
      let l ← pyRepr l
      let off ← pyRepr off
      return str!"<SelectStatement:\n  Expressions: " ++ reprSeq es ++
        str!"\n  Select All: " ++ reprBool all ++ str!" - Select Distinct: " ++ reprBool distinct ++
        str!" - Select Distinct On: " ++ (if on.isEmpty then str!"None" else reprSeq on) ++
        str!"\n  From: " ++ f ++ str!"\n  Where: " ++ w ++ str!"\n  Group By: " ++ g ++ str!"\n  Having: " ++ h ++
        str!"\n  Order By: " ++ o ++ str!"\n  Limit: " ++ l ++ str!"\n  Offset: " ++ off ++
        str!"\n  Semi Colon: " ++ reprBool semi ++ str!"\n>\n        "
  | .where_ v => return reprValue str!"WhereClause" (← pyRepr v)
  -- sql.py 303-306
  | .groupBy args rollup _ => do
      let xs ← pyReprs args
      return str!"<GroupByClause: " ++ Str.join str!", " xs ++ str!" - rollup=" ++ reprBool rollup ++ str!">"
  | .having v => return reprValue str!"HavingClause" (← pyRepr v)
  -- sql.py 385-388
  | .orderBy args => return reprValue str!"OrderByClause" (Str.join str!", " (← pyReprs args))
  -- sql.py 418-421
  | .orderItem v asc desc => do
      let x ← pyRepr v
      return str!"<OrderByItem: " ++ x ++ str!" has_asc=" ++ reprBool asc ++ str!" has_desc=" ++ reprBool desc ++ str!">"
  -- sql.py 458-459
  | .limit all v => do
      let x ← pyRepr v
      return str!"<LimitClause: " ++ x ++ str!" limit_all=" ++ reprBool all ++ str!">"
  | .offset v => return reprValue str!"OffsetClause" (← pyRepr v)
  | .withQuery .. => .error .attribute
  | .withStmt .. => .error .attribute
  -- sql.py 560-563, also for the three classes below it
  | .func name args => do
      let xs ← pyReprs args
      return str!"<FunctionCall " ++ name ++ str!" - " ++ Str.join str!", " xs ++ str!">"
  -- sql.py 576
  | .cast column type => do
      let x ← pyRepr column
      let y ← pyRepr type
      return str!"<FunctionCall cast - " ++ Str.join str!", " [x, str!"'AS'", y] ++ str!">"
  -- sql.py 588
  | .count args _ => do
      let xs ← pyReprs args
      return str!"<FunctionCall count - " ++ Str.join str!", " xs ++ str!">"
  -- sql.py 612
  | .arrayAgg column .. => do
      let x ← pyRepr column
      return str!"<FunctionCall array_agg - " ++ x ++ str!">"
  | .filtered .. => .error .attribute
  -- sql.py 713-725
  | .analytics func part order frame => do
      let x ← pyRepr func
      let ps ← pyReprs part
      let o ← pyRepr order
      let fr ← pyRepr frame
      return str!"<AnalyticsClause:\n  Function: " ++ x ++
        str!"\n  Partition By: " ++ (if ps.isEmpty then str!"None" else reprSeq ps) ++
        str!"\n  Order By: " ++ o ++ str!"\n  Frame Clause: " ++ fr ++ str!"\n"
  -- sql.py 746-754
  | .frame rowsRange frame =>
    .ok (str!"<WindowFrameClause:\n  Row Range: " ++ reprStr rowsRange ++ str!"\n  Frame: " ++ reprStr frame ++ str!"\n")
  | .column v => .ok (reprValue str!"Column" (reprStr v))
  -- sql.py 810-811
  | .chained l r => do
      let x ← pyRepr l
      let y ← pyRepr r
      return reprValue str!"ChainedColumns" (x ++ str!"." ++ y)
  | .type v => .ok (reprValue str!"Type" (reprStr v))
  | .datePart _ e => return reprValue str!"DatePartExtraction" (← pyRepr e)
  -- sql.py 894-897
  | .string v quotes pre =>
    .ok (str!"<String: " ++ reprStr v ++ str!" quotes=" ++ reprStr quotes ++ str!" prefix=" ++ reprOpt pre ++ str!">")
  | .int i => .ok (reprValue str!"Integer" (Str.ofInt i))
  | .float repr => .ok (reprValue str!"Float" repr)
  | .null => .ok (reprValue str!"Null" str!"None")
  | .bool b => .ok (reprValue str!"Boolean" (reprBool b))
  -- sql.py 984-985
  | .paren args => return reprValue str!"Parenthesis" (Str.join str!", " (← pyReprs args))
  -- sql.py 1025-1026
  | .array args => return reprValue str!"Array" (Str.join str!", " (← pyReprs args))
  -- sql.py 1050-1053
  | .alias e alias withAs => do
      let x ← pyRepr e
      let y ← pyRepr alias
      return str!"<Alias: " ++ x ++ str!" as=" ++ reprBool withAs ++ str!" " ++ y ++ str!">"
  -- sql.py 1089-1092: `repr` of the indices, joined, is put in quotes once more
  | .index e indices => do
      let x ← pyRepr e
      let xs ← pyReprs indices
      return str!"<Index: " ++ x ++ str!" indices=" ++ reprStr (Str.join str!", " xs) ++ str!">"
  -- sql.py 1104-1107
  | .arith op l r => do
      let x ← pyRepr l
      let y ← pyRepr r
      return str!"<ArithmaticOperator " ++ op ++ str!": " ++ Str.join str!", " [x, y] ++ str!">"
  -- sql.py 1142-1145
  | .bitwise l op r => do
      let x ← pyRepr l
      let y ← pyRepr r
      return str!"<BitwiseOperation: " ++ x ++ str!" " ++ op ++ str!" " ++ y ++ str!">"
  | .table v _ => return reprValue str!"Table" (← pyRepr v)
  | .unnest v .. => return reprValue str!"Unnest" (← pyRepr v)
  -- sql.py 1292-1306
  | .join type l r on using_ => do
      let x ← pyRepr l
      let y ← pyRepr r
      let o ← pyRepr on
      let u ← pyRepr using_
      return str!"<Join:\n  Join Type: " ++ reprStr type ++ str!"\n  Left part: " ++ x ++ str!"\n  Right part: " ++ y ++
        str!"\n  On: " ++ o ++ str!"\n  Using " ++ u ++ str!"\n"
  -- sql.py 1365-1375
  | .combined op l r => do
      let x ← pyRepr l
      let y ← pyRepr r
      return str!"<CombinedQueries:\n  Set Operator: " ++ reprStr op ++ str!"\n  Left query: " ++ x ++
        str!"\n  Right query: " ++ y ++ str!"\n"
  | .on v => return reprValue str!"OnClause" (← pyRepr v)
  | .using_ v => return reprValue str!"UsingClause" (← pyRepr v)
  -- sql.py 1424-1427
  | .cond l pred r => do
      let x ← pyRepr l
      let y ← pyRepr r
      return str!"<Condition: " ++ x ++ str!" " ++ pred ++ str!" " ++ y ++ str!">"
  -- sql.py 1482-1485
  | .boolc type l r => do
      let x ← pyRepr l
      let y ← pyRepr r
      return str!"<BooleanCondition " ++ type ++ str!": " ++ Str.join str!", " [x, y] ++ str!">"
  | .neg e => return reprValue str!"Negation" (← pyRepr e)
  -- sql.py 1539-1542
  | .except_ e args => do
      let x ← pyRepr e
      let xs ← pyReprs args
      return str!"<ExceptClause: " ++ x ++ str!" args: " ++ reprSeq xs ++ str!">"
  | .replace e args => do
      let x ← pyRepr e
      let xs ← pyReprs args
      return str!"<ReplaceClause: " ++ x ++ str!" args: " ++ reprSeq xs ++ str!">"
  -- a tuple; `Case.__repr__` does not show it
  | .whenThen w t => do
      let x ← pyRepr w
      let y ← pyRepr t
      return str!"(" ++ x ++ str!", " ++ y ++ str!")"
  | .case operand _ _ => return reprValue str!"Case" (← pyRepr operand)

/-- `map(repr, l)` -/
def pyReprs : List Node → Except PyErr (List Str)
  | [] => .ok []
  | n :: ns => do
    let x ← pyRepr n
    let xs ← pyReprs ns
    return x :: xs

end

end SqlV
