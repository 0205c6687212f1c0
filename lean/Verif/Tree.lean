import Verif.Py

/-!
# Objects built by the parser (`sqlvalidator/grammar/sql.py`)

One constructor per class.  Simplifications, none of which is observable through `transform` or
`validate`:

* Python `None` is `Node.none`, a plain Python `str` stored where an expression could be is `Node.raw`;
* `select_distinct_on` / `partition_by`: `None` and `[]` are identified (both are only tested for truth);
* a pair `(when, then)` of `Case.when_then` is `Node.whenThen`;
* `ChainedColumns`, `ArithmaticOperator` and `BooleanCondition` take `*args` but the parser always
  passes exactly two, so they are binary here;
* `Float` stores `str(value)`: the float itself is never inspected otherwise.
-/

namespace SqlV

/-- The classes of sql.py; the line numbers are those of the class statements. -/
inductive Node where
  /-- Python `None`. -/
  | none
  /-- A Python `str`. -/
  | raw (s : Str)
  /-- `SelectStatement`, sql.py 24. -/
  | select (exprs : List Node) (all distinct : Bool) (distinctOn : List Node)
      (from_ where_ groupBy having orderBy limit offset : Node) (semi : Bool)
  /-- `WhereClause`, sql.py 261. -/
  | where_ (v : Node)
  /-- `GroupByClause`, sql.py 286. -/
  | groupBy (args : List Node) (rollup each : Bool)
  /-- `HavingClause`, sql.py 348. -/
  | having (v : Node)
  /-- `OrderByClause`, sql.py 370. -/
  | orderBy (args : List Node)
  /-- `OrderByItem`, sql.py 404. -/
  | orderItem (v : Node) (asc desc : Bool)
  /-- `LimitClause`, sql.py 446. -/
  | limit (all : Bool) (v : Node)
  /-- `OffsetClause`, sql.py 477. -/
  | offset (v : Node)
  /-- `WithQuery`, sql.py 491. -/
  | withQuery (name : Str) (stmt : Node)
  /-- `WithStatement`, sql.py 510. -/
  | withStmt (queries : List Node) (select : Node)
  /-- `FunctionCall`, sql.py 531. -/
  | func (name : Str) (args : List Node)
  /-- `CastFunctionCall`, sql.py 574; its `args` are `(column, "AS", type)`. -/
  | cast (column type : Node)
  /-- `CountFunctionCall`, sql.py 586. -/
  | count (args : List Node) (distinct : Bool)
  /-- `ArrayAggFunctionCall`, sql.py 602. -/
  | arrayAgg (column : Node) (distinct ignoreNulls respectNulls : Bool) (orderBys : Node)
      (limit : Option Int)
  /-- `FilteredFunctionCall`, sql.py 643. -/
  | filtered (call cond : Node)
  /-- `AnalyticsClause`, sql.py 667. -/
  | analytics (func : Node) (partitionBy : List Node) (orderBy frame : Node)
  /-- `WindowFrameClause`, sql.py 738. -/
  | frame (rowsRange frame : Str)
  /-- `Column`, sql.py 764. -/
  | column (v : Str)
  /-- `ChainedColumns`, sql.py 803. -/
  | chained (l r : Node)
  /-- `Type`, sql.py 837. -/
  | type (v : Str)
  /-- `DatePartExtraction`, sql.py 844. -/
  | datePart (part : Str) (e : Node)
  /-- `String`, sql.py 880. -/
  | string (v : Str) (quotes : Str) (pre : Option Str)
  /-- `Integer`, sql.py 904. -/
  | int (i : Int)
  /-- `Float`, sql.py 916. -/
  | float (repr : Str)
  /-- `Null`, sql.py 928. -/
  | null
  /-- `Boolean`, sql.py 942. -/
  | bool (b : Bool)
  /-- `Parenthesis`, sql.py 970. -/
  | paren (args : List Node)
  /-- `Array`, sql.py 1018. -/
  | array (args : List Node)
  /-- `Alias`, sql.py 1036. -/
  | alias (e alias : Node) (withAs : Bool)
  /-- `Index`, sql.py 1079. -/
  | index (e : Node) (indices : List Node)
  /-- `ArithmaticOperator`, sql.py 1095. -/
  | arith (op : Str) (l r : Node)
  /-- `BitwiseOperation`, sql.py 1129. -/
  | bitwise (l : Node) (op : Str) (r : Node)
  /-- `Table`, sql.py 1148. -/
  | table (v : Node) (squareBrackets : Bool)
  /-- `Unnest`, sql.py 1164. -/
  | unnest (v : Node) (withOffset withOffsetAs : Bool) (offsetAlias : Option Str)
  /-- `Join`, sql.py 1192. -/
  | join (type : Str) (l r on using_ : Node)
  /-- `CombinedQueries`, sql.py 1339. -/
  | combined (op : Str) (l r : Node)
  /-- `OnClause`, sql.py 1378. -/
  | on (v : Node)
  /-- `UsingClause`, sql.py 1388. -/
  | using_ (v : Node)
  /-- `Condition`, sql.py 1398. -/
  | cond (l : Node) (pred : Str) (r : Node)
  /-- `BooleanCondition`, sql.py 1451. -/
  | boolc (type : Str) (l r : Node)
  /-- `Negation`, sql.py 1515. -/
  | neg (e : Node)
  /-- `ExceptClause`, sql.py 1553. -/
  | except_ (e : Node) (args : List Node)
  /-- `ReplaceClause`, sql.py 1557. -/
  | replace (e : Node) (args : List Node)
  /-- a pair of `Case.when_then`, sql.py 1580. -/
  | whenThen (w t : Node)
  /-- `Case`, sql.py 1567. -/
  | case (operand : Node) (whens : List Node) (else_ : Node)
deriving Repr, Inhabited

/-- `isinstance(n, Parenthesis)`. -/
def Node.isParen : Node → Bool
  | .paren _ => true
  | _ => false

/-- `isinstance(n, SelectStatement)`. -/
def Node.isSelect : Node → Bool
  | .select .. => true
  | _ => false

/-- `isinstance(n, String)`. -/
def Node.isString : Node → Bool
  | .string .. => true
  | _ => false

/-- `isinstance(n, Alias)`. -/
def Node.isAlias : Node → Bool
  | .alias .. => true
  | _ => false

/-- `isinstance(n, Table)`. -/
def Node.isTable : Node → Bool
  | .table .. => true
  | _ => false

/-- `isinstance(n, BooleanCondition)`. -/
def Node.isBoolc : Node → Bool
  | .boolc .. => true
  | _ => false

/-- Python truth of an attribute that is either `None` or an object without `__bool__`/`__len__`. -/
def Node.truthy : Node → Bool
  | .none => false
  | _ => true

end SqlV
