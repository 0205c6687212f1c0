import Verif.Lemmas.NodeEq
import Verif.Parser

/-!
# The project's own tests: `tests/unit/test_lexer.py`

The trees that the parsers return.  (Equality of trees is finer than `__eq__` of the classes.)
Each example is one test function, evaluated by the kernel on the model with `asciiEnv`.  These are tests of the model,
not proofs about it: they show that the model agrees with the expectations its authors wrote down.
-/

namespace SqlV.Fidelity

instance : PyEnv := asciiEnv

/-- The tree that a parser returns. -/
def tree0 : Res (Node × Stream) → Option Node
  | .ok (a, _) => some a
  | _ => none

/-- The tree that a parser returns beside the next token. -/
def tree1 : Res ((Node × Option Str) × Stream) → Option Node
  | .ok ((a, _), _) => some a
  | _ => none

/-- The tree and the next token. -/
def next : Res ((Node × Option Str) × Stream) → Option (Node × Option Str)
  | .ok (a, _) => some a
  | _ => none

/-- `test_simple_function_parsing`, line 43 -/
example : tree1 ((parsers 100).expr {} (toTokens
    str!"test(col)")) = some (
    .func str!"test" [.column str!"col"]) := by
  decide +kernel

/-- `test_simple_function_parsing_no_args`, line 49 -/
example : tree1 ((parsers 100).expr {} (toTokens
    str!"test()")) = some (
    .func str!"test" []) := by
  decide +kernel

/-- `test_simple_function_multiple_params`, line 55 -/
example : tree1 ((parsers 100).expr {} (toTokens
    str!"test(col, 'Test')")) = some (
    .func str!"test" [.column str!"col", .string str!"Test" str!"'" none]) := by
  decide +kernel

/-- `test_nested_functions`, line 61 -/
example : tree1 ((parsers 100).expr {} (toTokens
    str!"test(foo(col))")) = some (
    .func str!"test" [.func str!"foo" [.column str!"col"]]) := by
  decide +kernel

/-- `test_nested_date_functions`, line 67 -/
example : tree1 ((parsers 100).expr {} (toTokens
    str!"DATE(TIMESTAMP_TRUNC(CAST(date AS TIMESTAMP), MONTH))")) = some (
    .func str!"DATE" [.func str!"TIMESTAMP_TRUNC" [.cast (.column str!"date") (.type str!"TIMESTAMP"), .type
      str!"MONTH"]]) := by
  decide +kernel

/-- `test_string_value`, line 85 -/
example : tree1 ((parsers 100).expr {} (toTokens
    str!"'VAL'")) = some (
    .string str!"VAL" str!"'" none) := by
  decide +kernel

/-- `test_string_value_double_quotes`, line 91 -/
example : tree1 ((parsers 100).expr {} (toTokens
    str!"\"val\"")) = some (
    .string str!"val" str!"\"" none) := by
  decide +kernel

/-- `test_string_value_back_quotes`, line 97 -/
example : tree1 ((parsers 100).expr {} (toTokens
    str!"`val`")) = some (
    .string str!"val" str!"`" none) := by
  decide +kernel

/-- `test_aliased_column`, line 103 -/
example : tree1 ((parsers 100).expr {} (toTokens
    str!"col AS column_name")) = some (
    .alias (.column str!"col") (.column str!"column_name") true) := by
  decide +kernel

/-- `test_aliased_string_without_as`, line 109 -/
example : tree1 ((parsers 100).expr {} (toTokens
    str!"'col' column_name")) = some (
    .alias (.string str!"col" str!"'" none) (.raw str!"column_name") false) := by
  decide +kernel

/-- `test_integer`, line 115 -/
example : tree1 ((parsers 100).expr {} (toTokens
    str!"2")) = some (
    .int (2)) := by
  decide +kernel

/-- `test_negative_integer`, line 121 -/
example : tree1 ((parsers 100).expr {} (toTokens
    str!"-2")) = some (
    .int (-2)) := by
  decide +kernel

/-- `test_addition`, line 127 -/
example : tree1 ((parsers 100).expr {} (toTokens
    str!"2+4")) = some (
    .arith str!"+" (.int (2)) (.int (4))) := by
  decide +kernel

/-- `test_chained_addition`, line 133 -/
example : tree1 ((parsers 100).expr {} (toTokens
    str!"2+4+5")) = some (
    .arith str!"+" (.int (2)) (.arith str!"+" (.int (4)) (.int (5)))) := by
  decide +kernel

/-- `test_conditional_expression`, line 139 -/
example : tree1 ((parsers 100).expr {} (toTokens
    str!"field = 4")) = some (
    .cond (.column str!"field") str!"=" (.int (4))) := by
  decide +kernel

/-- `test_parenthesis`, line 145 -/
example : tree1 ((parsers 100).expr {} (toTokens
    str!"(field)")) = some (
    .paren [.column str!"field"]) := by
  decide +kernel

/-- `test_multiple_parentheses`, line 151 -/
example : tree1 ((parsers 100).expr {} (toTokens
    str!"((2))")) = some (
    .paren [.paren [.int (2)]]) := by
  decide +kernel

/-- `test_parenthesis_conditional`, line 157 -/
example : tree1 ((parsers 100).expr {} (toTokens
    str!"(field+3) = 4")) = some (
    .cond (.paren [.arith str!"+" (.column str!"field") (.int (3))]) str!"=" (.int (4))) := by
  decide +kernel

/-- `test_parenthesis_multiple_elements`, line 165 -/
example : tree1 ((parsers 100).expr {} (toTokens
    str!"(field,other_field,3,'test')")) = some (
    .paren [.column str!"field", .column str!"other_field", .int (3), .string str!"test" str!"'" none]) := by
  decide +kernel

/-- `test_from_subquery`, line 173 -/
example : tree0 ((parsers 100).from_ (toTokens
    str!"(select field from table_stmt)")) = some (
    .paren [.select [.column str!"field"] false false [] (.table (.column str!"table_stmt") false) .none .none
      .none .none .none .none false]) := by
  decide +kernel

/-- `test_where_clause`, line 185 -/
example : tree1 (whereF (parsers 100) (toTokens
    str!"col = 3")) = some (
    .where_ (.cond (.column str!"col") str!"=" (.int (3)))) := by
  decide +kernel

/-- `test_boolean_where_clause`, line 191 -/
example : tree1 (whereF (parsers 100) (toTokens
    str!"col = 3 and field = 5")) = some (
    .where_ (.boolc str!"and" (.cond (.column str!"col") str!"=" (.int (3))) (.cond (.column str!"field")
      str!"=" (.int (5))))) := by
  decide +kernel

/-- `test_between_where_clause`, line 203 -/
example : tree1 (whereF (parsers 100) (toTokens
    str!"col between 3 and 5")) = some (
    .where_ (.cond (.column str!"col") str!"between" (.boolc str!"and" (.int (3)) (.int (5))))) := by
  decide +kernel

/-- `test_where_different_predicate`, line 219 -/
example : tree1 (whereF (parsers 100) (toTokens
    str!"col <> 3")) = some (
    .where_ (.cond (.column str!"col") str!"<>" (.int (3)))) := by
  decide +kernel

/-- `test_parenthesis_boolean_where_clause`, line 227 -/
example : tree1 (whereF (parsers 100) (toTokens
    str!"(col = 3 and field = 5) or (f2 or f3)")) = some (
    .where_ (.boolc str!"or" (.paren [.boolc str!"and" (.cond (.column str!"col") str!"=" (.int (3))) (.cond
      (.column str!"field") str!"=" (.int (5)))]) (.paren [.boolc str!"or" (.column str!"f2") (.column
      str!"f3")]))) := by
  decide +kernel

/-- `test_parenthesis_expression_where_clause`, line 247 -/
example : tree1 (whereF (parsers 100) (toTokens
    str!"(col + 1) = col2")) = some (
    .where_ (.cond (.paren [.arith str!"+" (.column str!"col") (.int (1))]) str!"=" (.column str!"col2"))) := by
  decide +kernel

/-- `test_multiple_args_boolean_condition`, line 255 -/
example : tree1 (whereF (parsers 100) (toTokens
    str!"(col = 1 and col2=4 and col3=4)")) = some (
    .where_ (.paren [.boolc str!"and" (.cond (.column str!"col") str!"=" (.int (1))) (.boolc str!"and" (.cond
      (.column str!"col2") str!"=" (.int (4))) (.cond (.column str!"col3") str!"=" (.int (4))))])) := by
  decide +kernel

/-- `test_nested_parenthesis_boolean`, line 273 -/
example : tree1 (whereF (parsers 100) (toTokens
    str!"(col = 1 and col2=4) or (col = 2 and (col =6 or col=9))")) = some (
    .where_ (.boolc str!"or" (.paren [.boolc str!"and" (.cond (.column str!"col") str!"=" (.int (1))) (.cond
      (.column str!"col2") str!"=" (.int (4)))]) (.paren [.boolc str!"and" (.cond (.column str!"col") str!"="
      (.int (2))) (.paren [.boolc str!"or" (.cond (.column str!"col") str!"=" (.int (6))) (.cond (.column
      str!"col") str!"=" (.int (9)))])]))) := by
  decide +kernel

/-- `test_where_clause_keeps_generator_intact`, line 305 -/
example : next (whereF (parsers 100) (toTokens
    str!"col = 3 group by col")) = some (
    .where_ (.cond (.column str!"col") str!"=" (.int (3))), some str!"group") := by
  decide +kernel

/-- `test_where_clause_keeps_generator_intact_is_null_condition`, line 314 -/
example : next (whereF (parsers 100) (toTokens
    str!"col is null group by col")) = some (
    .where_ (.cond (.column str!"col") str!"is" (.null)), some str!"group") := by
  decide +kernel

/-- `test_consecutive_parenthesis`, line 323 -/
example : tree1 ((parsers 100).expr {} (toTokens
    str!"((col+1) = 3 AND col2=4)")) = some (
    .paren [.boolc str!"AND" (.cond (.paren [.arith str!"+" (.column str!"col") (.int (1))]) str!"=" (.int (3)))
      (.cond (.column str!"col2") str!"=" (.int (4)))]) := by
  decide +kernel

/-- `test_select_all`, line 341 -/
example : tree0 ((parsers 100).stmt (toTokens
    str!"SELECT ALL 1")) = some (
    .select [.int (1)] true false [] .none .none .none .none .none .none .none false) := by
  decide +kernel

/-- `test_select_distinct`, line 349 -/
example : tree0 ((parsers 100).stmt (toTokens
    str!"SELECT DISTINCT 1")) = some (
    .select [.int (1)] false true [] .none .none .none .none .none .none .none false) := by
  decide +kernel

/-- `test_select_distinct_on`, line 357 -/
example : tree0 ((parsers 100).stmt (toTokens
    str!"SELECT DISTINCT ON (col) col")) = some (
    .select [.column str!"col"] false true [.column str!"col"] .none .none .none .none .none .none .none false) := by
  decide +kernel

/-- `test_group_by_without_from`, line 368 -/
example : tree0 ((parsers 100).stmt (toTokens
    str!"SELECT 1 GROUP BY 2")) = some (
    .select [.int (1)] false false [] .none .none (.groupBy [.int (2)] false false) .none .none .none .none
      false) := by
  decide +kernel

/-- `test_order_by_clause`, line 378 -/
example : tree0 ((parsers 100).stmt (toTokens
    str!"SELECT col FROM t ORDER BY col, 2")) = some (
    .select [.column str!"col"] false false [] (.table (.column str!"t") false) .none .none .none (.orderBy
      [.orderItem (.column str!"col") false false, .orderItem (.int (2)) false false]) .none .none false) := by
  decide +kernel

/-- `test_limit_parentheses`, line 391 -/
example : tree0 ((parsers 100).stmt (toTokens
    str!"SELECT 1 LIMIT (((3)))")) = some (
    .select [.int (1)] false false [] .none .none .none .none .none (.limit false (.paren [.paren [.paren [.int
      (3)]]])) .none false) := by
  decide +kernel

/-- `test_subquery`, line 404 -/
example : tree0 ((parsers 100).stmt (toTokens
    str!"SELECT col from (select count(*) col from table group by x) WHERE col > 10 ORDER BY col DESC;")) = some (
    .select [.column str!"col"] false false [] (.paren [.select [.alias (.count [.column str!"*"] false) (.raw
      str!"col") false] false false [] (.table (.column str!"table") false) .none (.groupBy [.column str!"x"]
      false false) .none .none .none .none false]) (.where_ (.cond (.column str!"col") str!">" (.int (10))))
      .none .none (.orderBy [.orderItem (.column str!"col") false true]) .none .none true) := by
  decide +kernel

/-- `test_parse_date_function`, line 431 -/
example : tree1 ((parsers 100).expr {} (toTokens
    str!"DATE('2020-01-01')")) = some (
    .func str!"DATE" [.string str!"2020-01-01" str!"'" none]) := by
  decide +kernel

/-- `test_parse_date_function_condition`, line 437 -/
example : tree1 ((parsers 100).expr {} (toTokens
    str!"col >= DATE('2020-01-01')")) = some (
    .cond (.column str!"col") str!">=" (.func str!"DATE" [.string str!"2020-01-01" str!"'" none])) := by
  decide +kernel

/-- `test_index_access`, line 445 -/
example : tree1 ((parsers 100).expr {} (toTokens
    str!"array[0]")) = some (
    .index (.column str!"array") [.int (0)]) := by
  decide +kernel

/-- `test_index_access_alias`, line 451 -/
example : tree1 ((parsers 100).expr {} (toTokens
    str!"array[0] alias")) = some (
    .alias (.index (.column str!"array") [.int (0)]) (.raw str!"alias") false) := by
  decide +kernel

/-- `test_index_function_access`, line 457 -/
example : tree1 ((parsers 100).expr {} (toTokens
    str!"array[index(0)]")) = some (
    .index (.column str!"array") [.func str!"index" [.int (0)]]) := by
  decide +kernel

/-- `test_multiple_indices_access`, line 463 -/
example : tree1 ((parsers 100).expr {} (toTokens
    str!"array[index(0), 'foo'] alias")) = some (
    .alias (.index (.column str!"array") [.func str!"index" [.int (0)], .string str!"foo" str!"'" none]) (.raw
      str!"alias") false) := by
  decide +kernel

/-- `test_index_access_right_hand`, line 476 -/
example : tree1 ((parsers 100).expr {} (toTokens
    str!"field = array[0]")) = some (
    .cond (.column str!"field") str!"=" (.index (.column str!"array") [.int (0)])) := by
  decide +kernel

/-- `test_nested_joins`, line 486 -/
example : tree0 ((parsers 100).stmt (toTokens
    str!"\n\
      SELECT COALESCE(sq_1.col, sq_2.col) f0_\n\
      \n\
      FROM (SELECT ANY_VALUE(col) col,\n\
      LAST_VALUE(ANY_VALUE(col2)) OVER (PARTITION BY ANY_VALUE(col) ORDER BY SUM(clicks) ASC, SUM(metric) ASC RANGE BETWEEN UNBOUNDED PRECEDING AND UNBOUNDED FOLLOWING) last,\n\
      hash\n\
      FROM (SELECT *\n\
      FROM `events`\n\
      WHERE _TABLE_SUFFIX BETWEEN '20200410' AND '20200510')\n\
      JOIN\n\
      (SELECT * EXCEPT (hash)\n\
      FROM (SELECT *,\n\
      ROW_NUMBER() OVER (PARTITION BY hash) AS rn\n\
      FROM `test-table`\n\
      WHERE _TABLE_SUFFIX BETWEEN '20200401' AND '20200501')\n\
      WHERE rn = 1)\n\
      USING (hash)\n\
      GROUP BY hash) sq_1\n\
      \n\
      FULL OUTER JOIN\n\
      \n\
      (SELECT ANY_VALUE(col) col,\n\
      hash\n\
      FROM (SELECT *\n\
      FROM `events`\n\
      WHERE _TABLE_SUFFIX BETWEEN '20200310' AND '20200410')\n\
      JOIN\n\
      (SELECT * EXCEPT (hash),\n\
      FROM (SELECT *,\n\
      ROW_NUMBER() OVER (PARTITION BY hash) AS rn\n\
      FROM `test-table`\n\
      WHERE _TABLE_SUFFIX BETWEEN '20200301' AND '20200401')\n\
      WHERE rn = 1)\n\
      USING (hash)\n\
      GROUP BY hash) sq_2\n\
      \n\
      ON sq_1.hash = sq_2.hash\n\
      WHERE sq_1.last = 1\n\
      GROUP BY f0_\n")) = some (
    .select [.alias (.func str!"COALESCE" [.chained (.column str!"sq_1") (.column str!"col"), .chained (.column
      str!"sq_2") (.column str!"col")]) (.raw str!"f0_") false] false false [] (.join str!"FULL OUTER JOIN"
      (.alias (.paren [.select [.alias (.func str!"ANY_VALUE" [.column str!"col"]) (.raw str!"col") false,
      .alias (.analytics (.func str!"LAST_VALUE" [.func str!"ANY_VALUE" [.column str!"col2"]]) [.func
      str!"ANY_VALUE" [.column str!"col"]] (.orderBy [.orderItem (.func str!"SUM" [.column str!"clicks"]) true
      false, .orderItem (.func str!"SUM" [.column str!"metric"]) true false]) (.frame str!"RANGE"
      str!"BETWEEN UNBOUNDED PRECEDING AND UNBOUNDED FOLLOWING")) (.raw str!"last") false, .column str!"hash"]
      false false [] (.join str!"JOIN" (.paren [.select [.column str!"*"] false false [] (.table (.string
      str!"events" str!"`" none) false) (.where_ (.cond (.column str!"_TABLE_SUFFIX") str!"BETWEEN" (.boolc
      str!"and" (.string str!"20200410" str!"'" none) (.string str!"20200510" str!"'" none)))) .none .none .none
      .none .none false]) (.paren [.select [.except_ (.column str!"*") [.column str!"hash"]] false false []
      (.paren [.select [.column str!"*", .alias (.analytics (.func str!"ROW_NUMBER" []) [.column str!"hash"]
      .none .none) (.column str!"rn") true] false false [] (.table (.string str!"test-table" str!"`" none)
      false) (.where_ (.cond (.column str!"_TABLE_SUFFIX") str!"BETWEEN" (.boolc str!"and" (.string
      str!"20200401" str!"'" none) (.string str!"20200501" str!"'" none)))) .none .none .none .none .none
      false]) (.where_ (.cond (.column str!"rn") str!"=" (.int (1)))) .none .none .none .none .none false])
      .none (.using_ (.paren [.column str!"hash"]))) .none (.groupBy [.column str!"hash"] false false) .none
      .none .none .none false]) (.raw str!"sq_1") false) (.alias (.paren [.select [.alias (.func str!"ANY_VALUE"
      [.column str!"col"]) (.raw str!"col") false, .column str!"hash"] false false [] (.join str!"JOIN" (.paren
      [.select [.column str!"*"] false false [] (.table (.string str!"events" str!"`" none) false) (.where_
      (.cond (.column str!"_TABLE_SUFFIX") str!"BETWEEN" (.boolc str!"and" (.string str!"20200310" str!"'" none)
      (.string str!"20200410" str!"'" none)))) .none .none .none .none .none false]) (.paren [.select [.except_
      (.column str!"*") [.column str!"hash"]] false false [] (.paren [.select [.column str!"*", .alias
      (.analytics (.func str!"ROW_NUMBER" []) [.column str!"hash"] .none .none) (.column str!"rn") true] false
      false [] (.table (.string str!"test-table" str!"`" none) false) (.where_ (.cond (.column
      str!"_TABLE_SUFFIX") str!"BETWEEN" (.boolc str!"and" (.string str!"20200301" str!"'" none) (.string
      str!"20200401" str!"'" none)))) .none .none .none .none .none false]) (.where_ (.cond (.column str!"rn")
      str!"=" (.int (1)))) .none .none .none .none .none false]) .none (.using_ (.paren [.column str!"hash"])))
      .none (.groupBy [.column str!"hash"] false false) .none .none .none .none false]) (.raw str!"sq_2") false)
      (.on (.cond (.chained (.column str!"sq_1") (.column str!"hash")) str!"=" (.chained (.column str!"sq_2")
      (.column str!"hash")))) .none) (.where_ (.cond (.chained (.column str!"sq_1") (.column str!"last"))
      str!"=" (.int (1)))) (.groupBy [.column str!"f0_"] false false) .none .none .none .none false) := by
  decide +kernel

/-- `test_boolean_condition_as_expression`, line 755 -/
example : tree1 ((parsers 100).expr {} (toTokens
    str!"field is not null and col > 0")) = some (
    .boolc str!"and" (.cond (.column str!"field") str!"is not" (.null)) (.cond (.column str!"col") str!">" (.int
      (0)))) := by
  decide +kernel

/-- `test_select_boolean_condition_expression`, line 774 -/
example : tree0 ((parsers 100).stmt (toTokens
    str!"select field is not null and col > 0 from t;")) = some (
    .select [.boolc str!"and" (.cond (.column str!"field") str!"is not" (.null)) (.cond (.column str!"col")
      str!">" (.int (0)))] false false [] (.table (.column str!"t") false) .none .none .none .none .none .none
      true) := by
  decide +kernel

/-- `test_unnest`, line 798 -/
example : tree0 ((parsers 100).from_ (toTokens
    str!"unnest(table)")) = some (
    .unnest (.func str!"unnest" [.column str!"table"]) false false (none)) := by
  decide +kernel

/-- `test_unnest_with_alias`, line 810 -/
example : tree0 ((parsers 100).from_ (toTokens
    str!"unnest(table) t")) = some (
    .unnest (.alias (.func str!"unnest" [.column str!"table"]) (.raw str!"t") false) false false (none)) := by
  decide +kernel

/-- `test_unnest_with_as_alias`, line 822 -/
example : tree0 ((parsers 100).from_ (toTokens
    str!"unnest(table) as t")) = some (
    .unnest (.alias (.func str!"unnest" [.column str!"table"]) (.raw str!"t") true) false false (none)) := by
  decide +kernel

/-- `test_unnest_with_offset`, line 834 -/
example : tree0 ((parsers 100).from_ (toTokens
    str!"unnest(table) with offset")) = some (
    .unnest (.func str!"unnest" [.column str!"table"]) true false (none)) := by
  decide +kernel

/-- `test_unnest_with_offset_alias`, line 846 -/
example : tree0 ((parsers 100).from_ (toTokens
    str!"unnest(table) with offset o")) = some (
    .unnest (.func str!"unnest" [.column str!"table"]) true false (some str!"o")) := by
  decide +kernel

/-- `test_unnest_with_offset_as_alias`, line 858 -/
example : tree0 ((parsers 100).from_ (toTokens
    str!"unnest(table) with offset as o")) = some (
    .unnest (.func str!"unnest" [.column str!"table"]) true true (some str!"o")) := by
  decide +kernel

/-- `test_unnest_alias_with_offset_as_alias`, line 870 -/
example : tree0 ((parsers 100).from_ (toTokens
    str!"unnest(table) t with offset as o")) = some (
    .unnest (.alias (.func str!"unnest" [.column str!"table"]) (.raw str!"t") false) true true (some str!"o")) := by
  decide +kernel

/-- `test_simple_chained_field`, line 882 -/
example : tree1 ((parsers 100).expr {} (toTokens
    str!"table.field")) = some (
    .chained (.column str!"table") (.column str!"field")) := by
  decide +kernel

/-- `test_chained_field`, line 888 -/
example : tree1 ((parsers 100).expr {} (toTokens
    str!"table.field[offset(0)].subfield[offset(0)]")) = some (
    .chained (.column str!"table") (.chained (.index (.column str!"field") [.func str!"offset" [.int (0)]])
      (.index (.column str!"subfield") [.func str!"offset" [.int (0)]]))) := by
  decide +kernel

/-- `test_aliased_table`, line 902 -/
example : tree0 ((parsers 100).from_ (toTokens
    str!"table as sq_1")) = some (
    .table (.alias (.column str!"table") (.column str!"sq_1") true) false) := by
  decide +kernel

/-- `test_empty_list`, line 910 -/
example : tree1 ((parsers 100).expr {} (toTokens
    str!"[]")) = some (
    .array []) := by
  decide +kernel

/-- `test_empty_list_with_alias`, line 916 -/
example : tree1 ((parsers 100).expr {} (toTokens
    str!"[] x")) = some (
    .alias (.array []) (.raw str!"x") false) := by
  decide +kernel

/-- `test_boolean_condition`, line 922 -/
example : tree1 ((parsers 100).expr {} (toTokens
    str!"f1 IS NOT NULL AND f2 > 0 fnew")) = some (
    .alias (.boolc str!"AND" (.cond (.column str!"f1") str!"is not" (.null)) (.cond (.column str!"f2") str!">"
      (.int (0)))) (.raw str!"fnew") false) := by
  decide +kernel

/-- `test_chained_columns_with_arithmetic_operator`, line 936 -/
example : tree1 ((parsers 100).expr {} (toTokens
    str!"IF((a.field + b.field) = 200, 'true', 'false') fa")) = some (
    .alias (.func str!"IF" [.cond (.paren [.arith str!"+" (.chained (.column str!"a") (.column str!"field"))
      (.chained (.column str!"b") (.column str!"field"))]) str!"=" (.int (200)), .string str!"true" str!"'"
      none, .string str!"false" str!"'" none]) (.raw str!"fa") false) := by
  decide +kernel

/-- `test_function_with_single_comma_string_param`, line 965 -/
example : tree1 ((parsers 100).expr {} (toTokens
    str!"test(',')")) = some (
    .func str!"test" [.string str!"," str!"'" none]) := by
  decide +kernel

end SqlV.Fidelity
