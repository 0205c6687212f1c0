import Verif.Query

/-!
# The project's own tests: `tests/integration/test_validation.py`

`is_valid` and `errors` of the text of the test.
Each example is one test function, evaluated by the kernel on the model with `asciiEnv`.  These are tests of the model,
not proofs about it: they show that the model agrees with the expectations its authors wrote down.
-/

namespace SqlV.Fidelity

/-- `test_select_star_from`, line 22 -/
example : (@SQLQuery.isValid asciiEnv (SQLQuery.new
    str!"SELECT * FROM table")).1 = .ok true := by
  decide +kernel

/-- `test_select_field_from`, line 27 -/
example : (@SQLQuery.isValid asciiEnv (SQLQuery.new
    str!"SELECT field FROM table")).1 = .ok true := by
  decide +kernel

/-- `test_nested_select`, line 32 -/
example : (@SQLQuery.isValid asciiEnv (SQLQuery.new
    str!"SELECT field FROM (SELECT * FROM table)")).1 = .ok true := by
  decide +kernel

/-- `test_no_from`, line 37 -/
example : (@SQLQuery.isValid asciiEnv (SQLQuery.new
    str!"SELECT 1, 'test'")).1 = .ok true := by
  decide +kernel

/-- `test_nested_select_without_field`, line 42 -/
example : (@SQLQuery.isValid asciiEnv (SQLQuery.new
    str!"SELECT field2 FROM (SELECT field1 FROM table)")).1 = .ok false := by
  decide +kernel

/-- `test_nested_select_with_star`, line 47 -/
example : (@SQLQuery.isValid asciiEnv (SQLQuery.new
    str!"SELECT * FROM (SELECT field1 FROM table)")).1 = .ok true := by
  decide +kernel

/-- `test_no_from_with_field`, line 52 -/
example : (@SQLQuery.isValid asciiEnv (SQLQuery.new
    str!"SELECT field")).1 = .ok false := by
  decide +kernel

/-- `test_where_without_from`, line 57 -/
example : (@SQLQuery.isValid asciiEnv (SQLQuery.new
    str!"SELECT 1 WHERE col = 3")).1 = .ok false := by
  decide +kernel

/-- `test_where_parenthesis_without_from`, line 62 -/
example : (@SQLQuery.isValid asciiEnv (SQLQuery.new
    str!"SELECT 1 WHERE (col = 3)")).1 = .ok false := by
  decide +kernel

/-- `test_where_boolean_condition`, line 67 -/
example : (@SQLQuery.isValid asciiEnv (SQLQuery.new
    str!"SELECT field1 FROM (SELECT field1 FROM table) WHERE field1 = 3 and field2 = 4")).1 = .ok false := by
  decide +kernel

/-- `test_where_constant_columns`, line 74 -/
example : (@SQLQuery.isValid asciiEnv (SQLQuery.new
    str!"SELECT 1 WHERE 'test' = 't' and 4 > 5")).1 = .ok true := by
  decide +kernel

/-- `test_nested_select_without_where_field`, line 79 -/
example : (@SQLQuery.isValid asciiEnv (SQLQuery.new
    str!"SELECT field1 FROM (SELECT field1 FROM table) WHERE field2 = 3")).1 = .ok false := by
  decide +kernel

/-- `test_where_clause_returns_boolean`, line 84 -/
example : (@SQLQuery.isValid asciiEnv (SQLQuery.new
    str!"SELECT 1 WHERE 'test' LIKE '%t%'")).1 = .ok true := by
  decide +kernel

/-- `test_where_clause_not_boolean_but_string`, line 89 -/
example : (@SQLQuery.isValid asciiEnv (SQLQuery.new
    str!"SELECT 1 WHERE 'test'")).1 = .ok false := by
  decide +kernel

/-- `test_where_clause_not_boolean_but_integer`, line 94 -/
example : (@SQLQuery.isValid asciiEnv (SQLQuery.new
    str!"SELECT 1 WHERE 5")).1 = .ok false := by
  decide +kernel

/-- `test_group_without_by`, line 99 -/
example : (@SQLQuery.isValid asciiEnv (SQLQuery.new
    str!"SELECT 1 GROUP 1")).1 = .ok false := by
  decide +kernel

/-- `test_group_by_existing_position`, line 104 -/
example : (@SQLQuery.isValid asciiEnv (SQLQuery.new
    str!"SELECT 1 GROUP BY 1")).1 = .ok true := by
  decide +kernel

/-- `test_group_by_unknown_position`, line 109 -/
example : (@SQLQuery.isValid asciiEnv (SQLQuery.new
    str!"SELECT 1 GROUP BY 2")).1 = .ok false := by
  decide +kernel

/-- `test_group_by_unknown_position_parenthesis`, line 114 -/
example : (@SQLQuery.isValid asciiEnv (SQLQuery.new
    str!"SELECT 1 GROUP BY ((2));")).1 = .ok false := by
  decide +kernel

/-- `test_group_by_negative_position`, line 119 -/
example : (@SQLQuery.isValid asciiEnv (SQLQuery.new
    str!"SELECT 1 GROUP BY -1;")).1 = .ok false := by
  decide +kernel

/-- `test_group_by_unknown_column`, line 124 -/
example : (@SQLQuery.isValid asciiEnv (SQLQuery.new
    str!"SELECT 1 GROUP BY x")).1 = .ok false := by
  decide +kernel

/-- `test_group_by_implicit_column`, line 129 -/
example : (@SQLQuery.isValid asciiEnv (SQLQuery.new
    str!"SELECT COUNT(y) FROM 'table' GROUP BY x")).1 = .ok true := by
  decide +kernel

/-- `test_group_by_known_column_star`, line 134 -/
example : (@SQLQuery.isValid asciiEnv (SQLQuery.new
    str!"SELECT COUNT(y) FROM (select * from 'table') GROUP BY x")).1 = .ok true := by
  decide +kernel

/-- `test_group_by_known_column`, line 139 -/
example : (@SQLQuery.isValid asciiEnv (SQLQuery.new
    str!"SELECT COUNT(y) FROM (select x, y from 'table') GROUP BY x")).1 = .ok true := by
  decide +kernel

/-- `test_group_by_unknown_column_with_from`, line 144 -/
example : (@SQLQuery.isValid asciiEnv (SQLQuery.new
    str!"SELECT COUNT(y) FROM (select y from 'table') GROUP BY x")).1 = .ok false := by
  decide +kernel

/-- `test_having_non_boolean_constant`, line 149 -/
example : (@SQLQuery.isValid asciiEnv (SQLQuery.new
    str!"SELECT 2 HAVING 1;")).1 = .ok false := by
  decide +kernel

/-- `test_having_condition_constants`, line 154 -/
example : (@SQLQuery.isValid asciiEnv (SQLQuery.new
    str!"SELECT 2 HAVING 1 = 1;")).1 = .ok true := by
  decide +kernel

/-- `test_having_unknown_column`, line 159 -/
example : (@SQLQuery.isValid asciiEnv (SQLQuery.new
    str!"SELECT 1 HAVING x")).1 = .ok false := by
  decide +kernel

/-- `test_having_unknown_column_parenthesis`, line 164 -/
example : (@SQLQuery.isValid asciiEnv (SQLQuery.new
    str!"SELECT 1 HAVING ((x))")).1 = .ok false := by
  decide +kernel

/-- `test_having_multiple_unknown_column_parenthesis`, line 169 -/
example : (@SQLQuery.isValid asciiEnv (SQLQuery.new
    str!"SELECT 1 HAVING 1=1 and ((x))")).1 = .ok false := by
  decide +kernel

/-- `test_order_without_by`, line 174 -/
example : (@SQLQuery.isValid asciiEnv (SQLQuery.new
    str!"SELECT 1 ORDER 1")).1 = .ok false := by
  decide +kernel

/-- `test_order_by_known_position`, line 179 -/
example : (@SQLQuery.isValid asciiEnv (SQLQuery.new
    str!"SELECT 1 ORDER BY ((1))")).1 = .ok true := by
  decide +kernel

/-- `test_order_by_unknown_position`, line 184 -/
example : (@SQLQuery.isValid asciiEnv (SQLQuery.new
    str!"SELECT 1 ORDER BY 2")).1 = .ok false := by
  decide +kernel

/-- `test_order_by_unknown_column`, line 189 -/
example : (@SQLQuery.isValid asciiEnv (SQLQuery.new
    str!"SELECT 1 ORDER BY x")).1 = .ok false := by
  decide +kernel

/-- `test_order_by_unknown_column_parenthesis`, line 194 -/
example : (@SQLQuery.isValid asciiEnv (SQLQuery.new
    str!"SELECT 1 ORDER BY (x)")).1 = .ok false := by
  decide +kernel

/-- `test_order_by_known_column`, line 199 -/
example : (@SQLQuery.isValid asciiEnv (SQLQuery.new
    str!"SELECT COUNT(y) FROM (select x, y from 'table') ORDER BY x")).1 = .ok true := by
  decide +kernel

/-- `test_order_by_unknown_column_with_from`, line 204 -/
example : (@SQLQuery.isValid asciiEnv (SQLQuery.new
    str!"SELECT COUNT(y) FROM (select y from 'table') ORDER BY x")).1 = .ok false := by
  decide +kernel

/-- `test_limit_integer`, line 209 -/
example : (@SQLQuery.isValid asciiEnv (SQLQuery.new
    str!"SELECT 1 LIMIT 3")).1 = .ok true := by
  decide +kernel

/-- `test_limit_zero`, line 214 -/
example : (@SQLQuery.isValid asciiEnv (SQLQuery.new
    str!"SELECT 1 LIMIT 0;")).1 = .ok true := by
  decide +kernel

/-- `test_limit_negative_integer`, line 219 -/
example : (@SQLQuery.isValid asciiEnv (SQLQuery.new
    str!"SELECT 1 LIMIT -3")).1 = .ok false := by
  decide +kernel

/-- `test_limit_integer_parenthesis`, line 224 -/
example : (@SQLQuery.isValid asciiEnv (SQLQuery.new
    str!"SELECT 1 LIMIT (((3)))")).1 = .ok true := by
  decide +kernel

/-- `test_limit_column`, line 229 -/
example : (@SQLQuery.isValid asciiEnv (SQLQuery.new
    str!"SELECT 1 LIMIT x")).1 = .ok false := by
  decide +kernel

/-- `test_limit_column_with_from`, line 234 -/
example : (@SQLQuery.isValid asciiEnv (SQLQuery.new
    str!"SELECT 1 from table LIMIT x;")).1 = .ok false := by
  decide +kernel

/-- `test_limit_multiple_integers`, line 239 -/
example : (@SQLQuery.isValid asciiEnv (SQLQuery.new
    str!"SELECT 1 from table LIMIT 1, 2;")).1 = .ok false := by
  decide +kernel

/-- `test_offset`, line 244 -/
example : (@SQLQuery.isValid asciiEnv (SQLQuery.new
    str!"SELECT 1 from table OFFSET 1;")).1 = .ok true := by
  decide +kernel

/-- `test_offset_parenthesis`, line 249 -/
example : (@SQLQuery.isValid asciiEnv (SQLQuery.new
    str!"SELECT 1 from table OFFSET ((1));")).1 = .ok true := by
  decide +kernel

/-- `test_offset_negative`, line 254 -/
example : (@SQLQuery.isValid asciiEnv (SQLQuery.new
    str!"SELECT 1 from table OFFSET -1;")).1 = .ok false := by
  decide +kernel

/-- `test_offset_variable`, line 259 -/
example : (@SQLQuery.isValid asciiEnv (SQLQuery.new
    str!"SELECT 1 from table OFFSET (x)")).1 = .ok false := by
  decide +kernel

/-- `test_group_by_alias`, line 264 -/
example : (@SQLQuery.isValid asciiEnv (SQLQuery.new
    str!"SELECT x + y f0 FROM (select x, y from table) GROUP BY f0")).1 = .ok true := by
  decide +kernel

/-- `test_invalid_join_missing_using_or_on`, line 269 -/
example : (@SQLQuery.isValid asciiEnv (SQLQuery.new
    str!"SELECT field FROM table JOIN other_table")).1 = .ok false := by
  decide +kernel

/-- `test_functioncall_expressions_missing_from_subquery`, line 274 -/
example : (@SQLQuery.isValid asciiEnv (SQLQuery.new
    str!"\n    \
      select APPROX_COUNT_DISTINCT(IF(field <> 0, column , NULL)) f_0\n    \
      from (\n    \
      select x from table)\n    \
      ")).1 = .ok false := by
  decide +kernel

/-- `test_functioncall_expressions_in_subquery`, line 283 -/
example : (@SQLQuery.isValid asciiEnv (SQLQuery.new
    str!"\n    \
      select APPROX_COUNT_DISTINCT(IF(field <> 0, column , NULL)) f_0\n    \
      from (\n    \
      select field, (a+b) * x column from table)\n    \
      ")).1 = .ok true := by
  decide +kernel

/-- `test_functioncall_expressions_in_subquery_star`, line 292 -/
example : (@SQLQuery.isValid asciiEnv (SQLQuery.new
    str!"\n    \
      select APPROX_COUNT_DISTINCT(IF(field <> 0, column , NULL)) f_0\n    \
      from (\n    \
      select * from table)\n    \
      ")).1 = .ok true := by
  decide +kernel

/-- `test_missing_nested_subquery_columns`, line 301 -/
example : (@SQLQuery.isValid asciiEnv (SQLQuery.new
    str!"\n    select x\n    from (\n    select x from (select field, column from table))\n    ")).1 = .ok false := by
  decide +kernel

/-- `test_nested_subquery_columns`, line 310 -/
example : (@SQLQuery.isValid asciiEnv (SQLQuery.new
    str!"\n    select x\n    from (\n    select x from (select x from table))\n    ")).1 = .ok true := by
  decide +kernel

/-- `test_nested_subquery_columns_star`, line 319 -/
example : (@SQLQuery.isValid asciiEnv (SQLQuery.new
    str!"\n    select x\n    from (\n    select * from (select x from table))\n    ")).1 = .ok true := by
  decide +kernel

/-- `test_missing_nested_subquery_columns_star`, line 328 -/
example : (@SQLQuery.isValid asciiEnv (SQLQuery.new
    str!"\n    select x\n    from (\n    select * from (select field from table))\n    ")).1 = .ok false := by
  decide +kernel

/-- `test_missing_chained_columns`, line 337 -/
example : (@SQLQuery.isValid asciiEnv (SQLQuery.new
    str!"\n    \
      select a.x, b.y\n    \
      from (\n    \
      select o from table) a\n    \
      JOIN (other_table) b\n    \
      USING (o)\n    \
      ")).1 = .ok false ∧
  (@SQLQuery.isValid asciiEnv (SQLQuery.new
    str!"\n    \
      select a.x, b.y\n    \
      from (\n    \
      select o from table) a\n    \
      JOIN (other_table) b\n    \
      USING (o)\n    \
      ")).2.errors =
    [str!"The column x was not found in alias a"] := by
  decide +kernel

/-- `test_missing_table_alias_chained_columns`, line 348 -/
example : (@SQLQuery.isValid asciiEnv (SQLQuery.new
    str!"\n    \
      select a.x, b.y\n    \
      from (\n    \
      select x from table) a\n    \
      JOIN (select x, y from other_table) c\n    \
      USING (x)\n    \
      ")).1 = .ok false ∧
  (@SQLQuery.isValid asciiEnv (SQLQuery.new
    str!"\n    \
      select a.x, b.y\n    \
      from (\n    \
      select x from table) a\n    \
      JOIN (select x, y from other_table) c\n    \
      USING (x)\n    \
      ")).2.errors =
    [str!"The column y was not found in alias b"] := by
  decide +kernel

/-- `test_chained_columns_from_join`, line 359 -/
example : (@SQLQuery.isValid asciiEnv (SQLQuery.new
    str!"\n    \
      select a.x, b.y\n    \
      from (\n    \
      select x from table) a\n    \
      JOIN (other_table) b\n    \
      USING (x)\n    \
      ")).1 = .ok true := by
  decide +kernel

/-- `test_partition_by_with_order_by`, line 370 -/
example : (@SQLQuery.isValid asciiEnv (SQLQuery.new
    str!"\n\
      SELECT\n \
      DENSE_RANK() OVER (\n  \
      PARTITION BY f\n  \
      ORDER BY col ASC\n \
      ) AS dr\n\
      FROM t\n")).1 = .ok true := by
  decide +kernel

/-- `test_chained_column_is_nested_field`, line 382 -/
example : (@SQLQuery.isValid asciiEnv (SQLQuery.new
    str!"\nSELECT\n StructField.Id,\n StructField.Name\nFROM Table\n")).1 = .ok true := by
  decide +kernel

/-- `test_chained_column_is_table_alias`, line 392 -/
example : (@SQLQuery.isValid asciiEnv (SQLQuery.new
    str!"\nSELECT\n StructField.Id,\n StructField.Name\nFROM Table StructField\n    ")).1 = .ok true := by
  decide +kernel

/-- `test_chained_column_is_not_table_alias`, line 403 -/
example : (@SQLQuery.isValid asciiEnv (SQLQuery.new
    str!"\nSELECT\n StructField.Id,\n StructField.Name\nFROM Table A\n    ")).1 = .ok true := by
  decide +kernel

/-- `test_know_fields_from_alias`, line 414 -/
example : (@SQLQuery.isValid asciiEnv (SQLQuery.new
    str!"\n\
      SELECT\n \
      ANY_VALUE(sq_1__x) f_0,\n \
      sq_1__field1 f_1\n\
      FROM (\n \
      SELECT\n  \
      sq_1.field1 sq_1__field1,\n  \
      sq_1.x sq_1__x,\n  \
      sq_1.x_hash sq_1__x_hash\n \
      FROM (\n  \
      SELECT *\n  \
      FROM `{table}`\n  \
      WHERE code <> 0\n \
      ) sq_1\n\
      )\n\
      GROUP BY sq_1__x_hash\n")).1 = .ok true := by
  decide +kernel

/-- `test_specified_field_from_alias_subquery`, line 435 -/
example : (@SQLQuery.isValid asciiEnv (SQLQuery.new
    str!"\n\
      SELECT\n \
      sq_1__field f_1\n\
      FROM (\n \
      SELECT\n  \
      sq_1.field sq_1__field\n \
      FROM (\n  \
      SELECT x field\n  \
      FROM `test_1.top_orphan_segments_2_3`\n \
      ) sq_1\n\
      )\n")).1 = .ok true := by
  decide +kernel

/-- `test_subquery_field_is_boolean_and_can_where`, line 451 -/
example : (@SQLQuery.isValid asciiEnv (SQLQuery.new
    str!"\n      \
      SELECT *\n      \
      FROM first_table a\n      \
      LEFT JOIN (\n       \
      SELECT\n        \
      field = 0 field_alias,\n       \
      FROM other_table\n      \
      ) b\n      \
      ON a.id = b.id\n      \
      WHERE b.field_alias\n     \
      )\n")).1 = .ok true := by
  decide +kernel

/-- `test_subquery_field_is_not_boolean_and_cannot_where`, line 467 -/
example : (@SQLQuery.isValid asciiEnv (SQLQuery.new
    str!"\n      \
      SELECT *\n      \
      FROM first_table a\n      \
      LEFT JOIN (\n       \
      SELECT\n        \
      3 field_alias,\n       \
      FROM other_table\n      \
      ) b\n      \
      ON a.id = b.id\n      \
      WHERE b.field_alias\n     \
      )\n")).1 = .ok false ∧
  (@SQLQuery.isValid asciiEnv (SQLQuery.new
    str!"\n      \
      SELECT *\n      \
      FROM first_table a\n      \
      LEFT JOIN (\n       \
      SELECT\n        \
      3 field_alias,\n       \
      FROM other_table\n      \
      ) b\n      \
      ON a.id = b.id\n      \
      WHERE b.field_alias\n     \
      )\n")).2.errors =
    [str!"The argument of WHERE must be type boolean, not type int"] := by
  decide +kernel

/-- `test_unknown_type_subquery_field_and_allow_where`, line 486 -/
example : (@SQLQuery.isValid asciiEnv (SQLQuery.new
    str!"\n      \
      SELECT *\n      \
      FROM first_table a\n      \
      LEFT JOIN (\n       \
      SELECT *\n       \
      FROM other_table\n      \
      ) b\n      \
      ON a.id = b.id\n      \
      WHERE b.field\n     \
      )\n")).1 = .ok true := by
  decide +kernel

/-- `test_outer_query_uses_field_without_alias`, line 501 -/
example : (@SQLQuery.isValid asciiEnv (SQLQuery.new
    str!"\nselect n\nfrom (\n select name n\n from trees_tree\n) a;\n")).1 = .ok true := by
  decide +kernel

/-- `test_outer_query_uses_field_without_alias_exists_once`, line 512 -/
example : (@SQLQuery.isValid asciiEnv (SQLQuery.new
    str!"\n\
      select n\n\
      from (\n \
      select name n\n \
      from trees_tree\n\
      ) a, (\n \
      select name\n \
      from trees_tree\n\
      ) b;\n")).1 = .ok true := by
  decide +kernel

/-- `test_ambiguous_not_aliased_field`, line 526 -/
example : (@SQLQuery.isValid asciiEnv (SQLQuery.new
    str!"\n\
      select n\n\
      from (\n \
      select name n\n \
      from trees_tree\n\
      ) a, (\n \
      select name n\n \
      from trees_tree\n\
      ) b;\n")).1 = .ok false ∧
  (@SQLQuery.isValid asciiEnv (SQLQuery.new
    str!"\n\
      select n\n\
      from (\n \
      select name n\n \
      from trees_tree\n\
      ) a, (\n \
      select name n\n \
      from trees_tree\n\
      ) b;\n")).2.errors =
    [str!"column \"n\" is ambiguous"] := by
  decide +kernel

/-- `test_between_condition_is_valid`, line 540 -/
example : (@SQLQuery.isValid asciiEnv (SQLQuery.new
    str!"\n    SELECT *\n     FROM t\n    WHERE\n      f BETWEEN 200 AND 299\n    ")).1 = .ok true := by
  decide +kernel

/-- `test_select_star_replace`, line 550 -/
example : (@SQLQuery.isValid asciiEnv (SQLQuery.new
    str!"\nSELECT * REPLACE (\"x\" AS col)\nFROM t\n")).1 = .ok true := by
  decide +kernel

/-- `test_select_star_unknown_column`, line 558 -/
example : (@SQLQuery.isValid asciiEnv (SQLQuery.new
    str!"\nSELECT * REPLACE (\"x\" AS col)\nFROM (select field from t)\n")).1 = .ok false := by
  decide +kernel

/-- `test_tab_as_token_separator`, line 566 -/
example : (@SQLQuery.isValid asciiEnv (SQLQuery.new
    str!"\tSELECT * FROM\ttable")).1 = .ok true := by
  decide +kernel

end SqlV.Fidelity
