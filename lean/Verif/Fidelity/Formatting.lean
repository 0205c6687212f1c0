import Verif.Query

/-!
# The project's own tests: `tests/integration/test_formatting.py`

`format_sql` of the text of the test is the expected text, for the first half of the tests.
Each example is one test function, evaluated by the kernel on the model with `asciiEnv`.  These are tests of the model,
not proofs about it: they show that the model agrees with the expectations its authors wrote down.
-/

namespace SqlV.Fidelity

/-- `test_format_select_star`, line 4 -/
example : @formatSql asciiEnv
    str!"select * from table;" = .ok
    str!"SELECT *\nFROM table;" := by
  decide +kernel

/-- `test_upper_function_name`, line 13 -/
example : @formatSql asciiEnv
    str!"select sum(column) FROM table;" = .ok
    str!"SELECT SUM(column)\nFROM table;" := by
  decide +kernel

/-- `test_nested_function_name`, line 22 -/
example : @formatSql asciiEnv
    str!"select ifnull(sum(col), 'NOTHING') from table_stmt;" = .ok
    str!"SELECT IFNULL(SUM(col), 'NOTHING')\nFROM table_stmt;" := by
  decide +kernel

/-- `test_extract_function`, line 31 -/
example : @formatSql asciiEnv
    str!"select extract(day from date) from table_stmt;" = .ok
    str!"SELECT EXTRACT(DAY FROM date)\nFROM table_stmt;" := by
  decide +kernel

/-- `test_no_from_statement`, line 40 -/
example : @formatSql asciiEnv
    str!"select 1;" = .ok
    str!"SELECT 1;" := by
  decide +kernel

/-- `test_simple_column`, line 46 -/
example : @formatSql asciiEnv
    str!"select col from table_stmt;" = .ok
    str!"SELECT col\nFROM table_stmt;" := by
  decide +kernel

/-- `test_conditional_column`, line 55 -/
example : @formatSql asciiEnv
    str!"select col = 1 from table_stmt;" = .ok
    str!"SELECT col = 1\nFROM table_stmt;" := by
  decide +kernel

/-- `test_conditional_parenthesis_columns`, line 64 -/
example : @formatSql asciiEnv
    str!"select (col + 1) = 4 as out from table_stmt;" = .ok
    str!"SELECT (col + 1) = 4 AS out\nFROM table_stmt;" := by
  decide +kernel

/-- `test_simple_aliased_column`, line 73 -/
example : @formatSql asciiEnv
    str!"select col alias from table_stmt;" = .ok
    str!"SELECT col alias\nFROM table_stmt;" := by
  decide +kernel

/-- `test_simple_aliased_as_column`, line 82 -/
example : @formatSql asciiEnv
    str!"select col as alias from table_stmt;" = .ok
    str!"SELECT col AS alias\nFROM table_stmt;" := by
  decide +kernel

/-- `test_select_except_one_line`, line 91 -/
example : @formatSql asciiEnv
    str!"select * except(field) from table_stmt;" = .ok
    str!"SELECT * EXCEPT (field)\nFROM table_stmt;" := by
  decide +kernel

/-- `test_select_except_multi_line`, line 100 -/
example : @formatSql asciiEnv
    str!"select * except(field, col, f2) from table_stmt;" = .ok
    str!"SELECT * EXCEPT (\n field,\n col,\n f2\n)\nFROM table_stmt;" := by
  decide +kernel

/-- `test_multiple_columns`, line 113 -/
example : @formatSql asciiEnv
    str!"select col, col2 from table_stmt;" = .ok
    str!"SELECT\n col,\n col2\nFROM table_stmt;" := by
  decide +kernel

/-- `test_parenthesis`, line 124 -/
example : @formatSql asciiEnv
    str!"select (email,id), id from auth_user;" = .ok
    str!"SELECT\n (email, id),\n id\nFROM auth_user;" := by
  decide +kernel

/-- `test_basic_arithmetic`, line 135 -/
example : @formatSql asciiEnv
    str!"select (1+1) add, 2*3, 9/3;" = .ok
    str!"SELECT\n (1 + 1) add,\n 2 * 3,\n 9 / 3;" := by
  decide +kernel

/-- `test_chained_arithmetic`, line 146 -/
example : @formatSql asciiEnv
    str!"select 1+1+1, 2*3-5" = .ok
    str!"SELECT\n 1 + 1 + 1,\n 2 * 3 - 5" := by
  decide +kernel

/-- `test_nested_queries`, line 156 -/
example : @formatSql asciiEnv
    str!"select field from (select field from table_stmt);" = .ok
    str!"SELECT field\nFROM (\n SELECT field\n FROM table_stmt\n);" := by
  decide +kernel

/-- `test_nested_queries_multiple_columns`, line 168 -/
example : @formatSql asciiEnv
    str!"select field, f2 from (select field, f2 from table_stmt);" = .ok
    str!"SELECT\n field,\n f2\nFROM (\n SELECT\n  field,\n  f2\n FROM table_stmt\n);" := by
  decide +kernel

/-- `test_two_nested_queries`, line 184 -/
example : @formatSql asciiEnv
    str!"select field from (select field, f2 from (select * from t));" = .ok
    str!"SELECT field\nFROM (\n SELECT\n  field,\n  f2\n FROM (\n  SELECT *\n  FROM t\n )\n);" := by
  decide +kernel

/-- `test_assert_no_semi_colon`, line 201 -/
example : @formatSql asciiEnv
    str!"select * from t" = .ok
    str!"SELECT *\nFROM t" := by
  decide +kernel

/-- `test_quoted_from`, line 210 -/
example : @formatSql asciiEnv
    str!"select * from `table`;" = .ok
    str!"SELECT *\nFROM `table`;" := by
  decide +kernel

/-- `test_where_clause_boolean_column`, line 219 -/
example : @formatSql asciiEnv
    str!"select * from t where col" = .ok
    str!"SELECT *\nFROM t\nWHERE col" := by
  decide +kernel

/-- `test_where_clause_boolean_equal`, line 229 -/
example : @formatSql asciiEnv
    str!"select * from t where col = true" = .ok
    str!"SELECT *\nFROM t\nWHERE col = TRUE" := by
  decide +kernel

/-- `test_where_clause_boolean_is`, line 239 -/
example : @formatSql asciiEnv
    str!"select * from t where col is true" = .ok
    str!"SELECT *\nFROM t\nWHERE col IS TRUE" := by
  decide +kernel

/-- `test_where_clause_str`, line 249 -/
example : @formatSql asciiEnv
    str!"select * from t where col = 'test'" = .ok
    str!"SELECT *\nFROM t\nWHERE col = 'test'" := by
  decide +kernel

/-- `test_where_clause_columns`, line 259 -/
example : @formatSql asciiEnv
    str!"select * from t where col = col2" = .ok
    str!"SELECT *\nFROM t\nWHERE col = col2" := by
  decide +kernel

/-- `test_where_clause_parenthesis_expression`, line 269 -/
example : @formatSql asciiEnv
    str!"select * from t where (col + 1) = col2" = .ok
    str!"SELECT *\nFROM t\nWHERE (col + 1) = col2" := by
  decide +kernel

/-- `test_where_clause_boolean`, line 279 -/
example : @formatSql asciiEnv
    str!"select * from t where col = 1 and col2=4" = .ok
    str!"SELECT *\nFROM t\nWHERE col = 1 AND col2 = 4" := by
  decide +kernel

/-- `test_where_clause_parenthesis_boolean`, line 289 -/
example : @formatSql asciiEnv
    str!"select * from t where (col = 1 and (col2=4))" = .ok
    str!"SELECT *\nFROM t\nWHERE (col = 1 AND (col2 = 4))" := by
  decide +kernel

/-- `test_where_clause_multiple_parenthesis_booleans`, line 299 -/
example : @formatSql asciiEnv
    str!"select * from t where (col = 1 and col2=4) or (col = 2 and (col =6 or col=9))" = .ok
    str!"SELECT *\nFROM t\nWHERE (col = 1 AND col2 = 4) OR (col = 2 AND (col = 6 OR col = 9))" := by
  decide +kernel

/-- `test_where_clause_multiple_booleans`, line 311 -/
example : @formatSql asciiEnv
    str!"select * from t where col = 1 and col2=4 And col = 2 and col =6 or (col=9)" = .ok
    str!"SELECT *\nFROM t\nWHERE col = 1 AND col2 = 4 AND col = 2 AND col = 6 OR (col = 9)" := by
  decide +kernel

/-- `test_boolean_conditions_select_where`, line 321 -/
example : @formatSql asciiEnv
    str!"select (col+1) = 3 AND col2=4 from t where (col+1) = 3 AND col2=4" = .ok
    str!"SELECT (col + 1) = 3 AND col2 = 4\nFROM t\nWHERE (col + 1) = 3 AND col2 = 4" := by
  decide +kernel

/-- `test_parenthesis_boolean_conditions_select_where`, line 331 -/
example : @formatSql asciiEnv
    str!"select ((col+1) = 3 AND col2=4) from t where ((col+1) = 3 AND col2=4)" = .ok
    str!"SELECT ((col + 1) = 3 AND col2 = 4)\nFROM t\nWHERE ((col + 1) = 3 AND col2 = 4)" := by
  decide +kernel

/-- `test_distinct_on_one_field`, line 341 -/
example : @formatSql asciiEnv
    str!"SELECT DISTINCT ON (location) location, time, report FROM weather_reports;" = .ok
    str!"SELECT DISTINCT ON (location)\n location,\n time,\n report\nFROM weather_reports;" := by
  decide +kernel

/-- `test_distinct_on_multiple_fields`, line 353 -/
example : @formatSql asciiEnv
    str!"SELECT DISTINCT ON (location, time) location, time, report FROM weather_reports;" = .ok
    str!"SELECT DISTINCT ON (location, time)\n location,\n time,\n report\nFROM weather_reports;" := by
  decide +kernel

/-- `test_empty_group_by`, line 368 -/
example : @formatSql asciiEnv
    str!"SELECT * from t group by ()" = .ok
    str!"SELECT *\nFROM t\nGROUP BY ()" := by
  decide +kernel

/-- `test_group_by`, line 378 -/
example : @formatSql asciiEnv
    str!"SELECT * from t GROUP BY col" = .ok
    str!"SELECT *\nFROM t\nGROUP BY col" := by
  decide +kernel

/-- `test_group_by_parenthesis`, line 388 -/
example : @formatSql asciiEnv
    str!"SELECT * from t GROUP BY (col)" = .ok
    str!"SELECT *\nFROM t\nGROUP BY (col)" := by
  decide +kernel

/-- `test_group_by_multiple_elements`, line 398 -/
example : @formatSql asciiEnv
    str!"SELECT * from t GROUP BY col1, col2, col3" = .ok
    str!"SELECT *\nFROM t\nGROUP BY\n col1,\n col2,\n col3" := by
  decide +kernel

/-- `test_group_by_multiple_elements_parenthesis`, line 411 -/
example : @formatSql asciiEnv
    str!"SELECT * from t GROUP BY (col1, col2, col3)" = .ok
    str!"SELECT *\nFROM t\nGROUP BY (col1, col2, col3)" := by
  decide +kernel

/-- `test_where_and_group_by`, line 421 -/
example : @formatSql asciiEnv
    str!"SELECT count(*) from t where x =3 GROUP BY col1;" = .ok
    str!"SELECT COUNT(*)\nFROM t\nWHERE x = 3\nGROUP BY col1;" := by
  decide +kernel

/-- `test_group_by_parenthesis_rollup`, line 432 -/
example : @formatSql asciiEnv
    str!"SELECT * from t GROUP BY ROLLUP (col)" = .ok
    str!"SELECT *\nFROM t\nGROUP BY ROLLUP (col)" := by
  decide +kernel

/-- `test_group_by_multiple_elements_parenthesis_rollup`, line 442 -/
example : @formatSql asciiEnv
    str!"SELECT * from t GROUP BY ROLLUP (col1, col2, col3);" = .ok
    str!"SELECT *\nFROM t\nGROUP BY ROLLUP (col1, col2, col3);" := by
  decide +kernel

/-- `test_where_and_having`, line 452 -/
example : @formatSql asciiEnv
    str!"SELECT count(*) from t where x =3 having (sum(x) > 50);" = .ok
    str!"SELECT COUNT(*)\nFROM t\nWHERE x = 3\nHAVING (SUM(x) > 50);" := by
  decide +kernel

/-- `test_order_by`, line 463 -/
example : @formatSql asciiEnv
    str!"SELECT * from t order by col" = .ok
    str!"SELECT *\nFROM t\nORDER BY col" := by
  decide +kernel

/-- `test_order_by_mutliple_fields`, line 473 -/
example : @formatSql asciiEnv
    str!"SELECT * from t order by col, 2" = .ok
    str!"SELECT *\nFROM t\nORDER BY\n col,\n 2" := by
  decide +kernel

/-- `test_order_by_mutliple_fields_order`, line 485 -/
example : @formatSql asciiEnv
    str!"SELECT * from t order by col DESC, 2 ASC" = .ok
    str!"SELECT *\nFROM t\nORDER BY\n col DESC,\n 2 ASC" := by
  decide +kernel

/-- `test_limit`, line 497 -/
example : @formatSql asciiEnv
    str!"SELECT * from t limit 5" = .ok
    str!"SELECT *\nFROM t\nLIMIT 5" := by
  decide +kernel

/-- `test_limit_all`, line 507 -/
example : @formatSql asciiEnv
    str!"SELECT * from t limit all" = .ok
    str!"SELECT *\nFROM t\nLIMIT ALL" := by
  decide +kernel

/-- `test_offset`, line 517 -/
example : @formatSql asciiEnv
    str!"SELECT * from t offset 5" = .ok
    str!"SELECT *\nFROM t\nOFFSET 5" := by
  decide +kernel

/-- `test_subquery_where`, line 527 -/
example : @formatSql asciiEnv
    str!"\n    \
      SELECT any_value(url) f_0\n    \
      FROM (SELECT * FROM `toto`\n    \
      WHERE http_code <> 0 AND (STARTS_WITH(url, 'https') OR url = 'http://example.com'))\n    \
      GROUP BY url_hash\n        \
      " = .ok
    str!"SELECT ANY_VALUE(url) f_0\n\
      FROM (\n \
      SELECT *\n \
      FROM `toto`\n \
      WHERE http_code <> 0 AND (STARTS_WITH(url, 'https') OR url = 'http://example.com')\n\
      )\n\
      GROUP BY url_hash" := by
  decide +kernel

/-- `test_aliased_subquery`, line 546 -/
example : @formatSql asciiEnv
    str!"\n    \
      SELECT subquery.field\n    \
      FROM (SELECT * FROM `table`\n    \
      WHERE value <> 0) subquery\n    \
      GROUP BY subquery.col\n" = .ok
    str!"SELECT subquery.field\n\
      FROM (\n \
      SELECT *\n \
      FROM `table`\n \
      WHERE value <> 0\n\
      ) subquery\n\
      GROUP BY subquery.col" := by
  decide +kernel

/-- `test_aliased_as_subquery`, line 565 -/
example : @formatSql asciiEnv
    str!"\n    \
      SELECT AGG(subquery.field)\n    \
      FROM (SELECT * FROM `table`\n    \
      WHERE value <> 0) as subquery\n    \
      GROUP BY subquery.col\n" = .ok
    str!"SELECT AGG(subquery.field)\n\
      FROM (\n \
      SELECT *\n \
      FROM `table`\n \
      WHERE value <> 0\n\
      ) AS subquery\n\
      GROUP BY subquery.col" := by
  decide +kernel

/-- `test_is_not_null_condition`, line 584 -/
example : @formatSql asciiEnv
    str!"\n\
      SELECT a.field field\n\
      FROM (SELECT field,\n\
      field_id\n\
      FROM test_1.table_2\n\
      WHERE col <> 0 AND long__name__col IS NOT NULL) a\n\
      ORDER BY a.field_id\n" = .ok
    str!"SELECT a.field field\n\
      FROM (\n \
      SELECT\n  \
      field,\n  \
      field_id\n \
      FROM test_1.table_2\n \
      WHERE col <> 0 AND long__name__col IS NOT NULL\n\
      ) a\n\
      ORDER BY a.field_id" := by
  decide +kernel

/-- `test_filter_not_predicate`, line 607 -/
example : @formatSql asciiEnv
    str!"\nSELECT field\nFROM tt where not bool_field\n" = .ok
    str!"SELECT field\nFROM tt\nWHERE NOT bool_field" := by
  decide +kernel

/-- `test_boolean_filter_not_predicate`, line 620 -/
example : @formatSql asciiEnv
    str!"\nSELECT field\nFROM tt where not bool_field and not (x = Y)\n" = .ok
    str!"SELECT field\nFROM tt\nWHERE NOT bool_field AND NOT(x = Y)" := by
  decide +kernel

/-- `test_boolean_filter_first_not_predicate`, line 633 -/
example : @formatSql asciiEnv
    str!"\nSELECT field\nFROM tt where not (bool_field) and (x = Y)\n" = .ok
    str!"SELECT field\nFROM tt\nWHERE NOT(bool_field) AND (x = Y)" := by
  decide +kernel

/-- `test_basic_join`, line 646 -/
example : @formatSql asciiEnv
    str!"\nSELECT field\nFROM table JOIN other_table USING (field)\n" = .ok
    str!"SELECT field\nFROM table\nJOIN other_table\nUSING (field)" := by
  decide +kernel

/-- `test_parenthesis_join`, line 660 -/
example : @formatSql asciiEnv
    str!"\nSELECT field\nFROM table JOIN (other_table) USING (field)\n" = .ok
    str!"SELECT field\nFROM table\nJOIN (\n other_table\n)\nUSING (field)" := by
  decide +kernel

/-- `test_join_on_clause`, line 676 -/
example : @formatSql asciiEnv
    str!"\nSELECT field\nFROM table JOIN (other_table) ON f1 = f2\n" = .ok
    str!"SELECT field\nFROM table\nJOIN (\n other_table\n)\nON f1 = f2" := by
  decide +kernel

/-- `test_join_long_on_clause`, line 692 -/
example : @formatSql asciiEnv
    str!"\n\
      SELECT field\n\
      FROM table JOIN (other_table) ON the__first__very__long__field__name__to__join = the__second__very__long__field__name__to__join and f1 = f2\n"
      = .ok
    str!"SELECT field\n\
      FROM table\n\
      JOIN (\n \
      other_table\n\
      )\n\
      ON\n \
      the__first__very__long__field__name__to__join = the__second__very__long__field__name__to__join\n \
      AND f1 = f2" := by
  decide +kernel

/-- `test_join_long_on_clause_with_parenthesis`, line 710 -/
example : @formatSql asciiEnv
    str!"\n\
      SELECT field\n\
      FROM table JOIN (other_table) ON (the__first__very__long__field__name__to__join = the__second__very__long__field__name__to__join and (f1 = f2))\n"
      = .ok
    str!"SELECT field\n\
      FROM table\n\
      JOIN (\n \
      other_table\n\
      )\n\
      ON (\n \
      the__first__very__long__field__name__to__join = the__second__very__long__field__name__to__join\n \
      AND (f1 = f2)\n\
      )" := by
  decide +kernel

/-- `test_join_on_clause_boolean`, line 729 -/
example : @formatSql asciiEnv
    str!"\nSELECT field\nFROM table JOIN (other_table) ON f1 = f2 and f3=f4\n" = .ok
    str!"SELECT field\nFROM table\nJOIN (\n other_table\n)\nON f1 = f2 AND f3 = f4" := by
  decide +kernel

/-- `test_two_parenthesis_joins_with_group_by`, line 745 -/
example : @formatSql asciiEnv
    str!"\n\
      SELECT avg(col), count(*)\n\
      FROM table JOIN (other_table) USING (field) FULL OUTER JOIN ( SELECT * FROM last_table WHERE x = 1 ) USING (f2)\n\
      GROUP BY field\n" = .ok
    str!"SELECT\n \
      AVG(col),\n \
      COUNT(*)\n\
      FROM table\n\
      JOIN (\n \
      other_table\n\
      )\n\
      USING (field)\n\
      FULL OUTER JOIN (\n \
      SELECT *\n \
      FROM last_table\n \
      WHERE x = 1\n\
      )\n\
      USING (f2)\n\
      GROUP BY field" := by
  decide +kernel

/-- `test_nested_joins`, line 771 -/
example : @formatSql asciiEnv
    str!"\n\
      SELECT COALESCE(sq_1.col, sq_2.col) f0_\n\
      \n\
      FROM (SELECT ANY_VALUE(col) col,\n\
      LAST_VALUE(ANY_VALUE(col2)) OVER (PARTITION BY ANY_VALUE(col) ORDER BY SUM(clicks) ASC, SUM(metric) ASC RANGE BETWEEN UNBOUNDED PRECEDING AND UNBOUNDED FOLLOWING) last,\n\
      hash\n\
      FROM (SELECT *\n\
      FROM `events`\n\
      WHERE _TABLE_SUFFIX BETWEEN '20200410' AND '20200510')\n\
      JOIN\n\
      (SELECT * EXCEPT (hash)\n\
      FROM (SELECT *,\n\
      ROW_NUMBER() OVER (PARTITION BY hash) AS rn\n\
      FROM `test-table`\n\
      WHERE _TABLE_SUFFIX BETWEEN '20200401' AND '20200501')\n\
      WHERE rn = 1)\n\
      USING (hash)\n\
      GROUP BY hash) sq_1\n\
      \n\
      FULL OUTER JOIN\n\
      \n\
      (SELECT ANY_VALUE(col) col,\n\
      hash\n\
      FROM (SELECT *\n\
      FROM `events`\n\
      WHERE _TABLE_SUFFIX BETWEEN '20200310' AND '20200410')\n\
      JOIN\n\
      (SELECT * EXCEPT (hash),\n\
      FROM (SELECT *,\n\
      ROW_NUMBER() OVER (PARTITION BY hash) AS rn\n\
      FROM `test-table`\n\
      WHERE _TABLE_SUFFIX BETWEEN '20200301' AND '20200401')\n\
      WHERE rn = 1)\n\
      USING (hash)\n\
      GROUP BY hash) sq_2\n\
      \n\
      ON sq_1.hash = sq_2.hash\n\
      WHERE sq_1.last = 1\n\
      GROUP BY f0_\n" = .ok
    str!"SELECT COALESCE(sq_1.col, sq_2.col) f0_\n\
      FROM (\n \
      SELECT\n  \
      ANY_VALUE(col) col,\n  \
      LAST_VALUE(ANY_VALUE(col2)) OVER (\n   \
      PARTITION BY ANY_VALUE(col)\n   \
      ORDER BY\n    \
      SUM(clicks) ASC,\n    \
      SUM(metric) ASC\n   \
      RANGE BETWEEN UNBOUNDED PRECEDING AND UNBOUNDED FOLLOWING\n  \
      ) last,\n  \
      hash\n \
      FROM (\n  \
      SELECT *\n  \
      FROM `events`\n  \
      WHERE _TABLE_SUFFIX BETWEEN '20200410' AND '20200510'\n \
      )\n \
      JOIN (\n  \
      SELECT * EXCEPT (hash)\n  \
      FROM (\n   \
      SELECT\n    \
      *,\n    \
      ROW_NUMBER() OVER (\n     \
      PARTITION BY hash\n    \
      ) AS rn\n   \
      FROM `test-table`\n   \
      WHERE _TABLE_SUFFIX BETWEEN '20200401' AND '20200501'\n  \
      )\n  \
      WHERE rn = 1\n \
      )\n \
      USING (hash)\n \
      GROUP BY hash\n\
      ) sq_1\n\
      FULL OUTER JOIN (\n \
      SELECT\n  \
      ANY_VALUE(col) col,\n  \
      hash\n \
      FROM (\n  \
      SELECT *\n  \
      FROM `events`\n  \
      WHERE _TABLE_SUFFIX BETWEEN '20200310' AND '20200410'\n \
      )\n \
      JOIN (\n  \
      SELECT * EXCEPT (hash)\n  \
      FROM (\n   \
      SELECT\n    \
      *,\n    \
      ROW_NUMBER() OVER (\n     \
      PARTITION BY hash\n    \
      ) AS rn\n   \
      FROM `test-table`\n   \
      WHERE _TABLE_SUFFIX BETWEEN '20200301' AND '20200401'\n  \
      )\n  \
      WHERE rn = 1\n \
      )\n \
      USING (hash)\n \
      GROUP BY hash\n\
      ) sq_2\n\
      ON sq_1.hash = sq_2.hash\n\
      WHERE sq_1.last = 1\n\
      GROUP BY f0_" := by
  decide +kernel

/-- `test_parenthesis_join_subquery`, line 878 -/
example : @formatSql asciiEnv
    str!"\n\
      SELECT field\n\
      FROM table JOIN (SELECT * from other_table WHERE date > \"2020-01-01\") USING (field)\n" = .ok
    str!"SELECT field\n\
      FROM table\n\
      JOIN (\n \
      SELECT *\n \
      FROM other_table\n \
      WHERE date > \"2020-01-01\"\n\
      )\n\
      USING (field)" := by
  decide +kernel

/-- `test_partitioning_function`, line 896 -/
example : @formatSql asciiEnv
    str!"SELECT *, row_number() over (partition by x) from t;" = .ok
    str!"SELECT\n *,\n ROW_NUMBER() OVER (\n  PARTITION BY x\n )\nFROM t;" := by
  decide +kernel

/-- `test_partitioning_function_multiple_params`, line 909 -/
example : @formatSql asciiEnv
    str!"SELECT row_number() over (partition by x,z, x+z) from t;" = .ok
    str!"SELECT ROW_NUMBER() OVER (\n PARTITION BY\n  x,\n  z,\n  x + z\n)\nFROM t;" := by
  decide +kernel

/-- `test_partitioning_function_multiple_params_with_frame`, line 923 -/
example : @formatSql asciiEnv
    str!"SELECT row_number() over (partition by x,z, x+z rows BETWEEN UNBOUNDED PRECEDING AND UNBOUNDED FOLLOWING) from t;"
      = .ok
    str!"SELECT ROW_NUMBER() OVER (\n \
      PARTITION BY\n  \
      x,\n  \
      z,\n  \
      x + z\n \
      ROWS BETWEEN UNBOUNDED PRECEDING AND UNBOUNDED FOLLOWING\n\
      )\n\
      FROM t;" := by
  decide +kernel

/-- `test_partitioning_function_order_by`, line 938 -/
example : @formatSql asciiEnv
    str!"SELECT *, row_number() over (partition by x order BY x) from t;" = .ok
    str!"SELECT\n *,\n ROW_NUMBER() OVER (\n  PARTITION BY x\n  ORDER BY x\n )\nFROM t;" := by
  decide +kernel

/-- `test_partitioning_function_order_by_frame`, line 952 -/
example : @formatSql asciiEnv
    str!"SELECT *, row_number() over (partition by x order BY x rows BETWEEN UNBOUNDED PRECEDING AND UNBOUNDED FOLLOWING) from t;"
      = .ok
    str!"SELECT\n \
      *,\n \
      ROW_NUMBER() OVER (\n  \
      PARTITION BY x\n  \
      ORDER BY x\n  \
      ROWS BETWEEN UNBOUNDED PRECEDING AND UNBOUNDED FOLLOWING\n \
      )\n\
      FROM t;" := by
  decide +kernel

/-- `test_partitioning_function_order_by_multiple`, line 967 -/
example : @formatSql asciiEnv
    str!"SELECT row_number() over (partition by x,z, x+z order by x desc, z ASC)  from t;" = .ok
    str!"SELECT ROW_NUMBER() OVER (\n \
      PARTITION BY\n  \
      x,\n  \
      z,\n  \
      x + z\n \
      ORDER BY\n  \
      x DESC,\n  \
      z ASC\n\
      )\n\
      FROM t;" := by
  decide +kernel

/-- `test_partitioning_function_order_by_no_partition`, line 984 -/
example : @formatSql asciiEnv
    str!"SELECT row_number() over (order by x desc, z ASC)  from t;" = .ok
    str!"SELECT ROW_NUMBER() OVER (\n ORDER BY\n  x DESC,\n  z ASC\n)\nFROM t;" := by
  decide +kernel

/-- `test_partitioning_function_order_by_no_partition_with_frame`, line 997 -/
example : @formatSql asciiEnv
    str!"SELECT row_number() over (order by x desc, z ASC RANGE between UNBOUNDED preceding AND unbounded FOLLOWING)  from t;"
      = .ok
    str!"SELECT ROW_NUMBER() OVER (\n \
      ORDER BY\n  \
      x DESC,\n  \
      z ASC\n \
      RANGE BETWEEN UNBOUNDED PRECEDING AND UNBOUNDED FOLLOWING\n\
      )\n\
      FROM t;" := by
  decide +kernel

/-- `test_partitioning_function_no_order_with_frame`, line 1011 -/
example : @formatSql asciiEnv
    str!"SELECT row_number() over (RANGE between UNBOUNDED preceding AND unbounded FOLLOWING)  from t;" = .ok
    str!"SELECT ROW_NUMBER() OVER (RANGE BETWEEN UNBOUNDED PRECEDING AND UNBOUNDED FOLLOWING)\nFROM t;" := by
  decide +kernel

/-- `test_partitioning_function_equals_with_alias`, line 1020 -/
example : @formatSql asciiEnv
    str!"SELECT row_number() over (RANGE between UNBOUNDED preceding AND unbounded FOLLOWING) = 1 test from t;" = .ok
    str!"SELECT ROW_NUMBER() OVER (RANGE BETWEEN UNBOUNDED PRECEDING AND UNBOUNDED FOLLOWING) = 1 test\nFROM t;" := by
  decide +kernel

/-- `test_partitioning_function_empty`, line 1029 -/
example : @formatSql asciiEnv
    str!"SELECT row_number() over () from t;" = .ok
    str!"SELECT ROW_NUMBER() OVER ()\nFROM t;" := by
  decide +kernel

/-- `test_long_function`, line 1038 -/
example : @formatSql asciiEnv
    str!"select (IFNULL(SUM(f1), 0) + (APPROX_COUNT_DISTINCT(IF(f2 >= DATE('2018-04-10'), f3, NULL)) - IFNULL(SUM(f4), 0)) + 50) f_1 from t;"
      = .ok
    str!"SELECT (IFNULL(SUM(f1), 0) + (APPROX_COUNT_DISTINCT(IF(f2 >= DATE('2018-04-10'), f3, NULL)) - IFNULL(SUM(f4), 0)) + 50) f_1\n\
      FROM t;" := by
  decide +kernel

/-- `test_date_functions_field`, line 1047 -/
example : @formatSql asciiEnv
    str!"select DATE(TIMESTAMP_TRUNC(CAST(sq_2.date AS TIMESTAMP), MONTH)) from table as sq_2" = .ok
    str!"SELECT DATE(TIMESTAMP_TRUNC(CAST(sq_2.date AS TIMESTAMP), MONTH))\nFROM table AS sq_2" := by
  decide +kernel

/-- `test_case_expr`, line 1056 -/
example : @formatSql asciiEnv
    str!"select case c when 1 THEN 'test' when 1+3 then 'other' else 'none' end from t;" = .ok
    str!"SELECT CASE c\n WHEN 1 THEN 'test'\n WHEN 1 + 3 THEN 'other'\n ELSE 'none'\nEND\nFROM t;" := by
  decide +kernel

/-- `test_case_expr_multiple_fields`, line 1071 -/
example : @formatSql asciiEnv
    str!"select col, col2, case c when 1 THEN 'test' when 1+3 then 'other' else 'none' end from t;" = .ok
    str!"SELECT\n \
      col,\n \
      col2,\n \
      CASE c\n  \
      WHEN 1 THEN 'test'\n  \
      WHEN 1 + 3 THEN 'other'\n  \
      ELSE 'none'\n \
      END\n\
      FROM t;" := by
  decide +kernel

/-- `test_case`, line 1087 -/
example : @formatSql asciiEnv
    str!"select case when c = 1 THEN 'test' when c <= 1+3 then 'other' else 'none' end from t;" = .ok
    str!"SELECT CASE\n WHEN c = 1 THEN 'test'\n WHEN c <= 1 + 3 THEN 'other'\n ELSE 'none'\nEND\nFROM t;" := by
  decide +kernel

end SqlV.Fidelity
