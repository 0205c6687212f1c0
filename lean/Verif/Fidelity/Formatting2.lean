import Verif.Query

/-!
# The project's own tests: `tests/integration/test_formatting.py`

`format_sql` of the text of the test is the expected text, for the second half of the tests.
Each example is one test function, evaluated by the kernel on the model with `asciiEnv`.  These are tests of the model,
not proofs about it: they show that the model agrees with the expectations its authors wrote down.
-/

namespace SqlV.Fidelity

/-- `test_case_multiple_fields`, line 1100 -/
example : @formatSql asciiEnv
    str!"select col, case when c = 1 THEN 'test' when c <= 1+3 then 'other' else 'none' end from t;" = .ok
    str!"SELECT\n \
      col,\n \
      CASE\n  \
      WHEN c = 1 THEN 'test'\n  \
      WHEN c <= 1 + 3 THEN 'other'\n  \
      ELSE 'none'\n \
      END\n\
      FROM t;" := by
  decide +kernel

/-- `test_case_no_else`, line 1115 -/
example : @formatSql asciiEnv
    str!"select case when c = 1 THEN 'test' when c <= 1+3 then 'other' end from t;" = .ok
    str!"SELECT CASE\n WHEN c = 1 THEN 'test'\n WHEN c <= 1 + 3 THEN 'other'\nEND\nFROM t;" := by
  decide +kernel

/-- `test_index_access`, line 1127 -/
example : @formatSql asciiEnv
    str!"select col[0] f0, col[safe_index(-1)] f1 from table;" = .ok
    str!"SELECT\n col[0] f0,\n col[SAFE_INDEX(-1)] f1\nFROM table;" := by
  decide +kernel

/-- `test_array_with_subquery`, line 1138 -/
example : @formatSql asciiEnv
    str!"select ARRAY(SELECT struct(dimension, IFNULL(sum(metric),0) ) FROM unnest(f_2) group BY dimension ORDER by dimension) from table"
      = .ok
    str!"SELECT ARRAY(\n \
      SELECT STRUCT(dimension, IFNULL(SUM(metric), 0))\n \
      FROM UNNEST(f_2)\n \
      GROUP BY dimension\n \
      ORDER BY dimension\n\
      )\n\
      FROM table" := by
  decide +kernel

/-- `test_array_with_subquery_multiple_args`, line 1152 -/
example : @formatSql asciiEnv
    str!"select ARRAY(SELECT struct(dimension, IFNULL(sum(metric),0) ) FROM unnest(f_2) group BY dimension ORDER by dimension), col from table"
      = .ok
    str!"SELECT\n \
      ARRAY(\n  \
      SELECT STRUCT(dimension, IFNULL(SUM(metric), 0))\n  \
      FROM UNNEST(f_2)\n  \
      GROUP BY dimension\n  \
      ORDER BY dimension\n \
      ),\n \
      col\n\
      FROM table" := by
  decide +kernel

/-- `test_unnest_with_offset`, line 1168 -/
example : @formatSql asciiEnv
    str!"SELECT ARRAY( SELECT col from UNNEST(f_2) with offset ) FROM table;" = .ok
    str!"SELECT ARRAY(\n SELECT col\n FROM UNNEST(f_2) WITH OFFSET\n)\nFROM table;" := by
  decide +kernel

/-- `test_unnest_with_offset_alias`, line 1180 -/
example : @formatSql asciiEnv
    str!"SELECT ARRAY( SELECT a.col from UNNEST(f_2) as a with offset ) FROM table;" = .ok
    str!"SELECT ARRAY(\n SELECT a.col\n FROM UNNEST(f_2) AS a WITH OFFSET\n)\nFROM table;" := by
  decide +kernel

/-- `test_unnest_with_offset_both_aliased`, line 1192 -/
example : @formatSql asciiEnv
    str!"\n\
      SELECT some_field f0,\n\
      (SELECT SUM(IF(hh = structure.cq[SAFE_OFFSET(o)], 1, 0))\n\
      FROM UNNEST(other_struct.cq) hh WITH offset o) * 100\n\
      / LEAST(other_struct.len, structure.len) f1 from table;" = .ok
    str!"SELECT\n \
      some_field f0,\n \
      (\n  \
      SELECT SUM(IF(hh = structure.cq[SAFE_OFFSET(o)], 1, 0))\n  \
      FROM UNNEST(other_struct.cq) hh WITH OFFSET o\n \
      ) * 100 / LEAST(other_struct.len, structure.len) f1\n\
      FROM table;" := by
  decide +kernel

/-- `test_function_calls`, line 1210 -/
example : @formatSql asciiEnv
    str!"select SAFE_DIVIDE(SUM(SUM(met)) OVER (PARTITION BY ANY_VALUE(hash) ORDER BY SUM(met) DESC, ANY_VALUE(hash2) ASC) ,SUM(SUM(met)) OVER (PARTITION BY ANY_VALUE(hash))) from t group by hash3"
      = .ok
    str!"SELECT SAFE_DIVIDE(\n \
      SUM(SUM(met)) OVER (\n  \
      PARTITION BY ANY_VALUE(hash)\n  \
      ORDER BY\n   \
      SUM(met) DESC,\n   \
      ANY_VALUE(hash2) ASC\n \
      ),\n \
      SUM(SUM(met)) OVER (\n  \
      PARTITION BY ANY_VALUE(hash)\n \
      )\n\
      )\n\
      FROM t\n\
      GROUP BY hash3" := by
  decide +kernel

/-- `test_regex`, line 1230 -/
example : @formatSql asciiEnv
    str!"select regexp_replace(field, r'[^a-zA-Z0-9]', '') from t;" = .ok
    str!"SELECT REGEXP_REPLACE(field, r'[^a-zA-Z0-9]', '')\nFROM t;" := by
  decide +kernel

/-- `test_multiple_regexes`, line 1239 -/
example : @formatSql asciiEnv
    str!"select REGEXP_REPLACE(regexp_replace(NORMALIZE_AND_CASEFOLD ( arr [SAFE_OFFSET(0)],NFD), r'\\p{{Mn}}', ''), r'[^a-zA-Z0-9]', ' ') from t;"
      = .ok
    str!"SELECT REGEXP_REPLACE(\n \
      REGEXP_REPLACE(NORMALIZE_AND_CASEFOLD(arr[SAFE_OFFSET(0)], NFD), r'\\p{{Mn}}', ''),\n \
      r'[^a-zA-Z0-9]',\n \
      ' '\n\
      )\n\
      FROM t;" := by
  decide +kernel

/-- `test_parentheses_nested_select`, line 1252 -/
example : @formatSql asciiEnv
    str!"select (SELECT SUM(IF(hh = b.some_field.cq[SAFE_OFFSET(o)],1,0))\n\
      FROM UNNEST(a.other_field.cq) hh OFFSET o) * 100 / LEAST(a.other_field.len, b.some_field.len) result_field\n\
      from t1 a\n\
      join t2 b USING (f1)\n" = .ok
    str!"SELECT (\n \
      SELECT SUM(IF(hh = b.some_field.cq[SAFE_OFFSET(o)], 1, 0))\n \
      FROM UNNEST(a.other_field.cq) hh\n \
      OFFSET o\n\
      ) * 100 / LEAST(a.other_field.len, b.some_field.len) result_field\n\
      FROM t1 a\n\
      JOIN t2 b\n\
      USING (f1)" := by
  decide +kernel

/-- `test_union`, line 1271 -/
example : @formatSql asciiEnv
    str!"select f1 from t1 union t2;" = .ok
    str!"SELECT f1\nFROM t1\nUNION t2;" := by
  decide +kernel

/-- `test_intersect`, line 1281 -/
example : @formatSql asciiEnv
    str!"select f1 from t1 intersect   t2;" = .ok
    str!"SELECT f1\nFROM t1\nINTERSECT t2;" := by
  decide +kernel

/-- `test_except`, line 1291 -/
example : @formatSql asciiEnv
    str!"select f1 from t1 except select * from `t2`;" = .ok
    str!"SELECT f1\nFROM t1\nEXCEPT\nSELECT *\nFROM `t2`;" := by
  decide +kernel

/-- `test_query_combinations`, line 1303 -/
example : @formatSql asciiEnv
    str!"SELECT A FROM TA\nINTERSECT SELECT B FROM TB EXCEPT (SELECT C FROM TB)\nUNION SELECT D FROM TD" = .ok
    str!"SELECT A\n\
      FROM TA\n\
      INTERSECT\n\
      SELECT B\n\
      FROM TB\n\
      EXCEPT\n\
      (\n \
      SELECT C\n \
      FROM TB\n\
      )\n\
      UNION\n\
      SELECT D\n\
      FROM TD" := by
  decide +kernel

/-- `test_long_function_calls`, line 1325 -/
example : @formatSql asciiEnv
    str!"select STRUCT(LENGTH(a_very_very_very_long_field_name_that_takes_quite_some_space) AS len, TO_CODE_POINTS(some_other_very_very_long_field_name) AS cq) a_very_very_long_result_field\n\
      from t;\n" = .ok
    str!"SELECT STRUCT(\n \
      LENGTH(a_very_very_very_long_field_name_that_takes_quite_some_space) AS len,\n \
      TO_CODE_POINTS(some_other_very_very_long_field_name) AS cq\n\
      ) a_very_very_long_result_field\n\
      FROM t;" := by
  decide +kernel

/-- `test_long_function_calls_multiple_fields`, line 1339 -/
example : @formatSql asciiEnv
    str!"select f1, STRUCT(LENGTH(a_very_very_very_long_field_name_that_takes_quite_some_space) AS len, TO_CODE_POINTS(some_other_very_very_long_field_name) AS cq) a_very_very_long_result_field\n\
      from t;\n" = .ok
    str!"SELECT\n \
      f1,\n \
      STRUCT(\n  \
      LENGTH(a_very_very_very_long_field_name_that_takes_quite_some_space) AS len,\n  \
      TO_CODE_POINTS(some_other_very_very_long_field_name) AS cq\n \
      ) a_very_very_long_result_field\n\
      FROM t;" := by
  decide +kernel

/-- `test_capitalized_column_name`, line 1355 -/
example : @formatSql asciiEnv
    str!"select COL_name from t;" = .ok
    str!"SELECT COL_name\nFROM t;" := by
  decide +kernel

/-- `test_capitalized_alias`, line 1364 -/
example : @formatSql asciiEnv
    str!"select col an_ALIAS from t;" = .ok
    str!"SELECT col an_ALIAS\nFROM t;" := by
  decide +kernel

/-- `test_break_long_where`, line 1373 -/
example : @formatSql asciiEnv
    str!"select * from t where this > 0 AND that < 0 AND foo = 4 AND veryveryverylonglonglongname = 'test' OR other_long_long_long_name < 10"
      = .ok
    str!"SELECT *\n\
      FROM t\n\
      WHERE\n \
      this > 0\n \
      AND that < 0\n \
      AND foo = 4\n \
      AND veryveryverylonglonglongname = 'test'\n \
      OR other_long_long_long_name < 10" := by
  decide +kernel

/-- `test_break_long_where_nested_operations`, line 1388 -/
example : @formatSql asciiEnv
    str!"select * from t where this > 0 AND that < 0 AND foo = 4 AND (veryveryveryveryveryveryverylonglonglongname = 'test' OR other_long_long_long_long_name < 10)"
      = .ok
    str!"SELECT *\n\
      FROM t\n\
      WHERE\n \
      this > 0\n \
      AND that < 0\n \
      AND foo = 4\n \
      AND (\n  \
      veryveryveryveryveryveryverylonglonglongname = 'test'\n  \
      OR other_long_long_long_long_name < 10\n \
      )" := by
  decide +kernel

/-- `test_break_long_parenthesis_where_nested_operations`, line 1405 -/
example : @formatSql asciiEnv
    str!"select * from t where (this > 0 AND that < 0 AND foo = 4 AND (veryveryveryveryveryveryverylonglonglongname = 'test' OR other_long_long_long_long_name < 10) OR x < 0)"
      = .ok
    str!"SELECT *\n\
      FROM t\n\
      WHERE (\n \
      this > 0\n \
      AND that < 0\n \
      AND foo = 4\n \
      AND (\n  \
      veryveryveryveryveryveryverylonglonglongname = 'test'\n  \
      OR other_long_long_long_long_name < 10\n \
      )\n \
      OR x < 0\n\
      )" := by
  decide +kernel

/-- `test_cast_type`, line 1424 -/
example : @formatSql asciiEnv
    str!"select cast(date as date) from t;" = .ok
    str!"SELECT CAST(date AS DATE)\nFROM t;" := by
  decide +kernel

/-- `test_cast_in_condition`, line 1433 -/
example : @formatSql asciiEnv
    str!"select * from t where CAST(Date AS DaTe) between '2020-01-01' AND '2020-02-01'" = .ok
    str!"SELECT *\nFROM t\nWHERE CAST(Date AS DATE) BETWEEN '2020-01-01' AND '2020-02-01'" := by
  decide +kernel

/-- `test_date_function`, line 1445 -/
example : @formatSql asciiEnv
    str!"select date(date) from t" = .ok
    str!"SELECT DATE(date)\nFROM t" := by
  decide +kernel

/-- `test_select_boolean_condition_expression`, line 1454 -/
example : @formatSql asciiEnv
    str!"select field is not null and col > 0, x from t;" = .ok
    str!"SELECT\n field IS NOT NULL AND col > 0,\n x\nFROM t;" := by
  decide +kernel

/-- `test_bitwise_operation`, line 1465 -/
example : @formatSql asciiEnv
    str!"select field & 64 as col from t;" = .ok
    str!"SELECT field & 64 AS col\nFROM t;" := by
  decide +kernel

/-- `test_cross_join`, line 1474 -/
example : @formatSql asciiEnv
    str!"select f1, f2 from t1 cross join t2;" = .ok
    str!"SELECT\n f1,\n f2\nFROM t1\nCROSS JOIN t2;" := by
  decide +kernel

/-- `test_implicit_cross_join`, line 1486 -/
example : @formatSql asciiEnv
    str!"select f1,f2 from t1, t2;" = .ok
    str!"SELECT\n f1,\n f2\nFROM t1, t2;" := by
  decide +kernel

/-- `test_implicit_cross_join_unnest`, line 1497 -/
example : @formatSql asciiEnv
    str!"select field from t1, unnest(t2);" = .ok
    str!"SELECT field\nFROM t1, UNNEST(t2);" := by
  decide +kernel

/-- `test_multiple_joins_unnest`, line 1506 -/
example : @formatSql asciiEnv
    str!"select field from t1 a, unnest(t2) as b, unnest(t3) as c;" = .ok
    str!"SELECT field\nFROM t1 a, UNNEST(t2) AS b, UNNEST(t3) AS c;" := by
  decide +kernel

/-- `test_nested_multiple_joins_unnest`, line 1515 -/
example : @formatSql asciiEnv
    str!"select field from (select x from (select * from t1) a, unnest(t2) as b,unnest(t3) as c);" = .ok
    str!"SELECT field\n\
      FROM (\n \
      SELECT x\n \
      FROM (\n  \
      SELECT *\n  \
      FROM t1\n \
      ) a, UNNEST(t2) AS b, UNNEST(t3) AS c\n\
      );" := by
  decide +kernel

/-- `test_having_boolean_clause`, line 1533 -/
example : @formatSql asciiEnv
    str!"select dim from t group by dim having sum(field) is not null and avg(col) > 0" = .ok
    str!"SELECT dim\nFROM t\nGROUP BY dim\nHAVING SUM(field) IS NOT NULL AND AVG(col) > 0" := by
  decide +kernel

/-- `test_if_with_date_column_name`, line 1546 -/
example : @formatSql asciiEnv
    str!"select if(date(date) = '2020-01-01', 1, 0) from t" = .ok
    str!"SELECT IF(DATE(date) = '2020-01-01', 1, 0)\nFROM t" := by
  decide +kernel

/-- `test_long_nested_where`, line 1555 -/
example : @formatSql asciiEnv
    str!"\n\
      select * from (\n\
      select f from table\n  \
      WHERE EXISTS( SELECT 1 FROM UNNEST(long__field__name__multiple__array) AS a WHERE a LIKE '%Travel%' )\n   \
      AND STARTS_WITH(the_second_keyword, 'travel')\n   \
      AND ( ENDS_WITH(the_first_keyword, 'paris') OR EXISTS( SELECT 1 FROM UNNEST(long__field__name__multiple__array) AS a WHERE a LIKE '%Travel in Paris%' ) )\n\
      )\n" = .ok
    str!"SELECT *\n\
      FROM (\n \
      SELECT f\n \
      FROM table\n \
      WHERE\n  \
      EXISTS(\n   \
      SELECT 1\n   \
      FROM UNNEST(long__field__name__multiple__array) AS a\n   \
      WHERE a LIKE '%Travel%'\n  \
      )\n  \
      AND STARTS_WITH(the_second_keyword, 'travel')\n  \
      AND (\n   \
      ENDS_WITH(the_first_keyword, 'paris')\n   \
      OR EXISTS(\n    \
      SELECT 1\n    \
      FROM UNNEST(long__field__name__multiple__array) AS a\n    \
      WHERE a LIKE '%Travel in Paris%'\n   \
      )\n  \
      )\n\
      )" := by
  decide +kernel

/-- `test_long_case_when_conditions_line_breaks`, line 1589 -/
example : @formatSql asciiEnv
    str!"\n\
      select case when(the__very__long__integer__variable_that__is__tested >= 0 AND the__very__long__integer__variable_that__is__tested < 1000) THEN '0000_from_0_to_1000'\n   \
      WHEN the__very__long__integer__variable_that__is__tested >= 1000 AND the__very__long__integer__variable_that__is__tested < 10000 THEN '0001_from_1000_to_10000'\n   \
      WHEN the__very__long__integer__variable_that__is__tested >= 10000\n\
      THEN '0002_from_10000_to_' end\n\
      from t;\n" = .ok
    str!"SELECT CASE\n \
      WHEN (\n  \
      the__very__long__integer__variable_that__is__tested >= 0\n  \
      AND the__very__long__integer__variable_that__is__tested < 1000\n \
      )\n \
      THEN '0000_from_0_to_1000'\n \
      WHEN\n  \
      the__very__long__integer__variable_that__is__tested >= 1000\n  \
      AND the__very__long__integer__variable_that__is__tested < 10000\n \
      THEN '0001_from_1000_to_10000'\n \
      WHEN the__very__long__integer__variable_that__is__tested >= 10000 THEN '0002_from_10000_to_'\n\
      END\n\
      FROM t;" := by
  decide +kernel

/-- `test_long_case_when_conditions_line_breaks_multi_column`, line 1615 -/
example : @formatSql asciiEnv
    str!"\n\
      select x, case when(the__very__long__integer__variable_that__is__tested >= 0 AND the__very__long__integer__variable_that__is__tested < 1000) THEN '0000_from_0_to_1000'\n   \
      WHEN the__very__long__integer__variable_that__is__tested >= 1000 AND the__very__long__integer__variable_that__is__tested < 10000 THEN '0001_from_1000_to_10000'\n   \
      WHEN the__very__long__integer__variable_that__is__tested >= 10000\n\
      THEN '0002_from_10000_to_' end\n\
      from t;\n" = .ok
    str!"SELECT\n \
      x,\n \
      CASE\n  \
      WHEN (\n   \
      the__very__long__integer__variable_that__is__tested >= 0\n   \
      AND the__very__long__integer__variable_that__is__tested < 1000\n  \
      )\n  \
      THEN '0000_from_0_to_1000'\n  \
      WHEN\n   \
      the__very__long__integer__variable_that__is__tested >= 1000\n   \
      AND the__very__long__integer__variable_that__is__tested < 10000\n  \
      THEN '0001_from_1000_to_10000'\n  \
      WHEN the__very__long__integer__variable_that__is__tested >= 10000 THEN '0002_from_10000_to_'\n \
      END\n\
      FROM t;" := by
  decide +kernel

/-- `test_where_in_subquery`, line 1643 -/
example : @formatSql asciiEnv
    str!"select * from t where id in (select id from other_t where field <> 0);" = .ok
    str!"SELECT *\nFROM t\nWHERE\n id IN (\n  SELECT id\n  FROM other_t\n  WHERE field <> 0\n );" := by
  decide +kernel

/-- `test_table_in_square_brackets`, line 1658 -/
example : @formatSql asciiEnv
    str!"select * from [complex.table.name];" = .ok
    str!"SELECT *\nFROM [complex.table.name];" := by
  decide +kernel

/-- `test_union_all_nested_query`, line 1667 -/
example : @formatSql asciiEnv
    str!"select * from (\n\
      select hash, max(date)\n\
      from (\n\
      (select * from t1)\n\
      UNION ALL (select * from t2)\n\
      ) group by hash\n\
      )" = .ok
    str!"SELECT *\n\
      FROM (\n \
      SELECT\n  \
      hash,\n  \
      MAX(date)\n \
      FROM (\n  \
      (\n   \
      SELECT *\n   \
      FROM t1\n  \
      )\n  \
      UNION ALL\n  \
      (\n   \
      SELECT *\n   \
      FROM t2\n  \
      )\n \
      )\n \
      GROUP BY hash\n\
      )" := by
  decide +kernel

/-- `test_array`, line 1698 -/
example : @formatSql asciiEnv
    str!"select [f1, 'x', f2] from t" = .ok
    str!"SELECT [f1, 'x', f2]\nFROM t" := by
  decide +kernel

/-- `test_chained_field`, line 1707 -/
example : @formatSql asciiEnv
    str!"select namespace.complex_array[offset(3)].SomeStuff[offset(3)] from t" = .ok
    str!"SELECT namespace.complex_array[OFFSET(3)].SomeStuff[OFFSET(3)]\nFROM t" := by
  decide +kernel

/-- `test_multiple_table_name_with_cross_join`, line 1716 -/
example : @formatSql asciiEnv
    str!"select * from x.y.z, a.b.c" = .ok
    str!"SELECT *\nFROM x.y.z, a.b.c" := by
  decide +kernel

/-- `test_multiple_table_name_with_multiple_joins`, line 1725 -/
example : @formatSql asciiEnv
    str!"select * from x.y.z, a.b.c join i.j using (k) left join t on p=l;" = .ok
    str!"SELECT *\nFROM x.y.z, a.b.c\nJOIN i.j\nUSING (k)\nLEFT JOIN t\nON p = l;" := by
  decide +kernel

/-- `test_where_with_offset_column`, line 1738 -/
example : @formatSql asciiEnv
    str!"select sum(x) from UNNEST(c) AS x WITH OFFSET where offset between 1 and 2 offset 5;" = .ok
    str!"SELECT SUM(x)\nFROM UNNEST(c) AS x WITH OFFSET\nWHERE offset BETWEEN 1 AND 2\nOFFSET 5;" := by
  decide +kernel

/-- `test_struct`, line 1749 -/
example : @formatSql asciiEnv
    str!"select struct(f1, f2 as x) from t" = .ok
    str!"SELECT STRUCT(f1, f2 AS x)\nFROM t" := by
  decide +kernel

/-- `test_array_agg`, line 1758 -/
example : @formatSql asciiEnv
    str!"SELECT ARRAY_AGG(a) agg from t" = .ok
    str!"SELECT ARRAY_AGG(a) agg\nFROM t" := by
  decide +kernel

/-- `test_array_agg_order_by`, line 1767 -/
example : @formatSql asciiEnv
    str!"SELECT ARRAY_AGG(a ORDER BY o) agg from t" = .ok
    str!"SELECT ARRAY_AGG(a ORDER BY o) agg\nFROM t" := by
  decide +kernel

/-- `test_distinct_array_agg_order_by`, line 1776 -/
example : @formatSql asciiEnv
    str!"SELECT ARRAY_AGG(distinct a ignore nulls order by o ASC, b desc limit 4) agg from t" = .ok
    str!"SELECT ARRAY_AGG(DISTINCT a IGNORE NULLS ORDER BY o ASC, b DESC LIMIT 4) agg\nFROM t" := by
  decide +kernel

/-- `test_where_boolean_followed_by_group`, line 1785 -/
example : @formatSql asciiEnv
    str!"\nSELECT *\nFROM t\nWHERE col1 = col0 and col2 = col0 and col3 = col0\nGROUP BY field, col0\n" = .ok
    str!"SELECT *\nFROM t\nWHERE col1 = col0 AND col2 = col0 AND col3 = col0\nGROUP BY\n field,\n col0" := by
  decide +kernel

/-- `test_date_column_in_function_call`, line 1803 -/
example : @formatSql asciiEnv
    str!"select if(date >= date('2018-04-10'), col, null) from t" = .ok
    str!"SELECT IF(date >= DATE('2018-04-10'), col, NULL)\nFROM t" := by
  decide +kernel

/-- `test_floating_point_number`, line 1812 -/
example : @formatSql asciiEnv
    str!"select f * 0.0009 from t" = .ok
    str!"SELECT f * 0.0009\nFROM t" := by
  decide +kernel

/-- `test_negative_floating_point_number`, line 1821 -/
example : @formatSql asciiEnv
    str!"select f-0.0009, -8.9 from t" = .ok
    str!"SELECT\n f - 0.0009,\n -8.9\nFROM t" := by
  decide +kernel

/-- `test_where_not_in_subquery`, line 1832 -/
example : @formatSql asciiEnv
    str!"select field\nFROM t WHERE id NOT IN (SELECT id\nFROM other_table\nWHERE col <> 0)" = .ok
    str!"SELECT field\nFROM t\nWHERE\n id NOT IN (\n  SELECT id\n  FROM other_table\n  WHERE col <> 0\n )" := by
  decide +kernel

/-- `test_contains_predicate`, line 1850 -/
example : @formatSql asciiEnv
    str!"select field from t where x contains 'foo';" = .ok
    str!"SELECT field\nFROM t\nWHERE x CONTAINS 'foo';" := by
  decide +kernel

/-- `test_bitwise_shifting`, line 1860 -/
example : @formatSql asciiEnv
    str!"select c1<<32 from t" = .ok
    str!"SELECT c1 << 32\nFROM t" := by
  decide +kernel

/-- `test_quoted_table_name`, line 1869 -/
example : @formatSql asciiEnv
    str!"SELECT col FROM \"schema\".\"table\"" = .ok
    str!"SELECT col\nFROM \"schema\".\"table\"" := by
  decide +kernel

/-- `test_long_quoted_table_name`, line 1878 -/
example : @formatSql asciiEnv
    str!"SELECT col FROM \"project\".\"dataset\".\"table\"" = .ok
    str!"SELECT col\nFROM \"project\".\"dataset\".\"table\"" := by
  decide +kernel

/-- `test_extract_date`, line 1887 -/
example : @formatSql asciiEnv
    str!"select extract(date from some_date)" = .ok
    str!"SELECT EXTRACT(DATE FROM some_date)" := by
  decide +kernel

/-- `test_count_distinct`, line 1895 -/
example : @formatSql asciiEnv
    str!"SELECT count(distinct id) agg from t" = .ok
    str!"SELECT COUNT(DISTINCT id) agg\nFROM t" := by
  decide +kernel

/-- `test_count_distinct_with_function`, line 1904 -/
example : @formatSql asciiEnv
    str!"SELECT count(distinct IF(code = 200, url, NULL)) agg from t" = .ok
    str!"SELECT COUNT(DISTINCT IF(code = 200, url, NULL)) agg\nFROM t" := by
  decide +kernel

/-- `test_count_equal_countif`, line 1913 -/
example : @formatSql asciiEnv
    str!"select count(1) = countif(date >= date('1994-04-11')) num_recent from t" = .ok
    str!"SELECT COUNT(1) = COUNTIF(date >= DATE('1994-04-11')) num_recent\nFROM t" := by
  decide +kernel

/-- `test_invalid_join_missing_using_or_on`, line 1922 -/
example : @formatSql asciiEnv
    str!"SELECT field FROM table JOIN other_table" = .ok
    str!"SELECT field\nFROM table\nJOIN other_table" := by
  decide +kernel

/-- `test_string_alias`, line 1932 -/
example : @formatSql asciiEnv
    str!"select x `alias`, y \"alias\", z 'alias', 'col' AS 'alias' from t" = .ok
    str!"SELECT\n x `alias`,\n y \"alias\",\n z 'alias',\n 'col' AS 'alias'\nFROM t" := by
  decide +kernel

/-- `test_index_chained_column`, line 1945 -/
example : @formatSql asciiEnv
    str!"select field.`col`[SAFE_OFFSET(2)] from t where\n    field.`col`[SAFE_OFFSET(2)] IS NOT NULL;\n    " = .ok
    str!"SELECT field.`col`[SAFE_OFFSET(2)]\nFROM t\nWHERE field.`col`[SAFE_OFFSET(2)] IS NOT NULL;" := by
  decide +kernel

/-- `test_group_each_by`, line 1957 -/
example : @formatSql asciiEnv
    str!"select f, sum(s) from t group each by f;" = .ok
    str!"SELECT\n f,\n SUM(s)\nFROM t\nGROUP EACH BY f;" := by
  decide +kernel

/-- `test_plain_join_each`, line 1969 -/
example : @formatSql asciiEnv
    str!"\nSELECT field\nFROM table JOIN EACH (select * from other_table) USING (field)\n" = .ok
    str!"SELECT field\nFROM table\nJOIN EACH (\n SELECT *\n FROM other_table\n)\nUSING (field)" := by
  decide +kernel

/-- `test_escaped_char`, line 1986 -/
example : @formatSql asciiEnv
    str!"\nselect id from users WHERE name = 'O\\'Connor'\n" = .ok
    str!"SELECT id\nFROM users\nWHERE name = 'O\\'Connor'" := by
  decide +kernel

/-- `test_filter_where`, line 1998 -/
example : @formatSql asciiEnv
    str!"select count(1) filter (where active = true) from users" = .ok
    str!"SELECT COUNT(1) FILTER (WHERE active = TRUE)\nFROM users" := by
  decide +kernel

/-- `test_filter_where_alias`, line 2007 -/
example : @formatSql asciiEnv
    str!"select id, count(1) filter (where active = true) c from users group by id" = .ok
    str!"SELECT\n id,\n COUNT(1) FILTER (WHERE active = TRUE) c\nFROM users\nGROUP BY id" := by
  decide +kernel

/-- `test_filter_where_alias_as`, line 2019 -/
example : @formatSql asciiEnv
    str!"select id c0, count(1) filter (where active = true and ok) as c1,count(1) filter (WHERE 1 =1 or 2=1) as c2, name from users group by id, name"
      = .ok
    str!"SELECT\n \
      id c0,\n \
      COUNT(1) FILTER (WHERE active = TRUE AND ok) AS c1,\n \
      COUNT(1) FILTER (WHERE 1 = 1 OR 2 = 1) AS c2,\n \
      name\n\
      FROM users\n\
      GROUP BY\n \
      id,\n \
      name" := by
  decide +kernel

/-- `test_with_statement`, line 2038 -/
example : @formatSql asciiEnv
    str!"\n\
      with tmp_t as (select id, sum(n) from t group by id)\n\
      select id, count(*) from myt\n\
      join tmp_t using (id)\n\
      group by id" = .ok
    str!"WITH tmp_t AS (\n \
      SELECT\n  \
      id,\n  \
      SUM(n)\n \
      FROM t\n \
      GROUP BY id\n\
      )\n\
      SELECT\n \
      id,\n \
      COUNT(*)\n\
      FROM myt\n\
      JOIN tmp_t\n\
      USING (id)\n\
      GROUP BY id" := by
  decide +kernel

/-- `test_multiple_with_statements`, line 2063 -/
example : @formatSql asciiEnv
    str!"\n    \
      WITH regional_sales AS (\n        \
      SELECT region, SUM(amount) AS total_sales\n        \
      FROM orders GROUP BY region\n     \
      ), top_regions AS (\n        \
      SELECT region FROM regional_sales\n        \
      WHERE total_sales > (SELECT SUM(total_sales)/10 FROM regional_sales)\n     \
      )\n\
      SELECT region, product,\n       \
      SUM(quantity) AS product_units,\n       \
      SUM(amount) AS product_sales\n\
      FROM orders WHERE region IN (SELECT region FROM top_regions)\n\
      GROUP BY region, product;" = .ok
    str!"WITH regional_sales AS (\n \
      SELECT\n  \
      region,\n  \
      SUM(amount) AS total_sales\n \
      FROM orders\n \
      GROUP BY region\n\
      ),\n\
      top_regions AS (\n \
      SELECT region\n \
      FROM regional_sales\n \
      WHERE\n  \
      total_sales > (\n   \
      SELECT SUM(total_sales) / 10\n   \
      FROM regional_sales\n  \
      )\n\
      )\n\
      SELECT\n \
      region,\n \
      product,\n \
      SUM(quantity) AS product_units,\n \
      SUM(amount) AS product_sales\n\
      FROM orders\n\
      WHERE\n \
      region IN (\n  \
      SELECT region\n  \
      FROM top_regions\n \
      )\n\
      GROUP BY\n \
      region,\n \
      product;" := by
  decide +kernel

/-- `test_nested_with_statement`, line 2112 -/
example : @formatSql asciiEnv
    str!"\nselect * from\n( with t as ( select 1 foo ) select * from t )\n" = .ok
    str!"SELECT *\nFROM (\n WITH t AS (\n  SELECT 1 foo\n )\n SELECT *\n FROM t\n)" := by
  decide +kernel

/-- `test_function_with_index_access`, line 2130 -/
example : @formatSql asciiEnv
    str!"select split(col, ':')[safe_offset(0)] from t" = .ok
    str!"SELECT SPLIT(col, ':')[SAFE_OFFSET(0)]\nFROM t" := by
  decide +kernel

/-- `test_multiple_index_accesses`, line 2139 -/
example : @formatSql asciiEnv
    str!"select array_concat_agg(col)[0][0] from t" = .ok
    str!"SELECT ARRAY_CONCAT_AGG(col)[0][0]\nFROM t" := by
  decide +kernel

/-- `test_string_containing_quote`, line 2148 -/
example : @formatSql asciiEnv
    str!"select col = \"Test'\" from t" = .ok
    str!"SELECT col = \"Test'\"\nFROM t" := by
  decide +kernel

/-- `test_select_star_replace`, line 2157 -/
example : @formatSql asciiEnv
    str!"select * replace (\"x\" as col) from t" = .ok
    str!"SELECT * REPLACE (\"x\" AS col)\nFROM t" := by
  decide +kernel

/-- `test_select_star_multiple_replace`, line 2166 -/
example : @formatSql asciiEnv
    str!"select * replace (\"x\" as col, \"y\" as f) from t" = .ok
    str!"SELECT * REPLACE (\n \"x\" AS col,\n \"y\" AS f\n)\nFROM t" := by
  decide +kernel

/-- `test_select_star_replace_nospace`, line 2178 -/
example : @formatSql asciiEnv
    str!"select * replace(\"x\" as col) from t" = .ok
    str!"SELECT * REPLACE (\"x\" AS col)\nFROM t" := by
  decide +kernel

/-- `test_nesting_case_expr`, line 2187 -/
example : @formatSql asciiEnv
    str!"SELECT CASE\n    \
      WHEN CASE\n    \
      WHEN code = 1 THEN 'VALID'\n    \
      WHEN code = 2 THEN 'INVALID' END\n   \
      = 'VALID' THEN 'OK' ELSE 'KO' END\n\
      FROM table\n" = .ok
    str!"SELECT CASE\n \
      WHEN\n  \
      CASE\n   \
      WHEN code = 1 THEN 'VALID'\n   \
      WHEN code = 2 THEN 'INVALID'\n  \
      END = 'VALID'\n \
      THEN 'OK'\n \
      ELSE 'KO'\n\
      END\n\
      FROM table" := by
  decide +kernel

end SqlV.Fidelity
