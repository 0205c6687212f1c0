import Verif.Files

/-!
# The project's own tests: `tests/integration/test_file_handler.py`

`compute_file_content` on the tokens that CPython's tokenizer makes of the text of the test: the new text and, where
the test looks at it, the number of changed queries.
Each example is one test function, evaluated by the kernel on the model with `asciiEnv`.  These are tests of the model,
not proofs about it: they show that the model agrees with the expectations its authors wrote down.
Left out: `test_format_check_does_not_validate` (mocks a function).
-/

namespace SqlV.Fidelity

/-- `test_format_file`, line 7 -/
example : (@computeContent asciiEnv 100 ⟨[
    ⟨.string, str!"'''select id from table_stmt;'''", (1, 0), (1, 32)⟩,
    ⟨.newline, str!"", (1, 32), (1, 33)⟩,
    ⟨.endmarker, str!"", (2, 0), (2, 0)⟩], none⟩ true false).map (fun r => (r.1, r.2.1)) = .ok (1,
    str!"'''\nSELECT id\nFROM table_stmt;\n'''") := by
  decide +kernel

/-- `test_format_file_multilines`, line 18 -/
example : (@computeContent asciiEnv 100 ⟨[
    ⟨.string, str!"'select id from table_stmt'", (1, 0), (1, 27)⟩,
    ⟨.newline, str!"", (1, 27), (1, 28)⟩,
    ⟨.endmarker, str!"", (2, 0), (2, 0)⟩], none⟩ true false).map (·.2.1) = .ok
    str!"'''\nSELECT id\nFROM table_stmt\n'''" := by
  decide +kernel

/-- `test_format_file_multiline_sql`, line 26 -/
example : (@computeContent asciiEnv 100 ⟨[
    ⟨.string, str!"'''\nselect\n   id  \n   from table_stmt\n;\n'''", (1, 0), (6, 3)⟩,
    ⟨.newline, str!"", (6, 3), (6, 4)⟩,
    ⟨.endmarker, str!"", (7, 0), (7, 0)⟩], none⟩ true false).map (fun r => (r.1, r.2.1)) = .ok (1,
    str!"'''\nSELECT id\nFROM table_stmt;\n'''") := by
  decide +kernel

/-- `test_format_file_multiline_sql_with_prefix`, line 37 -/
example : (@computeContent asciiEnv 100 ⟨[
    ⟨.string, str!"r'''\nselect\n   id  \n   from table_stmt\n;\n'''", (1, 0), (6, 3)⟩,
    ⟨.newline, str!"", (6, 3), (6, 4)⟩,
    ⟨.endmarker, str!"", (7, 0), (7, 0)⟩], none⟩ true false).map (fun r => (r.1, r.2.1)) = .ok (1,
    str!"r'''\nSELECT id\nFROM table_stmt;\n'''") := by
  decide +kernel

/-- `test_format_sql_string_with_strformat_call`, line 48 -/
example : (@computeContent asciiEnv 100 ⟨[
    ⟨.string, str!"'select id from {}'", (1, 0), (1, 19)⟩,
    ⟨.other 54, str!".", (1, 19), (1, 20)⟩,
    ⟨.other 1, str!"format", (1, 20), (1, 26)⟩,
    ⟨.other 54, str!"(", (1, 26), (1, 27)⟩,
    ⟨.other 1, str!"__file__", (1, 27), (1, 35)⟩,
    ⟨.other 54, str!")", (1, 35), (1, 36)⟩,
    ⟨.newline, str!"", (1, 36), (1, 37)⟩,
    ⟨.endmarker, str!"", (2, 0), (2, 0)⟩], none⟩ true false).map (fun r => (r.1, r.2.1)) = .ok (1,
    str!"'''\nSELECT id\nFROM {}\n'''.format(__file__)") := by
  decide +kernel

/-- `test_no_format_file`, line 59 -/
example : (@computeContent asciiEnv 100 ⟨[
    ⟨.string, str!"'select id from t'", (1, 0), (1, 18)⟩,
    ⟨.comment, str!"# nosqlformat", (1, 20), (1, 33)⟩,
    ⟨.newline, str!"", (1, 33), (1, 34)⟩,
    ⟨.endmarker, str!"", (2, 0), (2, 0)⟩], none⟩ true false).map (fun r => (r.1, r.2.1)) = .ok (0,
    str!"'select id from t'  # nosqlformat") := by
  decide +kernel

/-- `test_no_format_sql_string_with_strformat_call`, line 69 -/
example : (@computeContent asciiEnv 100 ⟨[
    ⟨.string, str!"'select id from {}'", (1, 0), (1, 19)⟩,
    ⟨.other 54, str!".", (1, 19), (1, 20)⟩,
    ⟨.other 1, str!"format", (1, 20), (1, 26)⟩,
    ⟨.other 54, str!"(", (1, 26), (1, 27)⟩,
    ⟨.other 1, str!"__file__", (1, 27), (1, 35)⟩,
    ⟨.other 54, str!")", (1, 35), (1, 36)⟩,
    ⟨.comment, str!"# nosqlformat", (1, 38), (1, 51)⟩,
    ⟨.newline, str!"", (1, 51), (1, 52)⟩,
    ⟨.endmarker, str!"", (2, 0), (2, 0)⟩], none⟩ true false).map (fun r => (r.1, r.2.1)) = .ok (0,
    str!"'select id from {}'.format(__file__)  # nosqlformat") := by
  decide +kernel

/-- `test_two_following_statements`, line 79 -/
example : (@computeContent asciiEnv 100 ⟨[
    ⟨.other 1, str!"sql", (1, 0), (1, 3)⟩,
    ⟨.other 54, str!"=", (1, 4), (1, 5)⟩,
    ⟨.other 54, str!"(", (1, 6), (1, 7)⟩,
    ⟨.string, str!"'select * from t;'", (1, 7), (1, 25)⟩,
    ⟨.other 54, str!",", (1, 25), (1, 26)⟩,
    ⟨.string, str!"'select count(*) from t;'", (1, 27), (1, 52)⟩,
    ⟨.other 54, str!")", (1, 52), (1, 53)⟩,
    ⟨.newline, str!"", (1, 53), (1, 54)⟩,
    ⟨.endmarker, str!"", (2, 0), (2, 0)⟩], none⟩ true false).map (fun r => (r.1, r.2.1)) = .ok (2,
    str!"sql = ('''\nSELECT *\nFROM t;\n''', '''\nSELECT COUNT(*)\nFROM t;\n''')") := by
  decide +kernel

/-- `test_two_following_statements_second_noformat`, line 92 -/
example : (@computeContent asciiEnv 100 ⟨[
    ⟨.other 1, str!"sql", (1, 0), (1, 3)⟩,
    ⟨.other 54, str!"=", (1, 4), (1, 5)⟩,
    ⟨.other 54, str!"(", (1, 6), (1, 7)⟩,
    ⟨.nl, str!"\n", (1, 7), (1, 8)⟩,
    ⟨.string, str!"'select * from t;'", (2, 0), (2, 18)⟩,
    ⟨.other 54, str!",", (2, 18), (2, 19)⟩,
    ⟨.string, str!"'select count(*) from t;'", (2, 20), (2, 45)⟩,
    ⟨.comment, str!"# nosqlformat", (2, 47), (2, 60)⟩,
    ⟨.nl, str!"\n", (2, 60), (2, 61)⟩,
    ⟨.other 54, str!")", (3, 0), (3, 1)⟩,
    ⟨.newline, str!"", (3, 1), (3, 2)⟩,
    ⟨.endmarker, str!"", (4, 0), (4, 0)⟩], none⟩ true false).map (fun r => (r.1, r.2.1)) = .ok (1,
    str!"sql = (\n'''\nSELECT *\nFROM t;\n''', 'select count(*) from t;'  # nosqlformat\n)") := by
  decide +kernel

/-- `test_two_following_statements_both_no_format`, line 105 -/
example : (@computeContent asciiEnv 100 ⟨[
    ⟨.other 1, str!"sql", (1, 0), (1, 3)⟩,
    ⟨.other 54, str!"=", (1, 4), (1, 5)⟩,
    ⟨.other 54, str!"(", (1, 6), (1, 7)⟩,
    ⟨.nl, str!"\n", (1, 7), (1, 8)⟩,
    ⟨.string, str!"'select * from t;'", (2, 0), (2, 18)⟩,
    ⟨.comment, str!"# nosqlformat", (2, 20), (2, 33)⟩,
    ⟨.nl, str!"\n", (2, 33), (2, 34)⟩,
    ⟨.other 54, str!",", (3, 0), (3, 1)⟩,
    ⟨.string, str!"'select count(*) from t;'", (3, 2), (3, 27)⟩,
    ⟨.comment, str!"# nosqlformat", (3, 29), (3, 42)⟩,
    ⟨.nl, str!"\n", (3, 42), (3, 43)⟩,
    ⟨.other 54, str!")", (4, 0), (4, 1)⟩,
    ⟨.newline, str!"", (4, 1), (4, 2)⟩,
    ⟨.endmarker, str!"", (5, 0), (5, 0)⟩], none⟩ true false).map (fun r => (r.1, r.2.1)) = .ok (0,
    str!"sql = (\n'select * from t;'  # nosqlformat\n, 'select count(*) from t;'  # nosqlformat\n)") := by
  decide +kernel

/-- `test_string_starting_with_selected`, line 115 -/
example : (@computeContent asciiEnv 100 ⟨[
    ⟨.string, str!"'selected string'", (1, 0), (1, 17)⟩,
    ⟨.newline, str!"", (1, 17), (1, 18)⟩,
    ⟨.endmarker, str!"", (2, 0), (2, 0)⟩], none⟩ true false).map (fun r => (r.1, r.2.1)) = .ok (0,
    str!"'selected string'") := by
  decide +kernel

end SqlV.Fidelity
