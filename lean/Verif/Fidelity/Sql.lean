import Verif.Transform

/-!
# The project's own tests: `tests/unit/test_sql.py`

`transform` of trees.  Each example is one test function, evaluated by the kernel on the model with `asciiEnv`.
-/

namespace SqlV.Fidelity

/-- `test_boolean_condition`, line 12 -/
example : @transform asciiEnv (.boolc str!"and" (.cond (.column str!"col") str!"=" (.int 1))
    (.cond (.column str!"col2") str!"=" (.int 4))) = .ok str!"col = 1 AND col2 = 4" := by
  decide +kernel

/-- `test_cast_function_call`, line 22 -/
example : @transform asciiEnv (.cast (.column str!"date") (.type str!"date")) = .ok str!"CAST(date AS DATE)" := by
  decide +kernel

end SqlV.Fidelity
