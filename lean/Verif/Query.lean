import Verif.Validate

/-!
# `sqlvalidator/sql_formatter.py` and `sqlvalidator/sql_validator.py`
-/

namespace SqlV

variable [E : PyEnv]

/-- `SQLStatementParser.parse(to_tokens(sql))`.  `Res.diverge` is unreachable
(`parseAt_term` in `Verif/Props/Parsing.lean`). -/
def parseSql (sql : Str) : Except PyErr Node :=
  match parse (toTokens sql) with
  | .ok n => .ok n
  | .err e => .error e
  | .diverge => .error .recursion

/-- `format_sql`, sql_formatter.py 5-6 -/
def formatSql (sql : Str) : Except PyErr Str := do
  let n ← parseSql sql
  transform n

/-- The attributes of a `SQLQuery`, sql_validator.py 8-12 -/
structure SQLQuery where
  sql : Str
  /-- `_sql_query` -/
  cached : Option Node := none
  validated : Bool := false
  errors : List Str := []

/-- `sqlvalidator.parse(sql)`, sql_validator.py 38-40 -/
def SQLQuery.new (sql : Str) : SQLQuery := { sql := sql }

/-- The property `sql_query`, sql_validator.py 14-18: the result and the new state. -/
def SQLQuery.query (q : SQLQuery) : Except PyErr Node × SQLQuery :=
  match q.cached with
  | some n => (.ok n, q)
  | none =>
    match parseSql q.sql with
    | .ok n => (.ok n, { q with cached := some n })
    | .error e => (.error e, q)

/-- `SQLQuery.format`, sql_validator.py 20-21 -/
def SQLQuery.format (q : SQLQuery) : Except PyErr Str × SQLQuery :=
  match q.query with
  | (.ok n, q) => (transform n, q)
  | (.error e, q) => (.error e, q)

/-- `SQLQuery._validate`, sql_validator.py 28-33: the exception it raises if any, and the new state.
`validated` is set first; only `ParsingError` is caught. -/
def SQLQuery.doValidate (q : SQLQuery) : Except PyErr Unit × SQLQuery :=
  let q := { q with validated := true }
  let (r, q) := match q.query with
    | (.ok n, q) => (validate n, q)
    | (.error e, q) => (.error e, q)
  match r with
  | .ok errs => (.ok (), { q with errors := errs })
  | .error (.parsing msg) => (.ok (), { q with errors := q.errors ++ [msg] })
  | .error e => (.error e, q)

/-- `SQLQuery.is_valid`, sql_validator.py 23-26 -/
def SQLQuery.isValid (q : SQLQuery) : Except PyErr Bool × SQLQuery :=
  if q.validated then (.ok q.errors.isEmpty, q)
  else
    match q.doValidate with
    | (.ok (), q) => (.ok q.errors.isEmpty, q)
    | (.error e, q) => (.error e, q)

end SqlV
