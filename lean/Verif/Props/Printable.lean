import Verif.Query
import Verif.Lemmas.PrintErrors

/-!
# Of which statements the formatter makes a text, and what it raises for the others (C76)
-/

namespace SqlV

set_option linter.unusedSectionVars false

open Printable (prints straight)

section

variable [E : PyEnv] [L : LawfulPyEnv E]

/-- C76: the printer makes a text only of trees that `prints`. -/
theorem C76_text_only_if (n : Node) (x : Str) (h : transform n = .ok x) : prints false .plain n = true :=
  ((Printable.fits n).ask .plain).1 ⟨x, h⟩

/-- C76: it makes a text of all of them, unless empty parentheses are an operand of AND or OR. -/
theorem C76_text_if (n : Node) (h : prints true .plain n = true) : ∃ x, transform n = .ok x :=
  ((Printable.fits n).ask .plain).2 h

/-- C76: `format_sql` returns a text exactly if the parser returns a tree that `prints`. -/
theorem C76_format_exact (sql : Str) (h : ∀ n, parseSql sql = .ok n → prints true .plain n = prints false .plain n) :
    (∃ x, formatSql sql = .ok x) ↔ ∃ n, parseSql sql = .ok n ∧ prints true .plain n = true := by
  unfold formatSql
  cases hp : parseSql sql with
  | error e => exact ⟨fun ⟨_, h⟩ => (by cases h), fun ⟨_, h, _⟩ => (by cases h)⟩
  | ok n =>
    constructor
    · rintro ⟨x, hx⟩
      exact ⟨n, rfl, by rw [h n hp]; exact C76_text_only_if n x hx⟩
    · rintro ⟨m, hm, hr⟩
      cases hm
      exact C76_text_if n hr

/-- C76: what the printer raises is `AttributeError` or `IndexError`, unless WITH is used inside of WITH. -/
theorem C76_exceptions (n : Node) (e : PyErr) (hs : straight n = true) (h : transform n = .error e) :
    e = .attribute ∨ e = .index :=
  (Printable.errs (A := fun e => e = .attribute ∨ e = .index) (.inl rfl) (.inr rfl)
    (fun _ _ h => .inl (Printable.repr_error h)) n hs).t e h

end

/-- The text is read, and `prints` and `straight` say this about its tree. -/
def judged (sql : Str) (p s : Bool) : Bool :=
  match parseSql (E := asciiEnv) sql with
  | .ok n => decide (prints true .plain n = p) && decide (prints false .plain n = p) &&
      decide (straight n = s)
  | .error _ => false

/-- Both sides of the equivalence occur: statements that can be printed, and statements that are read but cannot be printed,
with what is raised. -/
theorem C76_cases :
    judged str!"SELECT a, (b AND c) + 1 FROM ((SELECT 1)) x GROUP BY a AND b" true true ∧
    judged str!"SELECT a FROM t ORDER BY a AND b" false true ∧
    (formatSql (E := asciiEnv) str!"SELECT a FROM t ORDER BY a AND b") = .error .attribute ∧
    judged str!"SELECT a FROM t GROUP BY a AND b, c" false true ∧
    (formatSql (E := asciiEnv) str!"SELECT a FROM t GROUP BY a AND b, c") = .error .attribute ∧
    judged str!"SELECT CASE WHEN a THEN b OR c END" false true ∧
    (formatSql (E := asciiEnv) str!"SELECT CASE WHEN a THEN b OR c END") = .error .attribute ∧
    judged str!"SELECT DISTINCT ON (a x) b" false true ∧
    (formatSql (E := asciiEnv) str!"SELECT DISTINCT ON (a x) b") = .error .attribute ∧
    judged str!"SELECT a FROM t LIMIT 1, 2" false true ∧
    (formatSql (E := asciiEnv) str!"SELECT a FROM t LIMIT 1, 2") = .error .attribute ∧
    judged str!"SELECT * EXCEPT () FROM t" false true ∧
    (formatSql (E := asciiEnv) str!"SELECT * EXCEPT () FROM t") = .error .index ∧
    judged str!"WITH a AS (WITH b AS (SELECT 1) SELECT 2) SELECT 3" false false ∧
    (formatSql (E := asciiEnv) str!"WITH a AS (WITH b AS (SELECT 1) SELECT 2) SELECT 3") = .error .type := by
  decide +kernel

end SqlV
