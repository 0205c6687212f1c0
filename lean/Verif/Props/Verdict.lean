import Verif.Lemmas.Query
import Verif.Lemmas.VerdictErrors

/-!
# What validation makes of every statement (C77)
-/

namespace SqlV

set_option linter.unusedSectionVars false

open Verdict (passes)

section

variable [E : PyEnv] [L : LawfulPyEnv E]

/-- C77: validation raises nothing only for trees that pass where `strict` is false. -/
theorem C77_fine_only_if (n : Node) (errs : List Str) (h : validate n = .ok errs) : passes false false n = true :=
  (Verdict.rel_validate n).1 ⟨errs, h, fun h => by cases h⟩

/-- C77: it raises nothing for all of them, if columns of the same name do not differ in this. -/
theorem C77_fine_if (n : Node) (h : passes false true n = true) : ∃ errs, validate n = .ok errs :=
  Verdict.good_false.1 ((Verdict.rel_validate n).2 h)

/-- C77: there is neither a message nor an exception only for trees that pass where `strict` is true. -/
theorem C77_accepted_only_if (n : Node) (h : validate n = .ok []) : passes true false n = true :=
  (Verdict.rel_validate n).1 (Verdict.good_true.2 h)

/-- C77: there is none for all of them, if columns of the same name do not differ in this. -/
theorem C77_accepted_if (n : Node) (h : passes true true n = true) : validate n = .ok [] :=
  Verdict.good_true.1 ((Verdict.rel_validate n).2 h)

/-- C77: what validation raises is `AttributeError`, `IndexError` or `TypeError`. -/
theorem C77_exceptions (n : Node) (e : PyErr) (h : validate n = .error e) :
    e = .attribute ∨ e = .index ∨ e = .type :=
  Verdict.only_validate (A := fun e => e = .attribute ∨ e = .index ∨ e = .type)
    ⟨.inl rfl, .inr (.inl rfl), .inr (.inr rfl), fun _ _ h => .inl (Printable.repr_error h)⟩ n e h

/-- C77: the answer of `is_valid` for every text that is read. -/
theorem C77_answer (sql : Str) (n : Node) (hp : parseSql sql = .ok n)
    (hs : ∀ strict, passes strict true n = passes strict false n) :
    ((SQLQuery.new sql).isValid.1 = .ok true ↔ passes true true n = true) ∧
    ((SQLQuery.new sql).isValid.1 = .ok false ↔ passes true true n = false ∧ passes false true n = true) ∧
    ((∃ e, (SQLQuery.new sql).isValid.1 = .error e) ↔ passes false true n = false) := by
  rw [(isValid_new sql).1, verdict.eq_def, hp]
  have h1 : validate n = .ok [] ↔ passes true true n = true :=
    ⟨fun h => by rw [hs]; exact C77_accepted_only_if n h, C77_accepted_if n⟩
  have h2 : (∃ errs, validate n = .ok errs) ↔ passes false true n = true :=
    ⟨fun ⟨_, h⟩ => by rw [hs]; exact C77_fine_only_if n _ h, C77_fine_if n⟩
  rw [← h1, ← Bool.not_eq_true, ← h1, ← Bool.not_eq_true, ← h2]
  cases hv : validate n with
  | ok errs =>
    cases errs with
    | nil => simp [hv]
    | cons m ms => simp [hv]
  | error e =>
    have := C77_exceptions n e hv
    cases e with
    | parsing msg =>
      rcases this with h | h | h <;> cases h
    | _ => simp [hv]

end

/-- The text is read, `passes` says this about its tree, whatever the order of the columns, and so does `is_valid`. -/
def ruled (sql : Str) (strict loose : Bool) (answer : Except PyErr Bool) : Bool :=
  match parseSql (E := asciiEnv) sql with
  | .ok n => decide (passes (E := asciiEnv) true true n = strict) && decide (passes (E := asciiEnv) true false n = strict) &&
      decide (passes (E := asciiEnv) false true n = loose) && decide (passes (E := asciiEnv) false false n = loose) &&
      decide ((@SQLQuery.isValid asciiEnv (SQLQuery.new sql)).1 = answer)
  | .error _ => false

/-- All three answers occur, and all three exceptions. -/
theorem C77_cases :
    ruled str!"SELECT a, x.b FROM (SELECT 1 a, c b FROM t) x JOIN u ON x.a = u.a WHERE a = 1 GROUP BY 1 ORDER BY 2 LIMIT 3" true true (.ok true) ∧
    ruled str!"SELECT c FROM (SELECT 1 a)" false true (.ok false) ∧
    ruled str!"SELECT a FROM t JOIN u" false true (.ok false) ∧
    ruled str!"SELECT a FROM t WHERE 1" false true (.ok false) ∧
    ruled str!"SELECT a FROM t LIMIT -1" false true (.ok false) ∧
    ruled str!"SELECT a FROM t ORDER BY 7" false true (.ok false) ∧
    ruled str!"SELECT y.c FROM (SELECT 1 a) x" false true (.ok false) ∧
    ruled str!"SELECT CAST(a AS int) FROM t" false false (.error .attribute) ∧
    ruled str!"SELECT a FROM t WHERE (SELECT 1)" false false (.error .attribute) ∧
    ruled str!"SELECT a FROM (SELECT 1 a) x JOIN (SELECT 1 a) y ON x.a = y.a GROUP BY a" false false (.error .attribute) ∧
    ruled str!"SELECT a FROM t LIMIT ALL" false false (.error .attribute) ∧
    ruled str!"SELECT a FROM t ORDER BY 1, ()" false false (.error .index) ∧
    ruled str!"SELECT a FROM t GROUP BY ()" false false (.error .index) ∧
    ruled str!"SELECT RANK() OVER (ORDER BY 1) FROM t" false false (.error .type) ∧
    ruled str!"SELECT a FROM (SELECT b 'x' FROM t)" false false (.error .type) ∧
    ruled str!"WITH a AS (SELECT 1) SELECT 2" false false (.error .type) := by
  decide +kernel

/-- Columns of the same name and different types: Python may take either, so nothing exact can be said. -/
theorem C77_mixed :
    (match parseSql (E := asciiEnv) str!"SELECT a FROM (SELECT 1 a, b a FROM t) WHERE a" with
      | .ok n => decide (passes (E := asciiEnv) true true n = false) && decide (passes (E := asciiEnv) true false n = true)
      | .error _ => false) = true := by
  decide +kernel

end SqlV
