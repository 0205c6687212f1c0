import Verif.Lemmas.Query
import Verif.Lemmas.BuiltWith
import Verif.Props.Parsing
import Verif.Props.Printable
import Verif.Props.Said
import Verif.Props.Verdict

/-!
# Which trees the parser builds, and which exceptions there are for any text (C78)
-/

namespace SqlV

set_option linter.unusedSectionVars false

open Built (built raised occurrences)

section

variable [E : PyEnv] [L : LawfulPyEnv E]

/-- C78: every tree that the parser returns is a statement of the grammar `built`. -/
theorem C78_tree (sql : Str) (n : Node) (h : parseSql sql = .ok n) : built .stmt n = true :=
  Built.parse_built (parse_of_parseSql h)

/-- C78: the parser raises `ParsingError` with one of six messages, `StopIteration`, `AssertionError`, `ValueError` or
`IndexError`; a `RecursionError` is the tokeniser's. -/
theorem C78_exceptions (sql : Str) (e : PyErr) (h : parseSql sql = .error e) :
    raised e = true ∨ e = .recursion ∧ (toTokens sql).fail = some .recursion := by
  unfold parseSql at h
  cases hp : parse (toTokens sql) with
  | ok m => rw [hp] at h; cases h
  | err x =>
    rw [hp] at h
    cases h
    refine (Built.parse_raised hp).imp id fun hf => ?_
    rcases C02_only_recursion sql recursionLimit with h0 | h0
    · exact absurd (hf.symm.trans h0) (by simp)
    · have := hf.symm.trans h0
      cases this
      exact ⟨rfl, h0⟩
  | diverge => exact absurd hp (parseAt_term (by unfold parseFuel; omega))

/-- C78: whatever the text, `format_sql` raises one of these, an `AttributeError`, or a `TypeError` if the word WITH is in the
text twice. -/
theorem C78_format (sql : Str) (e : PyErr) (h : formatSql sql = .error e) :
    raised e = true ∨ (e = .recursion ∧ (toTokens sql).fail = some .recursion) ∨ e = .attribute ∨
      (e = .type ∧ 2 ≤ occurrences str!"with" (toTokens sql).toks) := by
  unfold formatSql at h
  cases hp : parseSql sql with
  | error x =>
    rw [hp] at h
    cases h
    exact (C78_exceptions sql _ hp).imp id .inl
  | ok n =>
    rw [hp] at h
    have ht : transform n = .error e := h
    by_cases hw : occurrences str!"with" (toTokens sql).toks < 2
    · rcases C76_exceptions n e (Built.straight_of_few (parse_of_parseSql hp) hw) ht with rfl | rfl
      · exact .inr (.inr (.inl rfl))
      · exact .inl rfl
    · have := (Printable.errs_all (A := fun e => e = .attribute ∨ e = .index ∨ e = .type)
        (.inl rfl) (.inr (.inl rfl)) (.inr (.inr rfl)) (fun _ _ h => .inl (Printable.repr_error h)) n).t e ht
      rcases this with rfl | rfl | rfl
      · exact .inr (.inr (.inl rfl))
      · exact .inl rfl
      · exact .inr (.inr (.inr ⟨rfl, by omega⟩))

/-- C78: whatever the text, `is_valid` raises one of these, but no `ParsingError`; or an `AttributeError` or a `TypeError`. -/
theorem C78_is_valid (sql : Str) (e : PyErr) (h : (SQLQuery.new sql).isValid.1 = .error e) :
    e = .stopIteration ∨ e = .assertion ∨ e = .value ∨ e = .index ∨ (e = .recursion ∧ (toTokens sql).fail = some .recursion) ∨
      e = .attribute ∨ e = .type := by
  rw [(isValid_new sql).1, verdict.eq_def] at h
  cases hp : parseSql sql with
  | error x =>
    rw [hp] at h
    have key := C78_exceptions sql x hp
    cases x <;> cases h <;> simp_all [raised]
  | ok n =>
    rw [hp] at h
    simp only at h
    cases hv : validate n with
    | ok errs => rw [hv] at h; cases h
    | error x =>
      rw [hv] at h
      have key := C77_exceptions n x hv
      cases x <;> cases h <;> simp_all

/-- C78: if the parser raises a `ParsingError`, then `is_valid` returns False, and its message, one of six, is the only one. -/
theorem C78_messages (sql : Str) (m : Str) (h : parseSql sql = .error (.parsing m)) :
    (SQLQuery.new sql).isValid.1 = .ok false ∧ (SQLQuery.new sql).isValid.2.errors = [m] ∧
      m ∈ [[], str!"Missing BY after GROUP", str!"Missing BY after ORDER", str!"Missing BY after PARTITION", str!"expected '('",
        str!"expected AND"] := by
  refine ⟨by rw [(isValid_new sql).1, h]; rfl, by rw [(isValid_new sql).2, h]; rfl, ?_⟩
  have := (C78_exceptions sql _ h).resolve_right (by simp)
  simpa only [raised, decide_eq_true_eq] using this

end

/-- A text with all kinds of nodes is read. -/
example : (parseSql (E := asciiEnv)
    str!"WITH q AS (SELECT DISTINCT ON (a) * EXCEPT (b) FROM t) SELECT CASE WHEN a IS NOT NULL AND b[1] BETWEEN -1 AND 2.5 THEN 'x' ELSE f(y, NOT z) END AS c, COUNT(DISTINCT d) OVER (PARTITION BY e ORDER BY g DESC ROWS 1), CAST(a.b AS int) + 1 h, array_agg(a ORDER BY b) FROM ((SELECT 1) UNION ALL SELECT 2) x LEFT JOIN [u] ON x.a | 1, UNNEST(k) y WITH OFFSET o WHERE a IN (1, 2) GROUP BY 1 HAVING d LIMIT ALL OFFSET 2;").toOption.map
    (fun n => (built (E := asciiEnv) .stmt n, built (E := asciiEnv) (.ex 4) n, Built.withs n)) = some (true, false, 1) := by
  decide +kernel

/-- What is raised when the text is read. -/
def failure? (sql : Str) : Option PyErr :=
  match parseSql (E := asciiEnv) sql with
  | .ok _ => none
  | .error e => some e

/-- Trees that the parser does not build. -/
theorem C78_not_built :
    built (E := asciiEnv) (.ex 4) (.arith str!"%" (.int 1) (.int 2)) = false ∧
    built (E := asciiEnv) (.ex 4) (.arith str!"+" (.arith str!"+" (.int 1) (.int 2)) (.int 3)) = false ∧
    built (E := asciiEnv) (.ex 4) (.arith str!"+" (.int 1) (.arith str!"+" (.int 2) (.int 3))) = true ∧
    built (E := asciiEnv) (.ex 4) (.boolc str!"and" (.boolc str!"or" .null .null) .null) = false ∧
    built (E := asciiEnv) (.ex 4) (.cond (.cond .null str!"=" .null) str!"=" .null) = false ∧
    built (E := asciiEnv) (.ex 4) (.neg (.cond .null str!"=" .null)) = false ∧
    built (E := asciiEnv) (.ex 4) (.cond (.neg .null) str!"=" .null) = true ∧
    built (E := asciiEnv) .from_ (.alias (.alias (.table .null false) (.raw str!"a") false) (.raw str!"b") false) = false := by
  decide +kernel

/-- Each exception is raised for some text. -/
theorem C78_cases :
    failure? str!"SELECT 1" = none ∧
    failure? str!"a" = some (.parsing []) ∧
    failure? str!"SELECT a FROM t GROUP a" = some (.parsing str!"Missing BY after GROUP") ∧
    failure? str!"SELECT a FROM t ORDER a" = some (.parsing str!"Missing BY after ORDER") ∧
    failure? str!"SELECT f(x) OVER (PARTITION a)" = some (.parsing str!"Missing BY after PARTITION") ∧
    failure? str!"SELECT f(x) OVER a" = some (.parsing str!"expected '('") ∧
    failure? str!"SELECT a BETWEEN 1" = some (.parsing str!"expected AND") ∧
    failure? str!"SELECT" = some .stopIteration ∧
    failure? str!"WITH a (SELECT 1) SELECT 2" = some .assertion ∧
    failure? str!"SELECT array_agg(a LIMIT b)" = some .value ∧
    failure? str!"SELECT a FROM t UNION" = some .index ∧
    failure? str!"SELECT a\\,b" = some .recursion ∧
    formatSql (E := asciiEnv) str!"SELECT a FROM t ORDER BY a AND b" = .error .attribute ∧
    formatSql (E := asciiEnv) str!"WITH a AS (WITH b AS (SELECT 1) SELECT 2) SELECT 3" = .error .type := by
  decide +kernel

end SqlV
