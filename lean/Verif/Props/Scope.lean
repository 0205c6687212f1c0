import Verif.Lemmas.Scope
import Verif.Lemmas.Order
import Verif.Props.Tables

/-!
# Verdicts (C66)
-/

set_option linter.unusedSectionVars false

namespace SqlV

open Core

section

variable [E : PyEnv] [L : LawfulPyEnv E]

/-- C66: a statement is accepted by `is_valid` exactly if nothing is wrong with it (`fits`): it is a query; each column in it
is known to the query around it, or may come from a table; operands of AND and OR and WHERE and HAVING conditions are
boolean or of unknown type; positions in GROUP BY and ORDER BY are in the select list; LIMIT and OFFSET have an integer
that is not negative; there is no CAST and no position in the ORDER BY of a window; and the same holds for the queries in
expressions and in FROM clauses that validation looks at. -/
theorem C66_accepted (n : Node) (hc : core n = true) (ht : tidy n = true) (hu : unmixed [] n = true) (sql : Str) (ts : List Str)
    (hs : toTokens sql = ⟨ts, none⟩) (hr : Core.Reads (toks n) ts) : (SQLQuery.new sql).isValid.1 = .ok true ↔ fits [] none n = true := by
  obtain ⟨n', hp, rfl⟩ := C10_parser_inverts_grammar_text n hc sql ts hs hr
  have key : validate n' = .ok [] ↔ fits [] none (fold n') = true := by
    by_cases hsel : n'.isSelect = true
    · exact validate_exact (core_wf hc) hsel ht hu
    · simp only [core, Bool.and_eq_true] at hc
      replace hc := hc.1
      have := hc.2
      cases n' <;> first | exact absurd rfl hsel | exact absurd this Bool.false_ne_true | skip
      refine iff_of_false ?_ (by simp [fold, fits])
      intro h
      cases h
  rw [← key, (isValid_new sql).1, verdict.eq_def, hp]
  simp only
  rcases validate n' with e | errs
  · cases e <;> simp
  · cases errs <;> simp

/-- C66: if moreover the statement is calm, the answer is whether it fits. -/
theorem C66_answer (n : Node) (hc : core n = true) (ht : tidy n = true) (hu : unmixed [] n = true) (hcalm : calm true n = true) (sql : Str)
    (ts : List Str) (hs : toTokens sql = ⟨ts, none⟩) (hr : Core.Reads (toks n) ts) : (SQLQuery.new sql).isValid.1 = .ok (fits [] none n) := by
  obtain ⟨b, hb⟩ := C34_core_never_raises_partial n hc (tidy_firm n ht) hcalm sql ts hs hr
  have := C66_accepted n hc ht hu sql ts hs hr
  rw [hb] at this ⊢
  cases b <;> cases hn : fits [] none n <;> simp_all

/-- All queries of the file are calm statements in which columns of the same name have the same type. -/
def ScopedFile (env : FileEnv) (c : Path → Str) (f : Path) : Prop :=
  ∀ t ∈ (env.tokenize (c (env.abspath f))).toks, Query t →
    ∃ n, core n = true ∧ tidy n = true ∧ calm true n = true ∧ unmixed [] n = true ∧ Holds t.value n

/-- C66: on readable files of such queries, `--validate` ends with status 1 exactly if something is wrong with one of them
and its next comment does not say `nosqlvalidation`. -/
theorem C66_validate_files (env : FileEnv) (srcs : List Path) (w : World) (b : Bool)
    (hr : ∀ f ∈ reached env srcs, Readable env w.content f) (hc : ∀ f ∈ reached env srcs, ScopedFile env w.content f) :
    (handleInputs env ⟨false, false, true, b⟩ srcs w).1 = 1 ↔
      ∃ f ∈ reached env srcs, ∃ s n, Follows (env.tokenize (w.content (env.abspath f))).toks s n ∧ Query s ∧
        (∀ x y, n.value ≠ x ++ str!"nosqlvalidation" ++ y) ∧
        ∃ m, (core m = true ∧ tidy m = true ∧ unmixed [] m = true) ∧ Holds s.value m ∧ fits [] none m = false :=
  validate_files (fun n hn sql ts => C66_accepted n hn.1 hn.2.1 hn.2.2 sql ts) env srcs w b hr
    fun f hf t ht hq =>
      let ⟨n, a1, a2, a3, a4, a5⟩ := hc f hf t ht hq
      ⟨n, a1, tidy_firm n a2, a3, ⟨a1, a2, a4⟩, a5⟩

end

/-- A query without clauses. -/
def plainQuery (es : List Node) (f : Node) (w : Node := .none) : Node :=
  .select es false false [] f w .none .none .none .none .none false

/-- A query over a join of two sub-queries: everything is in order. -/
def resolved : Node :=
  plainQuery [.column str!"x", .chained (.column str!"u") (.column str!"b")]
    (.join str!"JOIN"
      (.alias (.paren [plainQuery [.column str!"a", .alias (.cond (.column str!"a") str!"=" (.int 1)) (.column str!"x") true] (.table (.column str!"s") false)]) (.raw str!"t") false)
      (.alias (.paren [plainQuery [.column str!"*"] (.paren [plainQuery [.column str!"a", .column str!"b"] (.table (.column str!"s") false)])]) (.raw str!"u") false)
      (.on (.cond (.chained (.column str!"t") (.column str!"a")) str!"=" (.chained (.column str!"u") (.column str!"a")))) .none)
    (.where_ (.boolc str!"and" (.chained (.column str!"t") (.column str!"x")) (.cond (.column str!"b") str!">" (.int 0))))

/-- A column that both sub-queries offer. -/
def unresolved : Node :=
  plainQuery [.column str!"a"]
    (.join str!"JOIN"
      (.alias (.paren [plainQuery [.column str!"a"] (.table (.column str!"s") false)]) (.raw str!"t") false)
      (.alias (.paren [plainQuery [.column str!"a"] (.table (.column str!"s") false)]) (.raw str!"u") false)
      .none (.using_ (.paren [.column str!"a"])))

/-- Non-vacuity of C66. -/
example : @core asciiEnv resolved = true ∧ tidy resolved = true ∧ unmixed [] resolved = true ∧ calm true resolved = true ∧ fits [] none resolved = true ∧
    Core.Reads (toks resolved) (@toTokens asciiEnv str!"select x, u.b from (select a, a = 1 as x from s) t join (select * from (select a, b from s)) u on t.a = u.a where t.x and b > 0").toks ∧
    @core asciiEnv unresolved = true ∧ tidy unresolved = true ∧ unmixed [] unresolved = true ∧ calm true unresolved = true ∧
    fits [] none unresolved = false ∧
    Core.Reads (toks unresolved) (@toTokens asciiEnv str!"select a from (select a from s) t join (select a from s) u using (a)").toks := by
  decide +kernel

/-- Non-vacuity of C66: validation does not look into a query with WITH in parentheses, so that its columns are not found
(`b` of `demo6`). -/
example : tidy demo6 = true ∧ unmixed [] demo6 = true ∧ calm true demo6 = true ∧ fits [] none demo6 = false ∧
    fits [] none (plainQuery [.int 1] (.paren [demo7])) = true ∧ fits [] none demo7 = false := by
  decide +kernel

/-- Non-vacuity of C66: literals as aliases. -/
example : tidy demo8 = true ∧ unmixed [] demo8 = true ∧ calm true demo8 = true ∧ fits [] none demo8 = true := by
  decide +kernel

/-- C66: `namedFrom` cannot be left out of `unmixed` and `calm`: a literal as an alias in a query in FROM makes validation
raise. -/
theorem C66_not_named : ∃ n, @core asciiEnv n = true ∧ tidy n = true ∧ namedFrom n = false ∧
    Core.Reads (toks n) (@toTokens asciiEnv str!"SELECT a FROM (SELECT b AS 'a' FROM t)").toks ∧
    (@SQLQuery.isValid asciiEnv (SQLQuery.new str!"SELECT a FROM (SELECT b AS 'a' FROM t)")).1 = .error .type :=
  ⟨plainQuery [.column str!"a"] (.paren [plainQuery [.alias (.column str!"b") (.string str!"a" str!"'" none) true]
    (.table (.column str!"t") false)]), by decide +kernel⟩

instance : LawfulPyEnv (asciiEnv.withOrder List.reverse) where
  lower_ascii := LawfulPyEnv.lower_ascii (E := asciiEnv)
  upper_ascii := LawfulPyEnv.upper_ascii (E := asciiEnv)
  isDigit_ascii := LawfulPyEnv.isDigit_ascii (E := asciiEnv)
  toInt_digits := LawfulPyEnv.toInt_digits (E := asciiEnv)
  setOrder_perm := List.reverse_perm

/-- C66: `unmixed` cannot be left out: with columns of the same name and different types, the verdict depends on the order in
which Python iterates over a set. -/
theorem C66_not_mixed : ∃ n, @core asciiEnv n = true ∧ tidy n = true ∧ calm true n = true ∧
    Core.Reads (toks n) (@toTokens asciiEnv str!"SELECT a FROM (SELECT 1 a, b a FROM t) WHERE a").toks ∧
    (@SQLQuery.isValid asciiEnv (SQLQuery.new str!"SELECT a FROM (SELECT 1 a, b a FROM t) WHERE a")).1 = .ok false ∧
    (@SQLQuery.isValid (asciiEnv.withOrder List.reverse) (SQLQuery.new str!"SELECT a FROM (SELECT 1 a, b a FROM t) WHERE a")).1 = .ok true :=
  ⟨plainQuery [.column str!"a"] (.paren [plainQuery [.alias (.int 1) (.raw str!"a") false, .alias (.column str!"b") (.raw str!"a") false]
    (.table (.column str!"t") false)]) (.where_ (.column str!"a")), by decide +kernel⟩

end SqlV
