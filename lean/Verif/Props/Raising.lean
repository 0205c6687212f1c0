import Verif.Lemmas.CalmAll
import Verif.Props.RoundTrip

/-!
# Exceptions of `format_sql` (C64) and `is_valid` (C34), and text that disappears (C18)
-/

set_option linter.unusedSectionVars false

namespace SqlV

open Core

section

variable [E : PyEnv] [L : LawfulPyEnv E]

/-! ### C64 -/

/-- C64: `format_sql` returns a text for every statement of the core grammar, unless empty parentheses are an operand of
AND or OR or a bound of BETWEEN (`firm`).  Those are left out because the printer looks into them when it breaks the line,
see `C64_empty_operand`. -/
theorem C64_formatting_never_raises (n : Node) (hc : core n = true) (hf : firm n = true) (sql : Str) (ts : List Str)
    (hs : toTokens sql = ⟨ts, none⟩) (hr : Reads (toks n) ts) : ∃ out, formatSql sql = .ok out := by
  obtain ⟨n', hp, rfl⟩ := C10_parser_inverts_grammar_text n hc sql ts hs hr
  obtain ⟨out, ht⟩ : Works (transform n') := (prints n' (core_wf hc) hf).t
  exact ⟨out, by rw [formatSql, hp]; exact ht⟩

end

/-- A statement with empty parentheses and with parentheses of several expressions as an operand of OR: it is firm, but not
tidy. -/
def loose : Node :=
  .select [.func str!"f" [.paren []]] false false [] (.table (.column str!"t") false)
    (.where_ (.boolc str!"or" (.paren [.column str!"a", .column str!"b"]) (.cond (.column str!"c") str!"=" (.paren []))))
    .none .none .none .none .none false

/-- Non-vacuity of C64. -/
example : @core asciiEnv loose = true ∧ firm loose = true ∧ tidy loose = false ∧
    Reads (toks loose) (@toTokens asciiEnv str!"select F(()) from t where (a, b) OR c = ()").toks ∧
    (@toTokens asciiEnv str!"select F(()) from t where (a, b) OR c = ()").fail = none ∧
    @formatSql asciiEnv str!"select F(()) from t where (a, b) OR c = ()" = .ok str!"SELECT F(())\nFROM t\nWHERE (a, b) OR c = ()" := by
  decide +kernel

/-- A long statement whose condition has empty parentheses as an operand of AND. -/
def hollow : Node :=
  .select [.column str!"a"] false false [] (.table (.column str!"t") false)
    (.where_ (.boolc str!"and" (.paren [])
      (.column str!"aaaaaaaaaaaaaaaaaaaaaaaaaaaaaaaaaaaaaaaaaaaaaaaaaaaaaaaaaaaaaaaaaaaaaaaaaaaaaaaaaaaaa")))
    .none .none .none .none .none false

/-- C64: `firm` cannot be left out. -/
theorem C64_empty_operand : ∃ sql, @core asciiEnv hollow = true ∧ (@toTokens asciiEnv sql).fail = none ∧
    Reads (toks hollow) (@toTokens asciiEnv sql).toks ∧ @formatSql asciiEnv sql = .error .index :=
  ⟨str!"SELECT a FROM t WHERE () AND aaaaaaaaaaaaaaaaaaaaaaaaaaaaaaaaaaaaaaaaaaaaaaaaaaaaaaaaaaaaaaaaaaaaaaaaaaaaaaaaaaaaa",
    by decide +kernel⟩

section

variable [E : PyEnv] [L : LawfulPyEnv E]

/-! ### C34 -/

/-- C34: `is_valid` returns a boolean for every statement of the core grammar that is `calm` (`Verif/Spec/Calm.lean`).
What is missing from the full statement: texts outside the core grammar, and what `calm` and `firm` leave out; the
statement is false for many of them, see `C34_not_all`. -/
theorem C34_core_never_raises_partial (n : Node) (hc : core n = true) (hf : firm n = true) (hcalm : calm true n = true) (sql : Str)
    (ts : List Str) (hs : toTokens sql = ⟨ts, none⟩) (hr : Reads (toks n) ts) : ∃ b, (SQLQuery.new sql).isValid.1 = .ok b := by
  obtain ⟨n', hp, rfl⟩ := C10_parser_inverts_grammar_text n hc sql ts hs hr
  have hsel : n'.isSelect = true := by
    simp only [core, Bool.and_eq_true] at hc
    replace hc := hc.1
    have := hc.2
    cases n' <;> first | rfl | exact absurd this Bool.false_ne_true | exact absurd hcalm Bool.false_ne_true
  obtain ⟨errs, hv⟩ := validate_calm (core_wf hc) hsel hf hcalm
  refine ⟨errs.isEmpty, ?_⟩
  rw [(isValid_new sql).1, verdict.eq_def, hp]
  simp only [hv]

end

/-- Non-vacuity of C34. -/
example : @core asciiEnv demo = true ∧ firm demo = true ∧ calm true demo = true ∧ (@toTokens asciiEnv demoSql).fail = none ∧
    Reads (toks demo) (@toTokens asciiEnv demoSql).toks ∧ (@SQLQuery.isValid asciiEnv (SQLQuery.new demoSql)).1 = .ok true := by
  decide +kernel

example : calm true demo2 = true ∧ (@SQLQuery.isValid asciiEnv (SQLQuery.new demo2Sql)).1 = .ok true := by
  decide +kernel

/-- A set operation: nothing is raised, but its columns are not known to the validation and the query is rejected. -/
example : calm true demo4 = true ∧ (@SQLQuery.isValid asciiEnv (SQLQuery.new demo4Sql)).1 = .ok false ∧
    (@SQLQuery.isValid asciiEnv (SQLQuery.new demo4Sql)).2.errors =
      [str!"The column x was not found", str!"The column x was not found"] := by
  decide +kernel

/-- What `is_valid` raises on a text. -/
def raises (sql : Str) (e : PyErr) : Bool := decide ((@SQLQuery.isValid asciiEnv (SQLQuery.new sql)).1 = .error e)

/-- C34 is false: texts for which `is_valid` raises. -/
theorem C34_not_all :
    raises str!"SELECT CAST(a AS INT64) FROM t" .attribute ∧
    raises str!"SELECT a FROM t LIMIT ALL" .attribute ∧
    raises str!"SELECT a FROM t LIMIT (SELECT 1)" .attribute ∧
    raises str!"WITH x AS (SELECT 1) SELECT * FROM x" .type ∧
    raises str!"SELECT SUM(a) OVER (ORDER BY 1) FROM t" .type ∧
    raises str!"SELECT a FROM t WHERE (SELECT b FROM u)" .attribute ∧
    raises str!"SELECT x FROM (SELECT 1 x) a, (SELECT 2 x) b GROUP BY x" .attribute ∧
    raises str!"SELECT a FROM t ORDER BY ()" .index ∧
    raises str!" " .stopIteration ∧
    raises str!"SELECT a FROM t WHERE" .stopIteration ∧
    raises str!"SELECT CASE WHEN" .assertion ∧
    raises str!"SELECT a\\,b" .recursion := by
  decide +kernel

section

variable [E : PyEnv] [L : LawfulPyEnv E]

/-! ### C18 -/

theorem sameToks_at : ∀ {ts us : List Str}, sameToks ts us → ts.length = us.length ∧
    ∀ (i : Nat) (t : Str), ts[i]? = some t → ∃ u, us[i]? = some u ∧ sameTok t u
  | [], [], _ => ⟨rfl, by simp⟩
  | t :: ts, u :: us, h => by
    obtain ⟨h1, h2⟩ := sameToks_at h.2
    refine ⟨by simp [h1], fun i t' ht => ?_⟩
    cases i with
    | zero =>
      obtain rfl : t = t' := by simpa using ht
      exact ⟨u, rfl, h.1⟩
    | succ i => simpa using h2 i t' (by simpa using ht)
  | [], _ :: _, h => h.elim
  | _ :: _, [], h => h.elim

/-- C18: formatting a statement of the core grammar returns a text with as many tokens, and in the place of each token
is that token, up to capitals and leading zeros.  What is missing from the full statement: texts outside the core
grammar and statements that are not `tidy`; it is false for many of them, see `C18_not_all`. -/
theorem C18_nothing_dropped_partial (n : Node) (hc : core n = true) (ht : tidy n = true) (sql : Str) (ts : List Str)
    (hs : toTokens sql = ⟨ts, none⟩) (hr : Reads (toks n) ts) :
    ∃ out us, formatSql sql = .ok out ∧ toTokens out = ⟨us, none⟩ ∧ ts.length = us.length ∧
      ∀ (i : Nat) (t : Str), ts[i]? = some t → ∃ u, us[i]? = some u ∧ sameTok t u := by
  obtain ⟨out, h1, h2, h3⟩ := C12_tokens_preserved n hc ht sql ts hs hr
  exact ⟨out, _, h1, h2, sameToks_at h3⟩

end

/-- Formatting `sql` gives `out`, where the token `t` of `sql` is nowhere to be found, in capitals or not. -/
def drops (sql t out : Str) : Prop :=
  @formatSql asciiEnv sql = .ok out ∧ t ∈ (@toTokens asciiEnv sql).toks ∧ ¬ t.map Char.toLower <:+: out.map Char.toLower

instance (sql t out : Str) : Decidable (drops sql t out) := inferInstanceAs (Decidable (_ ∧ _ ∧ _))

/-- C18 is false: texts and the tokens that formatting drops from them. -/
theorem C18_not_all :
    drops str!"SELECT a b c0 FROM t" str!"c0" str!"SELECT a b\nFROM t" ∧
    drops str!"SELECT a FROM t; DROP TABLE u0" str!"u0" str!"SELECT a\nFROM t;" ∧
    drops str!"SELECT a || b || c0" str!"c0" str!"SELECT a || b ||" ∧
    drops str!"SELECT a FROM t WHERE a = b = c0" str!"c0" str!"SELECT a\nFROM t\nWHERE a = b" ∧
    drops str!"SELECT 'it''s0'" str!"s0" str!"SELECT 'it'" ∧
    drops str!"SELECT r'abc' AS y FROM t" str!"y" str!"SELECT r'abc'\nFROM t" ∧
    drops str!"SELECT a FROM t WHERE x y GROUP BY a" str!"GROUP" str!"SELECT a\nFROM t\nWHERE x" ∧
    drops str!"SELECT 1 NOT BETWEEN 3 AND 4" str!"4" str!"SELECT 1 NOT BETWEEN 3" ∧
    drops str!"SELECT ARRAY_AGG(x RESPECT NULLS) FROM t" str!"NULLS" str!"SELECT ARRAY_AGG(x RESPECT)\nFROM t" ∧
    drops str!"SELECT ARRAY_AGG(x LIMIT 0) FROM t" str!"LIMIT" str!"SELECT ARRAY_AGG(x)\nFROM t" ∧
    drops str!"SELECT EXISTS (SELECT a, b FROM t0)" str!"t0" str!"SELECT EXISTS(SELECT a, b FROM)" ∧
    drops str!"SELECT f(x)[0] + 1 FROM t" str!"1" str!"SELECT F(x)[0] +\nFROM t" ∧
    drops str!"SELECT 1 UNION SELECT 2" str!"2" str!"SELECT 1 UNION" ∧
    drops str!"SELECT a FROM t WHERE x NOT LIKE 'a' AND b" str!"b" str!"SELECT a\nFROM t\nWHERE x NOT LIKE" := by
  decide +kernel

end SqlV
