import Verif.Lemmas.CoreParse

/-! The parser on the core grammar. -/

set_option linter.unusedSectionVars false

namespace SqlV

open Core

/-- A statement used as an example below:
`SELECT DISTINCT a, COUNT(t.b) + 1 AS n FROM t LEFT JOIN (SELECT c FROM u WHERE NOT x) v ON a = 'it' AND b IN (1, 2)
WHERE CASE WHEN a THEN 1 ELSE 2 END BETWEEN 1 AND 3 GROUP BY a, b HAVING f(a) > 0 ORDER BY a DESC, b LIMIT 10 OFFSET 5;` -/
def demo : Node :=
  .select [.column str!"a",
      .alias (.arith str!"+" (.count [.chained (.column str!"t") (.column str!"b")] false) (.int 1)) (.column str!"n") true]
    false true []
    (.join str!"LEFT JOIN" (.table (.column str!"t") false)
      (.alias (.paren [.select [.column str!"c"] false false [] (.table (.column str!"u") false)
        (.where_ (.neg (.column str!"x"))) .none .none .none .none .none false]) (.raw str!"v") false)
      (.on (.boolc str!"and" (.cond (.column str!"a") str!"=" (.string str!"it" str!"'" none))
        (.cond (.column str!"b") str!"in" (.paren [.int 1, .int 2])))) .none)
    (.where_ (.cond (.case .none [.whenThen (.column str!"a") (.int 1)] (.int 2)) str!"between"
      (.boolc str!"and" (.int 1) (.int 3))))
    (.groupBy [.column str!"a", .column str!"b"] false false)
    (.having (.cond (.func str!"f" [.column str!"a"]) str!">" (.int 0)))
    (.orderBy [.orderItem (.column str!"a") false true, .orderItem (.column str!"b") false false])
    (.limit false (.int 10)) (.offset (.int 5)) true

/-- A spelling of `demo`. -/
def demoSql : Str :=
  str!"select DISTINCT a, count(t.b)+1 as n FROM t Left join (select c from u where not x) v on a='it' and b IN (01, 2) " ++
  str!"where case when a then 1 else 2 end between 1 and 3 group by a,b having F(a)>0 order by a desc, b limit 10 offset 5;"

/-- Another statement:
`SELECT * EXCEPT (a, b) REPLACE (a + 1 AS a), ARRAY_AGG(DISTINCT x IGNORE NULLS ORDER BY y DESC LIMIT 3) FILTER (WHERE z) p,
SUM(x) OVER (PARTITION BY a, b ORDER BY c ROWS BETWEEN 1 PRECEDING AND CURRENT ROW), [1, 2], a[F(0)].b | 1,
EXTRACT(YEAR FROM d) FROM [t]` -/
def demo2 : Node :=
  .select [.replace (.except_ (.column str!"*") [.column str!"a", .column str!"b"])
        [.alias (.arith str!"+" (.column str!"a") (.int 1)) (.column str!"a") true],
      .alias (.filtered (.arrayAgg (.column str!"x") true true false
        (.orderBy [.orderItem (.column str!"y") false true]) (some 3)) (.column str!"z")) (.raw str!"p") false,
      .analytics (.func str!"sum" [.column str!"x"]) [.column str!"a", .column str!"b"]
        (.orderBy [.orderItem (.column str!"c") false false]) (.frame str!"rows" str!"between 1 preceding and current row"),
      .array [.int 1, .int 2],
      .bitwise (.chained (.index (.column str!"a") [.func str!"f" [.int 0]]) (.column str!"b")) str!"|" (.int 1),
      .func str!"extract" [.datePart str!"year" (.column str!"d")]]
    false false [] (.table (.column str!"t") true) .none .none .none .none .none .none false

/-- A spelling of `demo2`. -/
def demo2Sql : Str :=
  str!"select * except(a, b) Replace (a+1 as a), array_agg(distinct x ignore nulls order by y desc limit 3) filter(where z) p, " ++
  str!"Sum(x) over (partition by a, b order by c rows Between 1 preceding and current row), [1,2], a[f(0)].b | 1, " ++
  str!"extract(Year from d) from [t]"

/-- Another one: `SELECT 1.5 * a, F(x)[0][1], (a + 1)[0], [1, 2.25][a], R'x[' FROM t WHERE F(x)[0] > 0.5` -/
def demo3 : Node :=
  .select [.arith str!"*" (.float str!"1.5") (.column str!"a"),
      .index (.index (.func str!"f" [.column str!"x"]) [.int 0]) [.int 1],
      .index (.paren [.arith str!"+" (.column str!"a") (.int 1)]) [.int 0],
      .index (.array [.int 1, .float str!"2.25"]) [.column str!"a"],
      .string str!"x[" str!"'" (some str!"R")]
    false false [] (.table (.column str!"t") false)
    (.where_ (.cond (.index (.func str!"f" [.column str!"x"]) [.int 0]) str!">" (.float str!"0.5")))
    .none .none .none .none .none false

/-- A spelling of `demo3`. -/
def demo3Sql : Str :=
  str!"Select 1.5*a, f( x )[0] [1], (a+1)[0], [1, 2.25][a], R'x[' from t where f(x)[0] > 0.5"

/-- Another one: `SELECT x FROM (SELECT a FROM s) UNION ALL SELECT DISTINCT b FROM t, UNNEST(b) AS u WITH OFFSET AS i
EXCEPT v WHERE x IN UNNEST([1, 2])` -/
def demo4 : Node :=
  .select [.column str!"x"] false false []
    (.combined str!"EXCEPT"
      (.combined str!"UNION ALL"
        (.paren [.select [.column str!"a"] false false [] (.table (.column str!"s") false)
          .none .none .none .none .none .none false])
        (.select [.column str!"b"] false true []
          (.join str!"," (.table (.column str!"t") false)
            (.unnest (.alias (.func str!"unnest" [.column str!"b"]) (.raw str!"u") true) true true (some str!"i")) .none .none)
          .none .none .none .none .none .none false))
      (.table (.column str!"v") false))
    (.where_ (.cond (.column str!"x") str!"in" (.func str!"unnest" [.array [.int 1, .int 2]])))
    .none .none .none .none .none false

/-- A spelling of `demo4`. -/
def demo4Sql : Str :=
  str!"select x from (select a from s) union all Select distinct b from t, unnest(b) as u with offset as i " ++
  str!"except v where x in Unnest([1, 2])"

section

variable [E : PyEnv] [L : LawfulPyEnv E]

/-! ### C10 -/

/-- C10: for every statement `n` of the core grammar and every way to write it, the parser returns `n`, up to the
letter case of the words that are kept as they are written. -/
theorem C10_parser_inverts_grammar (n : Node) (hc : core n = true) (ts : List Str) (hr : Reads (toks n) ts) :
    ∃ n', parse ⟨ts, none⟩ = .ok n' ∧ fold n' = n := by
  obtain ⟨n', hn', h⟩ := parse_core hc hr
  have := h [] none (fun _ => ⟨rfl, rfl⟩)
  rw [List.append_nil] at this
  exact ⟨n', this, hn'⟩

/-- C10 for texts. -/
theorem C10_parser_inverts_grammar_text (n : Node) (hc : core n = true) (sql : Str) (ts : List Str)
    (ht : toTokens sql = ⟨ts, none⟩) (hr : Reads (toks n) ts) : ∃ n', parseSql sql = .ok n' ∧ fold n' = n := by
  obtain ⟨n', h, hn⟩ := C10_parser_inverts_grammar n hc ts hr
  exact ⟨n', by rw [parseSql, ht, h], hn⟩

/-- C10: no token sequence spells two statements of the core grammar. -/
theorem C10_unambiguous (n m : Node) (hn : core n = true) (hm : core m = true) (ts : List Str)
    (h : Reads (toks n) ts) (h' : Reads (toks m) ts) : n = m := by
  obtain ⟨n', h1, h2⟩ := C10_parser_inverts_grammar n hn ts h
  obtain ⟨m', h3, h4⟩ := C10_parser_inverts_grammar m hm ts h'
  rw [h1] at h3
  cases h3
  rw [← h2, h4]

end

/-- Non-vacuity of C10. -/
example : @core asciiEnv demo = true ∧ (@toTokens asciiEnv demoSql).fail = none ∧
    Reads (toks demo) (@toTokens asciiEnv demoSql).toks := by
  decide +kernel

example : @core asciiEnv demo2 = true ∧ (@toTokens asciiEnv demo2Sql).fail = none ∧
    Reads (toks demo2) (@toTokens asciiEnv demo2Sql).toks := by
  decide +kernel

example : @core asciiEnv demo3 = true ∧ (@toTokens asciiEnv demo3Sql).fail = none ∧
    Reads (toks demo3) (@toTokens asciiEnv demo3Sql).toks := by
  decide +kernel

example : @core asciiEnv demo4 = true ∧ (@toTokens asciiEnv demo4Sql).fail = none ∧
    Reads (toks demo4) (@toTokens asciiEnv demo4Sql).toks := by
  decide +kernel

/-- Joins: `b join c, d` is the right side of the join with ON, and `f` that of the last one. -/
def demo5 : Node :=
  .select [.column str!"*"] false false []
    (.join str!"LEFT JOIN"
      (.join str!"JOIN" (.table (.column str!"a") false)
        (.join str!"JOIN" (.table (.column str!"b") false)
          (.join str!"," (.table (.column str!"c") false) (.table (.column str!"d") false) .none .none) .none .none)
        (.on (.cond (.column str!"x") str!"=" (.column str!"y"))) .none)
      (.table (.column str!"f") false) .none .none)
    .none .none .none .none .none .none false

def demo5Sql : Str := str!"select * from a join b join c, d on x = y left join f"

example : @core asciiEnv demo5 = true ∧ (@toTokens asciiEnv demo5Sql).fail = none ∧
    Reads (toks demo5) (@toTokens asciiEnv demo5Sql).toks := by
  decide +kernel

/-- Calls of functions whose names are keywords:
`SELECT a[OFFSET(0)], f(LEFT(b, 2)), REPLACE(c, 'x', 'y') FROM t WHERE TIMESTAMP_TRUNC(d, day) > e` -/
def demo11 : Node :=
  .select [.index (.column str!"a") [.func str!"offset" [.int 0]],
      .func str!"f" [.func str!"left" [.column str!"b", .int 2]],
      .func str!"replace" [.column str!"c", .string str!"x" str!"'" none, .string str!"y" str!"'" none]]
    false false [] (.table (.column str!"t") false)
    (.where_ (.cond (.func str!"timestamp_trunc" [.column str!"d", .column str!"day"]) str!">" (.column str!"e"))) .none .none .none .none .none false

def demo11Sql : Str := str!"select a[offset(0)], f(Left(b, 2)), replace(c, 'x', 'y') from t where timestamp_trunc(d, day) > e"

example : @core asciiEnv demo11 = true ∧ (@toTokens asciiEnv demo11Sql).fail = none ∧
    Reads (toks demo11) (@toTokens asciiEnv demo11Sql).toks := by
  decide +kernel

/-- WITH in the parentheses of a FROM clause. -/
def demo6 : Node :=
  .select [.column str!"b"] false false []
    (.alias (.paren [.withStmt
      [.withQuery str!"p" (.select [.column str!"b"] false false [] (.table (.column str!"s") false) .none .none .none .none .none .none false)]
      (.select [.column str!"b"] false false [] (.table (.column str!"p") false) .none .none .none .none .none .none false)])
      (.raw str!"t") false)
    .none .none .none .none .none .none false

def demo6Sql : Str := str!"select b from (with p as (select b from s) select b from p) t"

/-- WITH in a query of WITH: it is parsed, but printing it raises (`C76_cases`). -/
def demo7 : Node :=
  .withStmt [.withQuery str!"q" (.withStmt
      [.withQuery str!"p" (.select [.column str!"b"] false false [] (.table (.column str!"s") false) .none .none .none .none .none .none false)]
      (.select [.column str!"b"] false false [] (.table (.column str!"p") false) .none .none .none .none .none .none false))]
    demo6

def demo7Sql : Str :=
  str!"with q as (with p as (select b from s) select b from p) select b from (with p as (select b from s) select b from p) t"

example : @core asciiEnv demo6 = true ∧ (@toTokens asciiEnv demo6Sql).fail = none ∧
    Reads (toks demo6) (@toTokens asciiEnv demo6Sql).toks ∧
    @core asciiEnv demo7 = true ∧ (@toTokens asciiEnv demo7Sql).fail = none ∧
    Reads (toks demo7) (@toTokens asciiEnv demo7Sql).toks := by
  decide +kernel

/-- Literals as aliases. -/
def demo8 : Node :=
  .select [.alias (.column str!"c") (.string str!"the c" str!"'" none) true] false false []
    (.paren [.select [.alias (.column str!"b") (.column str!"c") true] false false []
      (.table (.alias (.column str!"s") (.string str!"u" str!"\"" none) true) false) .none .none .none .none .none .none false])
    .none .none .none .none .none .none false

def demo8Sql : Str := str!"select c as 'the c' from (select b as c from s as \"u\")"

example : @core asciiEnv demo8 = true ∧ (@toTokens asciiEnv demo8Sql).fail = none ∧
    Reads (toks demo8) (@toTokens asciiEnv demo8Sql).toks := by
  decide +kernel

/-- Literals with backslashes and an escaped quote. -/
def demo9 : Node :=
  .select [.column str!"a", .string str!"it\\'s" str!"'" none] false false [] (.table (.column str!"t") false)
    (.where_ (.boolc str!"and"
      (.func str!"regexp_contains" [.column str!"b", .string str!"\\d+\\.\\d" str!"'" (some str!"r")])
      (.cond (.column str!"b") str!"<>" (.string str!"a\\\\b\\t" str!"\"" none))))
    .none .none .none .none .none false

def demo9Sql : Str := str!"select a, 'it\\'s' from t where regexp_contains(b, r'\\d+\\.\\d') and b <> \"a\\\\b\\t\""

example : @core asciiEnv demo9 = true ∧ (@toTokens asciiEnv demo9Sql).fail = none ∧
    Reads (toks demo9) (@toTokens asciiEnv demo9Sql).toks := by
  decide +kernel

/-- Literals of one kind with other quotes inside. -/
def demo10 : Node :=
  .select [.column str!"a", .string str!"say \"hi\"" str!"'" none] false false [] (.table (.column str!"t") false)
    (.where_ (.cond (.column str!"b") str!"<>" (.string str!"5\" by `x" str!"'" none)))
    .none .none .none .none .none false

def demo10Sql : Str := str!"select a, 'say \"hi\"' from t where b <> '5\" by `x'"

example : @core asciiEnv demo10 = true ∧ (@toTokens asciiEnv demo10Sql).fail = none ∧
    Reads (toks demo10) (@toTokens asciiEnv demo10Sql).toks := by
  decide +kernel

section

variable [E : PyEnv] [L : LawfulPyEnv E]

/-! ### C16 -/

/-- What a parsing error does to a text. -/
theorem rejected {sql : Str} {s : Stream} {msg : Str} (ht : toTokens sql = s) (h : parse s = .err (.parsing msg)) :
    formatSql sql = .error (.parsing msg) ∧ (SQLQuery.new sql).isValid.1 = .ok false ∧
      (SQLQuery.new sql).isValid.2.errors = [msg] := by
  have hp : parseSql sql = .error (.parsing msg) := by rw [parseSql, ht, h]
  refine ⟨by rw [formatSql, hp]; rfl, ?_, ?_⟩
  · rw [(isValid_new sql).1, verdict.eq_def, hp]
  · rw [(isValid_new sql).2, verdict.eq_def, hp]

/-- C16: a query of the core grammar up to its WHERE clause, then GROUP, then anything but BY and EACH BY. -/
theorem C16_group_without_by (sql : Str) (es on : List Node) (all d : Bool) (f w : Node)
    (hc : core (.select es all d on f w .none .none .none .none .none false) = true) (ts : List Str)
    (hr : Reads (toks (.select es all d on f w .none .none .none .none .none false)) ts)
    (g : Str) (hg : lower g = str!"group") (R : List Str) (e : Option PyErr) (hR : NoGroupBy R e)
    (ht : toTokens sql = ⟨ts ++ g :: R, e⟩) :
    formatSql sql = .error (.parsing str!"Missing BY after GROUP") ∧ (SQLQuery.new sql).isValid.1 = .ok false ∧
      (SQLQuery.new sql).isValid.2.errors = [str!"Missing BY after GROUP"] := by
  simp only [core, Bool.and_eq_true] at hc
  replace hc := hc.1
  obtain ⟨t, ts, rfl, hs⟩ := select_reads rfl hr
  refine rejected ht (stmt_fails hs (select_group_fails hc.1 hr (R := g :: R) (.inr ⟨g, R, rfl, by rw [hg]; decide⟩) ?_))
  exact fun r => group_missing hg hR r

/-- C16: a query of the core grammar up to its HAVING clause, then ORDER, then anything but BY. -/
theorem C16_order_without_by (sql : Str) (es on : List Node) (all d : Bool) (f w g h : Node)
    (hc : core (.select es all d on f w g h .none .none .none false) = true) (ts : List Str)
    (hr : Reads (toks (.select es all d on f w g h .none .none .none false)) ts)
    (o : Str) (ho : lower o = str!"order") (R : List Str) (e : Option PyErr) (hR : NoBy R e)
    (ht : toTokens sql = ⟨ts ++ o :: R, e⟩) :
    formatSql sql = .error (.parsing str!"Missing BY after ORDER") ∧ (SQLQuery.new sql).isValid.1 = .ok false ∧
      (SQLQuery.new sql).isValid.2.errors = [str!"Missing BY after ORDER"] := by
  simp only [core, Bool.and_eq_true] at hc
  replace hc := hc.1
  obtain ⟨t, ts, rfl, hs⟩ := select_reads rfl hr
  refine rejected ht (stmt_fails hs (select_order_fails hc.1 hr (R := o :: R) (.inr ⟨o, R, rfl, by rw [ho]; decide⟩) ?_))
  exact fun r => order_missing ho hR r

end

/-- Non-vacuity of C16. -/
example : @core asciiEnv (.select [.column str!"*"] false false [] (.table (.column str!"t") false) .none .none .none
      .none .none .none false) = true ∧
    Reads (toks (.select [.column str!"*"] false false [] (.table (.column str!"t") false) .none .none .none
      .none .none .none false)) [str!"SELECT", str!"*", str!"FROM", str!"t"] ∧
    @toTokens asciiEnv str!"SELECT * FROM t GROUP a" =
      ⟨[str!"SELECT", str!"*", str!"FROM", str!"t"] ++ str!"GROUP" :: [str!"a"], none⟩ ∧
    @toTokens asciiEnv str!"SELECT * FROM t ORDER a" =
      ⟨[str!"SELECT", str!"*", str!"FROM", str!"t"] ++ str!"ORDER" :: [str!"a"], none⟩ ∧
    @lower asciiEnv str!"a" ≠ str!"by" ∧ @lower asciiEnv str!"a" ≠ str!"each" := by
  decide +kernel

end SqlV
