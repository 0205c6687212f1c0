import Verif.Lemmas.Sound
import Verif.Props.Literals

/-!
# Queries over tables (C65)
-/

set_option linter.unusedSectionVars false

namespace SqlV

open Core

section

variable [E : PyEnv] [L : LawfulPyEnv E]

/-- C65: a query over tables is accepted by `is_valid` exactly if nothing is wrong with it (`sound`): every operand of AND
and OR, and every WHERE and HAVING condition, is boolean or of unknown type, positions in GROUP BY and ORDER BY are in
the select list, LIMIT and OFFSET have an integer that is not negative, and there is no CAST and no position in the ORDER
BY of a window. -/
theorem C65_accepted_over_tables (n : Node) (hc : core n = true) (hf : firm n = true) (ho : overTables n = true) (sql : Str)
    (ts : List Str) (hs : toTokens sql = ⟨ts, none⟩) (hr : Core.Reads (toks n) ts) :
    (SQLQuery.new sql).isValid.1 = .ok true ↔ sound none n = true := by
  obtain ⟨n', hp, rfl⟩ := C10_parser_inverts_grammar_text n hc sql ts hs hr
  rw [← validate_tables (core_wf hc) hf ho, (isValid_new sql).1, verdict.eq_def, hp]
  simp only
  rcases validate n' with e | errs
  · cases e <;> simp
  · cases errs <;> simp

/-- C65: if moreover the statement is calm, the answer is whether it is sound. -/
theorem C65_answer_over_tables (n : Node) (hc : core n = true) (hf : firm n = true) (ho : overTables n = true)
    (hcalm : calm true n = true) (sql : Str) (ts : List Str) (hs : toTokens sql = ⟨ts, none⟩) (hr : Core.Reads (toks n) ts) :
    (SQLQuery.new sql).isValid.1 = .ok (sound none n) := by
  obtain ⟨b, hb⟩ := C34_core_never_raises_partial n hc hf hcalm sql ts hs hr
  have := C65_accepted_over_tables n hc hf ho sql ts hs hr
  rw [hb] at this ⊢
  cases b <;> cases hn : sound none n <;> simp_all

/-- Runs over files of queries whose verdict is known. -/
theorem validate_files {D : Node → Prop} {ok : Node → Bool} (hacc : ∀ n, D n → ∀ sql ts, toTokens sql = ⟨ts, none⟩ → Core.Reads (toks n) ts →
      ((SQLQuery.new sql).isValid.1 = .ok true ↔ ok n = true)) (env : FileEnv) (srcs : List Path) (w : World) (b : Bool)
    (hr : ∀ f ∈ reached env srcs, Readable env w.content f) (hc : ∀ f ∈ reached env srcs,
      ∀ t ∈ (env.tokenize (w.content (env.abspath f))).toks, Query t →
        ∃ n, core n = true ∧ firm n = true ∧ calm true n = true ∧ D n ∧ Holds t.value n) :
    (handleInputs env ⟨false, false, true, b⟩ srcs w).1 = 1 ↔
      ∃ f ∈ reached env srcs, ∃ s n, Follows (env.tokenize (w.content (env.abspath f))).toks s n ∧ Query s ∧
        (∀ x y, n.value ≠ x ++ str!"nosqlvalidation" ++ y) ∧ ∃ m, D m ∧ Holds s.value m ∧ ok m = false := by
  rw [C63_validate_files env srcs w b hr fun f hf t ht hq =>
    let ⟨n, a1, a2, a3, _, a5⟩ := hc f hf t ht hq
    ⟨n, a1, a2, a3, a5⟩]
  refine exists_congr fun f => and_congr_right fun hf => exists_congr fun s => exists_congr fun n => and_congr_right fun hfo =>
    and_congr_right fun hq => and_congr_right fun _ => ?_
  have hs : s ∈ (env.tokenize (w.content (env.abspath f))).toks := by
    obtain ⟨pre, mid, post, e1, -⟩ := hfo
    rw [e1]
    simp
  constructor
  · intro hrej
    obtain ⟨m, a1, a2, a3, a4, a5⟩ := hc f hf s hs hq
    refine ⟨m, a4, a5, ?_⟩
    obtain ⟨e, hae⟩ := analysed_core a1 a2 a5 true true fun _ => a3
    obtain ⟨new, q, g1, -⟩ := analysed_ok hae
    have hfal := (rejected_iff a5 g1).1 hrej
    obtain ⟨p, c, k, body, ts, hp, hcq, hk, hb, hv, ht, hrd⟩ := a5
    have hbody : (SQLQuery.new body).isValid.1 = .ok false := by
      obtain ⟨c1, c2⟩ := C41_prefix_and_quotes p hp c hcq k hk body hb
      rw [hv] at g1
      cases hfm : formatSql body with
      | error e' => rw [c2 e' hfm] at g1; cases g1
      | ok fm =>
        obtain ⟨q', d1, d2, -⟩ := c1 fm hfm
        rw [d1] at g1
        cases g1
        rw [← d2]
        exact hfal
    have := hacc m a4 body ts ht hrd
    rw [hbody] at this
    cases hsn : ok m with
    | false => rfl
    | true => exact absurd (this.2 hsn) (by simp)
  · rintro ⟨m, a4, ⟨p, c, k, body, ts, hp, hcq, hk, hb, hv, ht, hrd⟩, hsn⟩
    refine ⟨p, c, k, body, hp, hcq, hk, hb, hv, ?_⟩
    obtain ⟨m', b1, b2, b3, b4, hh⟩ := hc f hf s hs hq
    have key : ∃ r, (SQLQuery.new body).isValid.1 = .ok r := by
      obtain ⟨e, hae⟩ := analysed_core b1 b2 hh true true fun _ => b3
      obtain ⟨new, q, g1, -⟩ := analysed_ok hae
      obtain ⟨p', c', k', body', ts', hp', hcq', hk', hb', hv', ht', hrd'⟩ := hh
      obtain ⟨r, hr⟩ := C34_core_never_raises_partial m' b1 b2 b3 body' ts' ht' hrd'
      obtain ⟨c1, c2⟩ := C41_prefix_and_quotes p hp c hcq k hk body hb
      obtain ⟨c1', c2'⟩ := C41_prefix_and_quotes p' hp' c' hcq' k' hk' body' hb'
      have g1' := g1
      rw [hv] at g1
      rw [hv'] at g1'
      cases hfm : formatSql body with
      | error e' => rw [c2 e' hfm] at g1; cases g1
      | ok fm =>
        cases hfm' : formatSql body' with
        | error e' => rw [c2' e' hfm'] at g1'; cases g1'
        | ok fm' =>
          obtain ⟨q1, d1, d2, -⟩ := c1 fm hfm
          obtain ⟨q2, d3, d4, -⟩ := c1' fm' hfm'
          rw [d1] at g1
          rw [d3] at g1'
          have e1 : q1 = q := congrArg Prod.snd (Except.ok.inj g1)
          have e2 : q2 = q := congrArg Prod.snd (Except.ok.inj g1')
          exact ⟨r, by rw [← d2, e1, ← e2, d4, hr]⟩
    obtain ⟨r, hr⟩ := key
    have := hacc m a4 body ts ht hrd
    rw [hr, hsn] at this
    cases r with
    | false => exact hr
    | true => simp at this

/-- All queries of the file are calm statements over tables. -/
def TableFile (env : FileEnv) (c : Path → Str) (f : Path) : Prop :=
  ∀ t ∈ (env.tokenize (c (env.abspath f))).toks, Query t →
    ∃ n, core n = true ∧ firm n = true ∧ calm true n = true ∧ overTables n = true ∧ Holds t.value n

/-- C65: on readable files whose queries are calm statements over tables, `--validate` ends with status 1 exactly if
something is wrong with one of them and its next comment does not say `nosqlvalidation`. -/
theorem C65_validate_files_over_tables (env : FileEnv) (srcs : List Path) (w : World) (b : Bool)
    (hr : ∀ f ∈ reached env srcs, Readable env w.content f) (hc : ∀ f ∈ reached env srcs, TableFile env w.content f) :
    (handleInputs env ⟨false, false, true, b⟩ srcs w).1 = 1 ↔
      ∃ f ∈ reached env srcs, ∃ s n, Follows (env.tokenize (w.content (env.abspath f))).toks s n ∧ Query s ∧
        (∀ x y, n.value ≠ x ++ str!"nosqlvalidation" ++ y) ∧
        ∃ m, (core m = true ∧ firm m = true ∧ overTables m = true) ∧ Holds s.value m ∧ sound none m = false :=
  validate_files (fun n hn sql ts => C65_accepted_over_tables n hn.1 hn.2.1 hn.2.2 sql ts) env srcs w b hr
    fun f hf t ht hq =>
      let ⟨n, a1, a2, a3, a4, a5⟩ := hc f hf t ht hq
      ⟨n, a1, a2, a3, ⟨a1, a2, a4⟩, a5⟩

end

/-- A query over two tables with a sub-query: everything is in order. -/
def fitting : Node :=
  .select [.column str!"a", .alias (.func str!"sum" [.paren [.column str!"b"]]) (.column str!"s") true] false false []
    (.join str!"JOIN" (.table (.column str!"t") false) (.table (.column str!"u") false) (.on (.cond (.column str!"a") str!"=" (.column str!"c"))) .none)
    (.where_ (.boolc str!"and" (.cond (.column str!"a") str!"in" (.paren [.select [.column str!"x"] false false [] (.table (.column str!"v") false)
      (.where_ (.column str!"y")) .none .none .none .none .none false])) (.paren [.bool true])))
    (.groupBy [.int 1] false false) .none (.orderBy [.orderItem (.int 2) false true]) (.limit false (.paren [.int 10])) (.offset (.int 0)) false

/-- The same with a number as a condition of the sub-query. -/
def unfitting : Node :=
  .select [.column str!"a"] false false [] (.table (.column str!"t") false)
    (.where_ (.cond (.column str!"a") str!"in" (.paren [.select [.column str!"x"] false false [] (.table (.column str!"v") false)
      (.where_ (.arith str!"+" (.column str!"y") (.int 1))) .none .none .none .none .none false])))
    .none .none .none .none .none false

/-- Non-vacuity of C65. -/
example : @core asciiEnv fitting = true ∧ firm fitting = true ∧ calm true fitting = true ∧ overTables fitting = true ∧
    sound none fitting = true ∧
    Core.Reads (toks fitting) (@toTokens asciiEnv str!"select a, sum((b)) as s from t join u on a = c where a in (select x from v where y) and (true) group by 1 order by 2 desc limit (10) offset 0").toks ∧
    @core asciiEnv unfitting = true ∧ firm unfitting = true ∧ calm true unfitting = true ∧ overTables unfitting = true ∧
    sound none unfitting = false ∧
    Core.Reads (toks unfitting) (@toTokens asciiEnv str!"select a from t where a in (select x from v where y + 1)").toks := by
  decide +kernel

/-- C65: `overTables` cannot be left out: over a sub-query, a column that it does not select is wrong, too. -/
theorem C65_not_over_subqueries : ∃ n, @core asciiEnv n = true ∧ firm n = true ∧ calm true n = true ∧ sound none n = true ∧
    Core.Reads (toks n) (@toTokens asciiEnv str!"SELECT b FROM (SELECT a FROM t)").toks ∧
    (@SQLQuery.isValid asciiEnv (SQLQuery.new str!"SELECT b FROM (SELECT a FROM t)")).1 = .ok false :=
  ⟨.select [.column str!"b"] false false [] (.paren [.select [.column str!"a"] false false [] (.table (.column str!"t") false) .none .none .none
    .none .none .none false]) .none .none .none .none .none .none false, by decide +kernel⟩

end SqlV
