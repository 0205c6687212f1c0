import Verif.Lemmas.Report
import Verif.Props.Scope

/-!
# Messages (C67)
-/

set_option linter.unusedSectionVars false

namespace SqlV

open Core

section

variable [E : PyEnv] [L : LawfulPyEnv E]

/-- The tree of a core statement, and what validating it gives. -/
theorem core_says {n : Node} (hc : core n = true) (ht : tidy n = true) (hu : unmixed [] n = true) {sql : Str} {ts : List Str}
    (hs : toTokens sql = ⟨ts, none⟩) (hr : Core.Reads (toks n) ts) : ∃ n', parseSql sql = .ok n' ∧ validate n' = Core.report [] none n := by
  obtain ⟨n', hp, rfl⟩ := C10_parser_inverts_grammar_text n hc sql ts hs hr
  refine ⟨n', hp, ?_⟩
  by_cases hsel : n'.isSelect = true
  · exact validate_says (core_wf hc) hsel ht hu
  · simp only [core, Bool.and_eq_true] at hc
    replace hc := hc.1
    have := hc.2
    cases n' <;> first | exact absurd rfl hsel | exact absurd this Bool.false_ne_true | rfl

/-- C67: the errors of a query are the messages about it (`report`), one for each thing that is wrong, in this order: the
select list, the FROM clause, WHERE, GROUP BY, HAVING, ORDER BY, LIMIT, OFFSET; and `is_valid` answers whether there are none. -/
theorem C67_messages (n : Node) (hc : core n = true) (ht : tidy n = true) (hu : unmixed [] n = true) (sql : Str) (ts : List Str)
    (hs : toTokens sql = ⟨ts, none⟩) (hr : Core.Reads (toks n) ts) (ms : List Str) (hm : Core.report [] none n = .ok ms) :
    (SQLQuery.new sql).isValid.1 = .ok ms.isEmpty ∧ (SQLQuery.new sql).isValid.2.errors = ms := by
  obtain ⟨n', hp, hv⟩ := core_says hc ht hu hs hr
  rw [(isValid_new sql).1, (isValid_new sql).2, verdict.eq_def, hp]
  simp only [hv, hm, and_self]

/-- C67: where `report` names an exception, `is_valid` raises that exception. -/
theorem C67_raises (n : Node) (hc : core n = true) (ht : tidy n = true) (hu : unmixed [] n = true) (sql : Str) (ts : List Str)
    (hs : toTokens sql = ⟨ts, none⟩) (hr : Core.Reads (toks n) ts) (e : PyErr) (hm : Core.report [] none n = .error e) :
    (SQLQuery.new sql).isValid.1 = .error e := by
  obtain ⟨n', hp, hv⟩ := core_says hc ht hu hs hr
  have he := report_error n [] none e hm
  rw [(isValid_new sql).1, verdict.eq_def, hp]
  simp only [hv, hm]
  rcases he with rfl | rfl | rfl <;> rfl

/-- C67: no message exactly if nothing is wrong. -/
theorem C67_fits (n : Node) (hc : core n = true) (ht : tidy n = true) (hu : unmixed [] n = true) (sql : Str) (ts : List Str)
    (hs : toTokens sql = ⟨ts, none⟩) (hr : Core.Reads (toks n) ts) : Core.report [] none n = .ok [] ↔ fits [] none n = true := by
  rw [← C66_accepted n hc ht hu sql ts hs hr]
  cases hrep : Core.report [] none n with
  | error e =>
    rw [C67_raises n hc ht hu sql ts hs hr e hrep]
    simp
  | ok ms =>
    rw [(C67_messages n hc ht hu sql ts hs hr ms hrep).1]
    cases ms <;> simp

/-- The query object made from a literal that holds a statement. -/
theorem object_says {v new : Str} {q : SQLQuery} {m : Node} (hc : core m = true) (ht : tidy m = true) (hu : unmixed [] m = true)
    (hh : Holds v m) (h : handleSqlString v = .ok (new, q)) (b : Bool) (hb : q.isValid.1 = .ok b) :
    Core.report [] none m = .ok q.isValid.2.errors ∧ b = q.isValid.2.errors.isEmpty := by
  obtain ⟨p, c, k, body, ts, hp, hcq, hk, hbd, hv, hs, hr⟩ := hh
  obtain ⟨c1, c2⟩ := C41_prefix_and_quotes p hp c hcq k hk body hbd
  rw [hv] at h
  cases hfm : formatSql body with
  | error e' => rw [c2 e' hfm] at h; cases h
  | ok fm =>
    obtain ⟨q', d1, d2, d3⟩ := c1 fm hfm
    rw [d1] at h
    cases h
    cases hrep : Core.report [] none m with
    | error e => rw [d2, C67_raises m hc ht hu body ts hs hr e hrep] at hb; cases hb
    | ok ms =>
      obtain ⟨e1, e2⟩ := C67_messages m hc ht hu body ts hs hr ms hrep
      rw [d2, e1] at hb
      cases hb
      rw [d3, e2]
      exact ⟨rfl, rfl⟩

theorem location_saidAll (env : FileEnv) (check : Bool) (c : Path → Str) (row : Nat) (ms : List Str) (is : List Item) :
    ∀ seen, Event.location row ms ∈ saidAll env ⟨false, check, false, true⟩ c seen is ↔
      ∃ f ∈ firsts env seen is, Event.location row ms ∈ said env ⟨false, check, false, true⟩ c f := by
  induction is with
  | nil => intro seen; simp [saidAll, firsts]
  | cons i is ih =>
    intro seen
    cases i with
    | missing s => simp [saidAll, firsts, ih]
    | file f =>
      rw [saidAll, firsts]
      split
      · exact ih seen
      · simp [ih]

/-- C67: on readable files of such queries, `--verbose-validate` prints for each query with messages its line and these
messages, unless its next comment says `nosqlvalidation`, and prints nothing else about queries. -/
theorem C67_verbose_lines (env : FileEnv) (srcs : List Path) (w : World) (check : Bool)
    (hr : ∀ f ∈ reached env srcs, Readable env w.content f) (hc : ∀ f ∈ reached env srcs, ScopedFile env w.content f)
    (row : Nat) (ms : List Str) :
    Event.location row ms ∈ (handleInputs env ⟨false, check, false, true⟩ srcs w).2.out ↔
      Event.location row ms ∈ w.out ∨
      ∃ f ∈ reached env srcs, ∃ s n, Follows (env.tokenize (w.content (env.abspath f))).toks s n ∧ Query s ∧
        (∀ x y, n.value ≠ x ++ str!"nosqlvalidation" ++ y) ∧ s.start.1 = row ∧ ms ≠ [] ∧
        ∃ m, (core m = true ∧ tidy m = true ∧ unmixed [] m = true) ∧ Holds s.value m ∧ Core.report [] none m = .ok ms := by
  obtain ⟨-, -, -, h4, -⟩ := run_facts env ⟨false, check, false, true⟩ srcs w
  rw [h4, List.mem_append, List.mem_append, location_saidAll]
  have hsum : Event.location row ms ∉ summary ⟨false, check, false, true⟩ (counts env ⟨false, check, false, true⟩ w.content srcs) := by
    cases check <;> simp [summary]
  simp only [hsum, or_false]
  refine or_congr_right (exists_congr fun f => and_congr_right fun hf => ?_)
  have hq : ∀ t ∈ (env.tokenize (w.content (env.abspath f))).toks, Query t →
      ∃ n, core n = true ∧ tidy n = true ∧ calm true n = true ∧ unmixed [] n = true ∧ Holds t.value n := hc f hf
  obtain ⟨r, es, h1, h2, -, h3, h5⟩ := found_core (fl := ⟨false, check, false, true⟩) (hr f hf) fun t ht hqt =>
    let ⟨n, a1, a2, a3, _, a4⟩ := hq t ht hqt
    ⟨n, a1, tidy_firm n a2, fun _ => a3, a4⟩
  have hsaid : Event.location row ms ∈ said env ⟨false, check, false, true⟩ w.content f ↔ (row, ms) ∈ r.locations := by
    have hinv : Event.location row ms ∈ invalidSaid ⟨false, check, false, true⟩ f r ↔ (row, ms) ∈ r.locations := by
      rw [invalidSaid, h3, ← h5]
      split
      · simp
      · rename_i hno
        simp only [Bool.false_or, and_true, Nat.not_lt, Nat.le_zero, gt_iff_lt] at hno
        rw [List.eq_nil_of_length_eq_zero hno]
        simp
    rw [said, h1]
    simp only [Bool.false_eq_true, and_false, if_false]
    split
    · rw [List.mem_cons, hinv]
      simp
    · exact hinv
  have hex : (row, ms) ∈ es.flatMap (·.reports) ↔ ∃ e ∈ es, (row, ms) ∈ e.reports := List.mem_flatMap
  rw [hsaid, h5, hex, effects_follow h2 (hr f hf).ends (fun e => (row, ms) ∈ e.reports) (fun t h => by cases h)]
  have hmem : ∀ s n, Follows (env.tokenize (w.content (env.abspath f))).toks s n → s ∈ (env.tokenize (w.content (env.abspath f))).toks := by
    rintro s n ⟨pre, mid, post, e1, -⟩
    rw [e1]
    simp
  constructor
  · rintro ⟨s, n, e, hfo, hqs, -, ha, hin⟩
    obtain ⟨new, q, g1, -, -, g2, g3⟩ := analysed_ok ha
    cases hmk : Str.contains n.value noSqlValidation with
    | true => rw [g2 (by simp [hmk])] at hin; cases hin
    | false =>
      rcases report_cases (g3 (by simp [hmk])) with ⟨-, h⟩ | ⟨hv, h⟩
      · rw [h] at hin; cases hin
      · rw [h, List.mem_singleton] at hin
        cases hin
        obtain ⟨m, a1, a2, a3, a4, a5⟩ := hq s (hmem s n hfo) hqs
        obtain ⟨o1, o2⟩ := object_says a1 a2 a4 a5 g1 false hv
        refine ⟨s, n, hfo, hqs, no_marker.1 hmk, rfl, ?_, m, ⟨a1, a2, a4⟩, a5, o1⟩
        intro hnil
        rw [hnil] at o2
        cases o2
  · rintro ⟨s, n, hfo, hqs, hmk, rfl, hne, m, ⟨b1, b2, b3⟩, b4, b5⟩
    obtain ⟨m', a1, a2, a3, a4, a5⟩ := hq s (hmem s n hfo) hqs
    rw [← no_marker] at hmk
    obtain ⟨e, hae⟩ := analysed_core (t := s) a1 (tidy_firm m' a2) a5 (Str.contains n.value noSqlFormat) true fun _ => a3
    refine ⟨s, n, e, hfo, hqs, .inr (.inr ?_), ?_, ?_⟩
    · rw [show noSqlValidation = str!"nosqlvalidation" from rfl, hmk]; rfl
    · rw [show noSqlValidation = str!"nosqlvalidation" from rfl, hmk]; exact hae
    · obtain ⟨new, q, g1, -, -, -, g3⟩ := analysed_ok hae
      rcases report_cases (g3 rfl) with ⟨hv, h⟩ | ⟨hv, h⟩
      · obtain ⟨o1, o2⟩ := object_says b1 b2 b3 b4 g1 true hv
        rw [b5] at o1
        cases o1
        exact absurd (List.isEmpty_iff.1 o2.symm) hne
      · obtain ⟨o1, o2⟩ := object_says b1 b2 b3 b4 g1 false hv
        rw [b5] at o1
        cases o1
        rw [h]
        exact List.mem_singleton.2 rfl

end

/-- A statement with many faults. -/
def faulty : Node :=
  .select [.column str!"a", .chained (.column str!"t") (.column str!"z"), .column str!"nope"] false false []
    (.join str!"JOIN"
      (.alias (.paren [plainQuery [.column str!"a", .column str!"b"] (.table (.column str!"s") false)]) (.raw str!"t") false)
      (.alias (.paren [plainQuery [.column str!"a", .alias (.int 1) (.column str!"one") true] (.table (.column str!"s") false)]) (.raw str!"u") false)
      .none (.using_ (.paren [.column str!"a"])))
    (.where_ (.boolc str!"and" (.cond (.column str!"b") str!"=" (.int 1)) (.int 5)))
    (.groupBy [.int 7, .column str!"c"] false false) .none (.orderBy [.orderItem (.int 0) false false]) (.limit false (.int (-1))) (.offset (.string str!"x" str!"'" none)) false

/-- Non-vacuity of C67: the messages about a faulty statement, about one that is calm, and a statement that makes validation
raise. -/
example : @core asciiEnv faulty = true ∧ tidy faulty = true ∧ unmixed [] faulty = true ∧
    Core.Reads (toks faulty) (@toTokens asciiEnv str!"select a, t.z, nope from (select a, b from s) t join (select a, 1 as one from s) u using (a) where b = 1 and 5 group by 7, c order by 0 limit -1 offset 'x'").toks ∧
    Core.report [] none faulty = .ok [str!"column \"a\" is ambiguous", str!"The column z was not found in alias t", str!"The column nope was not found",
      str!"The argument of AND must be type boolean, not type int", str!"GROUP BY position 7 is not in select list", str!"column \"c\" does not exist",
      str!"ORDER BY position 0 is not in select list", str!"LIMIT must not be negative", str!"argument of OFFSET must be integer"] ∧
    calm true unresolved = true ∧ Core.report [] none unresolved = .ok [str!"column \"a\" is ambiguous"] ∧
    @core asciiEnv (plainQuery [.cast (.column str!"a") (.type str!"int")] .none) = true ∧
    Core.report [] none (plainQuery [.cast (.column str!"a") (.type str!"int")] .none) = .error .attribute ∧
    Core.report [] none demo5 = .ok [str!"Missing ON or USING for join"] := by
  decide +kernel

end SqlV
