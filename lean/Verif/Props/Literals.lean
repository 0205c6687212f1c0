import Verif.Props.PyFiles
import Verif.Props.Raising

/-!
# Python literals that hold statements of the core grammar (C48, C53)
-/

set_option linter.unusedSectionVars false

namespace SqlV

open Core

section

variable [E : PyEnv] [L : LawfulPyEnv E]

/-- The Python literal `v` holds the statement `n`: prefix letters, one or three quotes, a spelling of `n`, the same
quotes.  (The body of a literal with single quotes does not begin with that quote.) -/
def Holds (v : Str) (n : Node) : Prop :=
  ∃ (p : Str) (c : Char) (k : Nat) (body : Str) (ts : List Str), literalPrefix p ∧ (c = '"' ∨ c = '\'') ∧
    (k = 1 ∨ k = 3) ∧ (k = 1 → body.head? ≠ some c) ∧ v = p ++ List.replicate k c ++ body ++ List.replicate k c ∧
    toTokens body = ⟨ts, none⟩ ∧ Core.Reads (toks n) ts

/-- The literal holds the layout of the statement: in one or three quotes if it is a single line, else on lines of its own in
three quotes. -/
def Laid (v : Str) (n : Node) : Prop :=
  ∃ (p : Str) (c : Char) (k : Nat), literalPrefix p ∧ (c = '"' ∨ c = '\'') ∧ (k = 1 ∨ k = 3) ∧
    v = if '\n' ∈ layout n then p ++ List.replicate 3 c ++ ['\n'] ++ layout n ++ ['\n'] ++ List.replicate 3 c
      else p ++ List.replicate k c ++ layout n ++ List.replicate k c

/-- A literal that holds a statement becomes a literal that holds its layout. -/
theorem holds_formatted {v : Str} {n : Node} (hc : core n = true) (ht : tidy n = true) (h : Holds v n) :
    ∃ new q, handleSqlString v = .ok (new, q) ∧ Laid new n := by
  obtain ⟨p, c, k, body, ts, hp, hcq, hk, hb, rfl, hs, hr⟩ := h
  obtain ⟨q, h1, -⟩ := (C41_prefix_and_quotes p hp c hcq k hk body hb).1 _ (C11_layout n hc ht body ts hs hr)
  exact ⟨_, q, h1, p, c, k, hp, hcq, hk, rfl⟩

/-- A literal that holds a layout stays as it is. -/
theorem laid_fixed {v : Str} {n : Node} (hc : core n = true) (ht : tidy n = true) (h : Laid v n) :
    ∃ q, handleSqlString v = .ok (v, q) := by
  obtain ⟨p, c, k, hp, hcq, hk, rfl⟩ := h
  obtain ⟨e1, e2⟩ := tokens_layout (core_wf hc) (toks_ne_core hc) (core_oneKind hc)
  by_cases hnl : '\n' ∈ layout n
  · rw [if_pos hnl]
    have e3 := tokens_layout_lines (core_wf hc) (toks_ne_core hc) (core_oneKind hc)
    obtain ⟨q', h2, -⟩ := (C41_prefix_and_quotes p hp c hcq 3 (.inr rfl) _ (fun h => absurd h (by decide))).1 _
      (C11_layout n hc ht _ _ e3 e1)
    rw [if_pos hnl] at h2
    refine ⟨q', ?_⟩
    rw [← h2]
    simp
  · rw [if_neg hnl]
    have e3 := C13_layout_fixed n hc ht
    have hb : k = 1 → (layout n).head? ≠ some c := by
      intro _ hh
      obtain ⟨t, ts, f, -, ⟨-, h⟩ | ⟨-, h⟩⟩ := C09_starts_with_keyword _ _ e3 <;>
        (obtain ⟨r, h⟩ := h; rw [← h] at hh; rcases hcq with rfl | rfl <;> simp at hh)
    obtain ⟨q', h2, -⟩ := (C41_prefix_and_quotes p hp c hcq k hk _ hb).1 _ e3
    rw [if_neg hnl] at h2
    exact ⟨q', h2⟩

/-- Formatting a literal that holds a tidy statement of the core grammar gives a literal that is formatted already. -/
theorem holds_idempotent {v : Str} {n : Node} (hc : core n = true) (ht : tidy n = true) (h : Holds v n) :
    ∃ new q q', handleSqlString v = .ok (new, q) ∧ handleSqlString new = .ok (new, q') := by
  obtain ⟨new, q, h1, h2⟩ := holds_formatted hc ht h
  obtain ⟨q', h3⟩ := laid_fixed hc ht h2
  exact ⟨new, q, q', h1, h3⟩

/-- A literal that holds a tidy statement of the core grammar is settled, unless it says `nosqlformat` itself. -/
theorem holds_settled {v : Str} {n : Node} (hc : core n = true) (ht : tidy n = true) (h : Holds v n)
    (hno : ∀ x y, v ≠ x ++ str!"nosqlformat" ++ y) : Settled v := by
  obtain ⟨new, q, q', h1, h2⟩ := holds_idempotent hc ht h
  intro new1 q1 h3
  rw [h1] at h3
  cases h3
  refine ⟨fun new2 q2 h4 => ?_, fun h4 => ?_⟩
  · rw [h2] at h4
    cases h4
    rfl
  · obtain ⟨x, y, hxy⟩ := (Str.contains_iff _ _).1 h4
    exact absurd hxy (hno x y)

/-- C48 for statements of the core grammar: if every literal taken for a query in the files of the run holds a tidy statement
of the core grammar and does not say `nosqlformat` itself, and reading a rewritten file back gives the tokens it was
printed from, then `--check-format` after `--format` ends with status 0.  (Missing: other queries, for which it is false,
`C48_not_all`.) -/
theorem C48_core_check_after_format_partial (env : FileEnv) (srcs : List Path) (w : World)
    (hw : NoWriteFault env)
    (hset : ∀ f ∈ reached env srcs, ∀ t ∈ (env.tokenize (w.content (env.abspath f))).toks,
      t.kind = .string → isSelectString t.value = true →
      (∃ n, core n = true ∧ tidy n = true ∧ Holds t.value n) ∧ ∀ x y, t.value ≠ x ++ str!"nosqlformat" ++ y)
    (hread : ∀ f ∈ reached env srcs, ∀ a content,
      mainLoop true false env.limit (env.tokenize (w.content (env.abspath f))).fail {}
        (env.tokenize (w.content (env.abspath f))).toks = .ok a →
      untokenize a.tokens = .ok content → a.changed > 0 →
      List.Forall₂ SameText a.tokens (env.tokenize content).toks) :
    (handleInputs env ⟨false, true, false, false⟩ srcs
      (handleInputs env ⟨true, false, false, false⟩ srcs w).2).1 = 0 := by
  refine C48_check_after_format_partial env srcs w hw (fun f hf t ht hk hq => ?_) hread
  obtain ⟨⟨n, hc, hti, hh⟩, hno⟩ := hset f hf t ht hk hq
  exact holds_settled hc hti hh hno

/-! ### C63 -/

/-- `n` is the first comment, string or end of the file after `s`. -/
def Follows (toks : List PyTok) (s n : PyTok) : Prop :=
  ∃ pre mid post, toks = pre ++ s :: (mid ++ n :: post) ∧ (∀ t ∈ mid, passive t) ∧ ¬ passive n

/-- A string that is taken for a query. -/
def Query (t : PyTok) : Prop := t.kind = .string ∧ isSelectString t.value = true

/-- A file that can be read, split into tokens and printed again. -/
structure Readable (env : FileEnv) (c : Path → Str) (f : Path) : Prop where
  read : env.readFault (env.abspath f) = none
  whole : (env.tokenize (c (env.abspath f))).fail = none
  ends : ∃ e, (env.tokenize (c (env.abspath f))).toks.getLast? = some e ∧ e.kind = .endmarker
  short : (env.tokenize (c (env.abspath f))).toks.length ≤ env.limit
  prints : ∃ text, untokenize (env.tokenize (c (env.abspath f))).toks = .ok text

/-- All queries of the file are tidy statements of the core grammar. -/
def CoreFile (env : FileEnv) (c : Path → Str) (f : Path) : Prop :=
  ∀ t ∈ (env.tokenize (c (env.abspath f))).toks, Query t → ∃ n, core n = true ∧ tidy n = true ∧ Holds t.value n

/-- They can be validated. -/
def CalmFile (env : FileEnv) (c : Path → Str) (f : Path) : Prop :=
  ∀ t ∈ (env.tokenize (c (env.abspath f))).toks, Query t →
    ∃ n, core n = true ∧ firm n = true ∧ calm true n = true ∧ Holds t.value n

theorem query_iff (t : PyTok) : isQuery t = true ↔ Query t := by simp [isQuery, Query]

/-- Analysing a literal that holds a firm statement of the core grammar raises nothing. -/
theorem analysed_core {t : PyTok} {n : Node} (hc : core n = true) (ht : firm n = true) (h : Holds t.value n) (keep check : Bool)
    (hcalm : check = true → calm true n = true) : ∃ e, analysed t keep check = .ok e := by
  obtain ⟨p, c, k, body, ts, hp, hcq, hk, hb, hv, hs, hr⟩ := h
  obtain ⟨out, ho⟩ := C64_formatting_never_raises n hc ht body ts hs hr
  obtain ⟨q, h1, h2, -⟩ := (C41_prefix_and_quotes p hp c hcq k hk body hb).1 _ ho
  rw [analysed, hv, h1]
  cases check with
  | false => exact ⟨_, rfl⟩
  | true =>
    obtain ⟨b, h3⟩ := C34_core_never_raises_partial n hc ht (hcalm rfl) body ts hs hr
    rw [h3] at h2
    have hrep : ∃ rs, report t.start.1 q = .ok rs := by
      rw [report]
      revert h2
      cases q.isValid with
      | mk r q' =>
        intro h2
        cases h2
        cases b <;> exact ⟨_, rfl⟩
    obtain ⟨rs, hrep⟩ := hrep
    simp only [if_true, hrep]
    exact ⟨_, rfl⟩

theorem effects_core {fmt val : Bool} {toks : List PyTok} (hend : ∃ e, toks.getLast? = some e ∧ e.kind = .endmarker)
    (h : ∀ t ∈ toks, Query t → ∃ n, core n = true ∧ firm n = true ∧ (val = true → calm true n = true) ∧ Holds t.value n) :
    ∃ es, effects fmt val none toks = .ok es := by
  induction toks with
  | nil => obtain ⟨e, he, -⟩ := hend; cases he
  | cons t ts ih =>
    cases ts with
    | nil =>
      obtain ⟨e, he, hk⟩ := hend
      simp only [List.getLast?_singleton, Option.some.injEq] at he
      subst he
      have hq : isQuery t = false := by simp [isQuery, hk]
      rw [effects, effect_other hq, effects]
      exact ⟨_, rfl⟩
    | cons t' ts =>
      have hend' : ∃ e, (t' :: ts).getLast? = some e ∧ e.kind = .endmarker := by
        obtain ⟨e, he, hk⟩ := hend
        exact ⟨e, by rw [List.getLast?_cons_cons] at he; exact he, hk⟩
      obtain ⟨es, hes⟩ := ih hend' fun x hx => h x (List.mem_cons_of_mem _ hx)
      have he : ∃ e, effect fmt val none t (t' :: ts) = .ok e := by
        cases hq : isQuery t with
        | false => exact ⟨_, effect_other hq fmt val none _⟩
        | true =>
          obtain ⟨n, h1, h2, h3, h4⟩ := h t (by simp) ((query_iff t).1 hq)
          rw [effect, if_pos hq]
          cases List.find? stopsFollow (t' :: ts) with
          | some m =>
            simp only
            split
            · refine analysed_core h1 h2 h4 _ _ fun hv => h3 ?_
              rw [Bool.and_eq_true] at hv
              exact hv.1
            · exact ⟨_, rfl⟩
          | none => exact ⟨_, rfl⟩
      obtain ⟨e, he⟩ := he
      rw [effects, he, hes]
      exact ⟨_, rfl⟩

theorem found_core {env : FileEnv} {fl : Flags} {c : Path → Str} {f : Path} (hr : Readable env c f)
    (h : ∀ t ∈ (env.tokenize (c (env.abspath f))).toks, Query t →
      ∃ n, core n = true ∧ firm n = true ∧ ((fl.validate || fl.verbose) = true → calm true n = true) ∧ Holds t.value n) :
    ∃ r es, found env fl c f = .ok r ∧
      effects (fl.format || fl.check) (fl.validate || fl.verbose) none (env.tokenize (c (env.abspath f))).toks = .ok es ∧
      r.changed = es.countP (·.changed) ∧ r.invalid = (es.flatMap (·.reports)).length ∧
      r.locations = es.flatMap (·.reports) := by
  obtain ⟨es, hes⟩ := effects_core (fmt := fl.format || fl.check) hr.ends h
  obtain ⟨text, htext⟩ := hr.prints
  have hun : ∃ text', untokenize (es.map (·.tok)) = .ok text' := by
    rw [untokenize, untokenizeFrom_eq] at htext
    rw [untokenize, untokenizeFrom_eq, gapsFrom_congr (forall₂_of_effects hes).1]
    cases hg : gapsFrom {} (env.tokenize (c (env.abspath f))).toks with
    | error e => rw [hg] at htext; cases htext
    | ok gs => exact ⟨_, rfl⟩
  obtain ⟨text', hun⟩ := hun
  refine ⟨⟨es.countP (·.changed), text', (es.flatMap (·.reports)).length, es.flatMap (·.reports)⟩, es, ?_, hes, rfl, rfl, rfl⟩
  rw [found, hr.read]
  simp only [computeContent, hr.whole]
  rw [mainLoop_of_effects hr.short hes]
  simp only [bind, Except.bind, hun]
  rfl

/-- The next stop exists, and is the one that is looked for. -/
theorem follows_iff {toks : List PyTok} {s n : PyTok} :
    Follows toks s n ↔ ∃ pre rest, toks = pre ++ s :: rest ∧ rest.find? stopsFollow = some n := by
  have hp : ∀ t, passive t ↔ stopsFollow t = false := by
    intro t
    simp only [passive, stopsFollow, Bool.or_eq_false_iff, decide_eq_false_iff_not]
    exact ⟨fun h => ⟨⟨h.2.2, h.1⟩, h.2.1⟩, fun h => ⟨h.1.2, h.2, h.1.1⟩⟩
  constructor
  · rintro ⟨pre, mid, post, h1, h2, h3⟩
    refine ⟨pre, _, h1, ?_⟩
    rw [find_mid fun t ht => (hp t).1 (h2 t ht), List.find?_cons]
    rw [hp, Bool.not_eq_false] at h3
    rw [h3]
  · rintro ⟨pre, rest, h1, h2⟩
    rw [List.find?_eq_some_iff_append] at h2
    obtain ⟨h2, mid, post, rfl, h3⟩ := h2
    exact ⟨pre, mid, post, h1, fun t ht => (hp t).2 (by simpa using h3 t ht), by rw [hp, h2]; simp⟩

theorem find_of_end {rest : List PyTok} (h : ∃ e, rest.getLast? = some e ∧ e.kind = .endmarker) :
    ∃ n, rest.find? stopsFollow = some n := by
  obtain ⟨e, he, hk⟩ := h
  cases hf : rest.find? stopsFollow with
  | some n => exact ⟨n, rfl⟩
  | none =>
    have := List.find?_eq_none.1 hf e (List.mem_of_getLast? he)
    simp [stopsFollow, hk] at this

/-- An effect, and the token and the stop it belongs to. -/
theorem effects_follow {fmt val : Bool} {toks : List PyTok} {es : List Effect} (h : effects fmt val none toks = .ok es)
    (hend : ∃ e, toks.getLast? = some e ∧ e.kind = .endmarker) (P : Effect → Prop) (hP : ∀ t, ¬ P ⟨t, false, []⟩) :
    (∃ e ∈ es, P e) ↔ ∃ s n e, Follows toks s n ∧ Query s ∧
      (n.kind ≠ .comment ∨ (fmt && !Str.contains n.value noSqlFormat) ∨ (val && !Str.contains n.value noSqlValidation)) ∧
      analysed s (Str.contains n.value noSqlFormat) (val && !Str.contains n.value noSqlValidation) = .ok e ∧ P e := by
  obtain ⟨hlen, hat⟩ := effects_at h
  constructor
  · rintro ⟨e, he, hpe⟩
    obtain ⟨i, hi, hei⟩ := List.getElem_of_mem he
    have hsplit : toks = toks.take i ++ toks[i]'(by omega) :: toks.drop (i + 1) := by
      rw [← List.drop_eq_getElem_cons, List.take_append_drop]
    obtain ⟨e', h1, h2⟩ := hat _ _ _ hsplit
    have hl : (toks.take i).length = i := by simp; omega
    rw [hl, List.getElem?_eq_getElem hi, hei] at h1
    cases h1
    generalize toks[i]'(by omega) = t at hsplit h2
    cases hq : isQuery t with
    | false =>
      rw [effect_other hq] at h2
      cases h2
      exact absurd hpe (hP t)
    | true =>
      obtain ⟨n, hn⟩ := find_of_end (rest := toks.drop (i + 1)) (by
        obtain ⟨x, hx, hk⟩ := hend
        refine ⟨x, ?_, hk⟩
        rw [hsplit] at hx
        revert hx
        cases toks.drop (i + 1) with
        | nil =>
          intro hx
          rw [List.getLast?_append, List.getLast?_singleton, Option.some_or] at hx
          cases hx
          rw [query_iff] at hq
          rw [hq.1] at hk
          cases hk
        | cons a l =>
          intro hx
          rw [List.getLast?_append, List.getLast?_cons_cons] at hx
          cases hl : (a :: l).getLast? with
          | none => simp at hl
          | some y => rw [hl, Option.some_or] at hx; exact hx)
      rw [effect, if_pos hq, hn] at h2
      simp only at h2
      split at h2
      · rename_i hcond
        exact ⟨t, n, e, follows_iff.2 ⟨_, _, hsplit, hn⟩, (query_iff t).1 hq, hcond, h2, hpe⟩
      · cases h2
        exact absurd hpe (hP t)
  · rintro ⟨s, n, e, hf, hq, hcond, ha, hpe⟩
    obtain ⟨pre, rest, h1, h2⟩ := follows_iff.1 hf
    obtain ⟨e', h3, h4⟩ := hat _ _ _ h1
    rw [effect, if_pos ((query_iff s).2 hq), h2] at h4
    simp only [if_pos hcond, ha] at h4
    cases h4
    exact ⟨e, List.mem_of_getElem? h3, hpe⟩

theorem no_marker {s m : Str} : Str.contains s m = false ↔ ∀ x y, s ≠ x ++ m ++ y := by
  rw [← Bool.not_eq_true, Str.contains_iff]
  exact ⟨fun h x y e => h ⟨x, y, e⟩, fun h ⟨x, y, e⟩ => h x y e⟩

/-- The literal holds a text that `is_valid` rejects. -/
def Rejected (v : Str) : Prop :=
  ∃ (p : Str) (c : Char) (k : Nat) (body : Str), literalPrefix p ∧ (c = '"' ∨ c = '\'') ∧ (k = 1 ∨ k = 3) ∧
    (k = 1 → body.head? ≠ some c) ∧ v = p ++ List.replicate k c ++ body ++ List.replicate k c ∧
    (SQLQuery.new body).isValid.1 = .ok false

/-- The query object of a literal answers as one made from the text in it. -/
theorem rejected_iff {v new : Str} {q : SQLQuery} {n : Node} (hh : Holds v n) (h : handleSqlString v = .ok (new, q)) :
    Rejected v ↔ q.isValid.1 = .ok false := by
  have key : ∀ (p : Str) (c : Char) (k : Nat) (body : Str), literalPrefix p → (c = '"' ∨ c = '\'') →
      (k = 1 ∨ k = 3) → (k = 1 → body.head? ≠ some c) → v = p ++ List.replicate k c ++ body ++ List.replicate k c →
      q.isValid.1 = (SQLQuery.new body).isValid.1 := by
    intro p c k body hp hcq hk hb hv
    obtain ⟨c1, c2⟩ := C41_prefix_and_quotes p hp c hcq k hk body hb
    rw [hv] at h
    cases hfm : formatSql body with
    | error e' => rw [c2 e' hfm] at h; cases h
    | ok fm =>
      obtain ⟨q', d1, d2, -⟩ := c1 fm hfm
      rw [d1] at h
      cases h
      exact d2
  constructor
  · rintro ⟨p, c, k, body, hp, hcq, hk, hb, hv, hbad⟩
    rw [key p c k body hp hcq hk hb hv, hbad]
  · intro hq
    obtain ⟨p, c, k, body, ts, hp, hcq, hk, hb, hv, -⟩ := hh
    exact ⟨p, c, k, body, hp, hcq, hk, hb, hv, by rw [← key p c k body hp hcq hk hb hv, hq]⟩

/-- C63: on readable files whose queries are firm and calm statements of the core grammar, `--validate` ends with status 1
exactly if some query is rejected by `is_valid` and its next comment does not say `nosqlvalidation`. -/
theorem C63_validate_files (env : FileEnv) (srcs : List Path) (w : World) (b : Bool)
    (hr : ∀ f ∈ reached env srcs, Readable env w.content f) (hc : ∀ f ∈ reached env srcs, CalmFile env w.content f) :
    (handleInputs env ⟨false, false, true, b⟩ srcs w).1 = 1 ↔
      ∃ f ∈ reached env srcs, ∃ s n, Follows (env.tokenize (w.content (env.abspath f))).toks s n ∧ Query s ∧
        (∀ x y, n.value ≠ x ++ str!"nosqlvalidation" ++ y) ∧ Rejected s.value := by
  rw [(C45_exit_status_found env ⟨false, false, true, b⟩ srcs w (.inl rfl))]
  have hfile : ∀ f ∈ reached env srcs, (∃ r, found env ⟨false, false, true, b⟩ w.content f = .ok r ∧ r.invalid > 0) ↔
      ∃ s n, Follows (env.tokenize (w.content (env.abspath f))).toks s n ∧ Query s ∧
        (∀ x y, n.value ≠ x ++ str!"nosqlvalidation" ++ y) ∧ Rejected s.value := by
    intro f hf
    have hq : ∀ t ∈ (env.tokenize (w.content (env.abspath f))).toks, Query t →
        ∃ n, core n = true ∧ firm n = true ∧ calm true n = true ∧ Holds t.value n := hc f hf
    obtain ⟨r, es, h1, h2, -, h3, -⟩ := found_core (fl := ⟨false, false, true, b⟩) (hr f hf) fun t ht hqt =>
      let ⟨n, a1, a2, a3, a4⟩ := hq t ht hqt
      ⟨n, a1, a2, fun _ => a3, a4⟩
    have h4 : (∃ r, found env ⟨false, false, true, b⟩ w.content f = .ok r ∧ r.invalid > 0) ↔ ∃ e ∈ es, e.reports ≠ [] := by
      constructor
      · rintro ⟨r', hr', hpos⟩
        rw [h1] at hr'
        cases hr'
        rw [h3] at hpos
        obtain ⟨x, hx⟩ := List.exists_mem_of_length_pos hpos
        obtain ⟨e, he, hxe⟩ := List.mem_flatMap.1 hx
        exact ⟨e, he, List.ne_nil_of_mem hxe⟩
      · rintro ⟨e, he, hne⟩
        refine ⟨r, h1, ?_⟩
        obtain ⟨x, hx⟩ := List.exists_mem_of_ne_nil _ hne
        rw [h3]
        exact List.length_pos_of_mem (List.mem_flatMap.2 ⟨e, he, hx⟩)
    rw [h4, effects_follow h2 (hr f hf).ends (fun e => e.reports ≠ []) (fun t h => h rfl)]
    constructor
    · rintro ⟨s, n, e, hfo, hqs, -, ha, hne⟩
      obtain ⟨new, q, g1, -, -, g2, g3⟩ := analysed_ok ha
      cases hmk : Str.contains n.value noSqlValidation with
      | true => exact absurd (g2 (by simp [hmk])) hne
      | false =>
        refine ⟨s, n, hfo, hqs, no_marker.1 hmk, ?_⟩
        have hs : s ∈ (env.tokenize (w.content (env.abspath f))).toks := by
          obtain ⟨pre, mid, post, e1, -⟩ := hfo
          rw [e1]
          simp
        obtain ⟨m, -, -, -, hh⟩ := hq s hs hqs
        rw [rejected_iff hh g1]
        rcases report_cases (g3 (by simp [hmk])) with ⟨-, h⟩ | ⟨h, -⟩
        · exact absurd h hne
        · exact h
    · rintro ⟨s, n, hfo, hqs, hmk, hrej⟩
      have hmk' : Str.contains n.value noSqlValidation = false := no_marker.2 hmk
      have hs : s ∈ (env.tokenize (w.content (env.abspath f))).toks := by
        obtain ⟨pre, mid, post, e1, -⟩ := hfo
        rw [e1]
        simp
      obtain ⟨m, b1, b2, b3, hh⟩ := hq s hs hqs
      obtain ⟨e, ha⟩ := analysed_core b1 b2 hh (Str.contains n.value noSqlFormat)
        (true && !Str.contains n.value noSqlValidation) fun _ => b3
      refine ⟨s, n, e, hfo, hqs, .inr (.inr (by simp [hmk'])), ha, ?_⟩
      obtain ⟨new, q, g1, -, -, -, g3⟩ := analysed_ok ha
      rcases report_cases (g3 (by simp [hmk'])) with ⟨h, -⟩ | ⟨-, h⟩
      · rw [(rejected_iff hh g1).1 hrej] at h
        cases h
      · rw [h]
        simp
  constructor
  · rintro (⟨h, -⟩ | ⟨-, f, hf, h⟩)
    · cases h
    · exact ⟨f, hf, (hfile f hf).1 h⟩
  · rintro ⟨f, hf, h⟩
    exact .inr ⟨rfl, f, hf, (hfile f hf).2 h⟩

/-- C63: on readable files whose queries are tidy statements of the core grammar, `--check-format` ends with status 1 exactly
if some query is not laid out and its next comment does not say `nosqlformat`. -/
theorem C63_check_files (env : FileEnv) (srcs : List Path) (w : World)
    (hr : ∀ f ∈ reached env srcs, Readable env w.content f) (hc : ∀ f ∈ reached env srcs, CoreFile env w.content f) :
    (handleInputs env ⟨false, true, false, false⟩ srcs w).1 = 1 ↔
      ∃ f ∈ reached env srcs, ∃ s n, Follows (env.tokenize (w.content (env.abspath f))).toks s n ∧ Query s ∧
        (∀ x y, n.value ≠ x ++ str!"nosqlformat" ++ y) ∧
        ∃ m, core m = true ∧ tidy m = true ∧ Holds s.value m ∧ ¬ Laid s.value m := by
  rw [(C45_exit_status_found env ⟨false, true, false, false⟩ srcs w (.inl rfl))]
  have hfile : ∀ f ∈ reached env srcs, (∃ r, found env ⟨false, true, false, false⟩ w.content f = .ok r ∧ r.changed > 0) ↔
      ∃ s n, Follows (env.tokenize (w.content (env.abspath f))).toks s n ∧ Query s ∧
        (∀ x y, n.value ≠ x ++ str!"nosqlformat" ++ y) ∧
        ∃ m, core m = true ∧ tidy m = true ∧ Holds s.value m ∧ ¬ Laid s.value m := by
    intro f hf
    have hq : ∀ t ∈ (env.tokenize (w.content (env.abspath f))).toks, Query t →
        ∃ n, core n = true ∧ tidy n = true ∧ Holds t.value n := hc f hf
    obtain ⟨r, es, h1, h2, h3, -⟩ := found_core (fl := ⟨false, true, false, false⟩) (hr f hf) fun t ht hqt =>
      let ⟨n, a1, a2, a4⟩ := hq t ht hqt
      ⟨n, a1, tidy_firm n a2, fun h => (by cases h), a4⟩
    have h4 : (∃ r, found env ⟨false, true, false, false⟩ w.content f = .ok r ∧ r.changed > 0) ↔ ∃ e ∈ es, e.changed = true := by
      rw [← List.countP_pos_iff, ← h3]
      constructor
      · rintro ⟨r', hr', hpos⟩
        rw [h1] at hr'
        cases hr'
        exact hpos
      · exact fun h => ⟨r, h1, h⟩
    rw [h4, effects_follow h2 (hr f hf).ends (fun e => e.changed = true) (fun t h => by cases h)]
    constructor
    · rintro ⟨s, n, e, hfo, hqs, -, ha, hch⟩
      obtain ⟨new, q, g1, -, g2, -⟩ := analysed_ok ha
      obtain ⟨hne, hmk⟩ := g2.1 hch
      have hs : s ∈ (env.tokenize (w.content (env.abspath f))).toks := by
        obtain ⟨pre, mid, post, e1, -⟩ := hfo
        rw [e1]
        simp
      obtain ⟨m, b1, b2, hh⟩ := hq s hs hqs
      refine ⟨s, n, hfo, hqs, no_marker.1 hmk, m, b1, b2, hh, fun hl => hne ?_⟩
      obtain ⟨q', g3⟩ := laid_fixed b1 b2 hl
      rw [g3] at g1
      cases g1
      rfl
    · rintro ⟨s, n, hfo, hqs, hmk, m, b1, b2, hh, hl⟩
      have hmk' : Str.contains n.value noSqlFormat = false := no_marker.2 hmk
      obtain ⟨e, ha⟩ := analysed_core b1 (tidy_firm m b2) hh (Str.contains n.value noSqlFormat)
        (false && !Str.contains n.value noSqlValidation) fun h => by cases h
      refine ⟨s, n, e, hfo, hqs, .inr (.inl (by rw [hmk']; rfl)), ha, ?_⟩
      obtain ⟨new, q, g1, -, g2, -⟩ := analysed_ok ha
      refine g2.2 ⟨fun he => hl ?_, hmk'⟩
      obtain ⟨new', q', g3, g4⟩ := holds_formatted b1 b2 hh
      rw [g3] at g1
      cases g1
      rw [← he]
      exact g4
  constructor
  · rintro (⟨-, f, hf, h⟩ | ⟨h, -⟩)
    · exact ⟨f, hf, (hfile f hf).1 h⟩
    · cases h
  · rintro ⟨f, hf, h⟩
    exact .inl ⟨rfl, f, hf, (hfile f hf).2 h⟩

end

/-- Non-vacuity: a literal with a prefix and its statement, with line breaks, a sub-query and a literal in the other
quotes. -/
example : ∃ n, @core asciiEnv n = true ∧ tidy n = true ∧
    @Holds asciiEnv str!"Rb\"select a, count(b) from (select a, b\n\tfrom t) where a = 'x y'\"" n ∧
    @isSelectString asciiEnv str!"Rb\"select a, count(b) from (select a, b\n\tfrom t) where a = 'x y'\"" = true :=
  ⟨.select [.column str!"a", .count [.column str!"b"] false] false false []
      (.paren [.select [.column str!"a", .column str!"b"] false false [] (.table (.column str!"t") false) .none .none .none .none
        .none .none false])
      (.where_ (.cond (.column str!"a") str!"=" (.string str!"x y" str!"'" none))) .none .none .none .none .none false,
    by decide +kernel, by decide +kernel,
    ⟨str!"Rb", '"', 1, str!"select a, count(b) from (select a, b\n\tfrom t) where a = 'x y'", _, by decide, by decide, by decide,
      by decide, by decide, rfl, by decide +kernel⟩, by decide +kernel⟩

/-- Non-vacuity of C63: the files of `demoWorld` are readable, and their queries are firm and calm statements; the second one
is rejected. -/
example : (∀ f ∈ reached demoEnv [str!"d"], Readable demoEnv demoWorld.content f ∧ @CalmFile asciiEnv demoEnv demoWorld.content f) ∧
    (@handleInputs asciiEnv demoEnv ⟨false, false, true, false⟩ [str!"d"] demoWorld).1 = 1 := by
  have hre : reached demoEnv [str!"d"] = [str!"d/a.py", str!"d/c.py"] := by decide +kernel
  refine ⟨fun f hf => ⟨⟨rfl, rfl, ⟨_, rfl, rfl⟩, show 2 ≤ 100 by decide, ⟨_, rfl⟩⟩, ?_⟩, by decide +kernel⟩
  have key : ∀ (v : Str) (n : Node), @core asciiEnv n = true → firm n = true → calm true n = true → @Holds asciiEnv v n →
      ∀ t ∈ [(⟨.string, v, (1, 0), (1, v.length)⟩ : PyTok), ⟨.endmarker, [], (2, 0), (2, 0)⟩], @Query asciiEnv t →
        ∃ n, @core asciiEnv n = true ∧ firm n = true ∧ calm true n = true ∧ @Holds asciiEnv t.value n := by
    intro v n h1 h2 h3 h4 t ht hq
    rcases List.mem_cons.1 ht with rfl | ht
    · exact ⟨n, h1, h2, h3, h4⟩
    · rw [List.mem_singleton.1 ht] at hq
      exact absurd hq.1 (by decide)
  rw [hre] at hf
  rcases List.mem_cons.1 hf with rfl | hf
  · exact key _ (.select [.column str!"a"] false false [] (.table (.column str!"t") false) .none .none .none .none .none .none false)
      (by decide +kernel) (by decide +kernel) (by decide +kernel)
      ⟨[], '\'', 1, str!"select a from t", _, by decide, by decide, by decide, by decide, by decide, rfl, by decide +kernel⟩
  · rw [List.mem_singleton.1 hf]
    exact key _ (.select [.column str!"a"] false false [] .none .none .none .none .none .none .none false)
      (by decide +kernel) (by decide +kernel) (by decide +kernel)
      ⟨[], '\'', 1, str!"SELECT a", _, by decide, by decide, by decide, by decide, by decide, rfl, by decide +kernel⟩

end SqlV
