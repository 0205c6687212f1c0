import Verif.Props.Literals

/-!
# Which files are flagged (C53, for all queries)
-/

set_option linter.unusedSectionVars false

namespace SqlV

section
variable [E : PyEnv] [L : LawfulPyEnv E]

/-- The Python literal `v` has the text `body` between its quotes. -/
def Body (v body : Str) : Prop :=
  ∃ (p : Str) (c : Char) (k : Nat), literalPrefix p ∧ (c = '"' ∨ c = '\'') ∧ (k = 1 ∨ k = 3) ∧ (k = 1 → body.head? ≠ some c) ∧
    v = p ++ List.replicate k c ++ body ++ List.replicate k c

/-- A token that says something. -/
def Tells (n : PyTok) (what : Str) : Prop := ∃ x y, n.value = x ++ what ++ y

/-- The query before the token `n` is analysed. -/
def Looked (fmt val : Bool) (n : PyTok) : Prop :=
  n.kind ≠ .comment ∨ (fmt = true ∧ ¬ Tells n str!"nosqlformat") ∨ (val = true ∧ ¬ Tells n str!"nosqlvalidation")

/-- Analysing the literal raises nothing: its text can be formatted, and, if it is to be validated, `is_valid` returns. -/
def Passes (v : Str) (check : Prop) : Prop :=
  ∃ body, Body v body ∧ (∃ out, formatSql body = .ok out) ∧ (check → ∃ b, (SQLQuery.new body).isValid.1 = .ok b)

/-- `is_valid` says no. -/
def Refused (v : Str) : Prop := ∃ body, Body v body ∧ (SQLQuery.new body).isValid.1 = .ok false

/-- All queries that are looked at pass. -/
def AllPass (fmt val : Bool) (toks : List PyTok) : Prop :=
  ∀ s n, Follows toks s n → Query s → Looked fmt val n → Passes s.value (val = true ∧ ¬ Tells n str!"nosqlvalidation")

theorem effects_ok_iff {fmt val : Bool} {toks : List PyTok} :
    (∃ es, effects fmt val none toks = .ok es) ↔
      ∀ pre t rest, toks = pre ++ t :: rest → ∃ e, effect fmt val none t rest = .ok e := by
  induction toks with
  | nil => exact ⟨fun _ pre t rest h => by simp at h, fun _ => ⟨[], rfl⟩⟩
  | cons t ts ih =>
    constructor
    · rintro ⟨es, h⟩ pre t' rest hs
      obtain ⟨-, hat⟩ := effects_at h
      obtain ⟨e, -, he⟩ := hat pre t' rest hs
      exact ⟨e, he⟩
    · intro h
      obtain ⟨es, hes⟩ := ih.2 fun pre t' rest hs => h (t :: pre) t' rest (by rw [hs]; rfl)
      obtain ⟨e, he⟩ := h [] t ts rfl
      exact ⟨e :: es, by rw [effects, he, hes]⟩

theorem tells_iff (n : PyTok) (m : Str) : Str.contains n.value m = true ↔ Tells n m := Str.contains_iff _ _

theorem looked_iff (fmt val : Bool) (n : PyTok) :
    (n.kind ≠ .comment ∨ (fmt && !Str.contains n.value noSqlFormat) = true ∨ (val && !Str.contains n.value noSqlValidation) = true) ↔
      Looked fmt val n := by
  rw [Looked, ← tells_iff, ← tells_iff]
  simp only [Bool.and_eq_true, Bool.not_eq_true', Bool.not_eq_true]
  rfl

theorem analysed_iff {t : PyTok} (h : ∃ body, Body t.value body) (keep check : Bool) :
    ((∃ e, analysed t keep check = .ok e) ↔ Passes t.value (check = true)) ∧
    ∀ e, analysed t keep check = .ok e → (e.reports ≠ [] ↔ check = true ∧ Refused t.value) := by
  have key : ∀ body, Body t.value body →
      (∀ f, formatSql body = .ok f → ∃ new q, handleSqlString t.value = .ok (new, q) ∧
        q.isValid.1 = (SQLQuery.new body).isValid.1) ∧
      (∀ e, formatSql body = .error e → handleSqlString t.value = .error e) := by
    rintro body ⟨p, c, k, hp, hc, hk, hb, hv⟩
    obtain ⟨h1, h2⟩ := C41_prefix_and_quotes p hp c hc k hk body hb
    rw [hv]
    exact ⟨fun f hf => let ⟨q, a, b, _⟩ := h1 f hf; ⟨_, q, a, b⟩, h2⟩
  have hrep : ∀ q : SQLQuery, (∀ e, q.isValid.1 = .error e → report t.start.1 q = .error e) ∧
      (q.isValid.1 = .ok true → report t.start.1 q = .ok []) ∧
      (q.isValid.1 = .ok false → ∃ x, report t.start.1 q = .ok [x]) := by
    intro q
    rw [report]
    cases q.isValid with
    | mk r q' =>
      refine ⟨?_, ?_, ?_⟩
      · rintro e h
        simp only at h
        subst h
        rfl
      · intro h
        simp only at h
        subst h
        rfl
      · intro h
        simp only at h
        subst h
        exact ⟨_, rfl⟩
  have hnew : ∀ body, Body t.value body → ∀ new q, handleSqlString t.value = .ok (new, q) →
      q.isValid.1 = (SQLQuery.new body).isValid.1 ∧ ∃ f, formatSql body = .ok f := by
    intro body hb new q hh
    cases hf : formatSql body with
    | error e =>
      rw [(key body hb).2 e hf] at hh
      cases hh
    | ok f =>
      obtain ⟨new', q', a, b⟩ := (key body hb).1 f hf
      rw [a] at hh
      cases hh
      exact ⟨b, f, rfl⟩
  constructor
  · constructor
    · rintro ⟨e, he⟩
      obtain ⟨body, hb⟩ := h
      rw [analysed] at he
      cases hh : handleSqlString t.value with
      | error x => rw [hh] at he; cases he
      | ok r =>
        obtain ⟨new, q⟩ := r
        obtain ⟨n1, n2⟩ := hnew body hb new q hh
        refine ⟨body, hb, n2, fun hc => ?_⟩
        rw [← n1]
        cases hq : q.isValid.1 with
        | ok b => exact ⟨b, rfl⟩
        | error x =>
          rw [hh] at he
          simp only [hc, if_true, (hrep q).1 x hq] at he
          cases he
    · rintro ⟨body, hb, ⟨out, ho⟩, hc⟩
      obtain ⟨new, q, a, b⟩ := (key body hb).1 out ho
      rw [analysed, a]
      cases check with
      | false => exact ⟨_, rfl⟩
      | true =>
        obtain ⟨v, hv⟩ := hc rfl
        rw [← b] at hv
        cases v with
        | true => simp only [if_true, (hrep q).2.1 hv]; exact ⟨_, rfl⟩
        | false =>
          obtain ⟨x, hx⟩ := (hrep q).2.2 hv
          simp only [if_true, hx]
          exact ⟨_, rfl⟩
  · intro e he
    rw [analysed] at he
    cases hh : handleSqlString t.value with
    | error x => rw [hh] at he; cases he
    | ok r =>
      obtain ⟨new, q⟩ := r
      rw [hh] at he
      simp only at he
      cases check with
      | false =>
        simp only [Bool.false_eq_true, if_false, Except.ok.injEq] at he
        subst he
        simp
      | true =>
        simp only [if_true, true_and] at he ⊢
        have hno : Refused t.value ↔ q.isValid.1 = .ok false := by
          constructor
          · rintro ⟨body, hb, hv⟩
            rw [(hnew body hb new q hh).1, hv]
          · intro hv
            obtain ⟨body, hb⟩ := h
            exact ⟨body, hb, by rw [← (hnew body hb new q hh).1, hv]⟩
        rw [hno]
        cases hq : q.isValid.1 with
        | error x => rw [(hrep q).1 x hq] at he; cases he
        | ok b =>
          cases b with
          | true =>
            rw [(hrep q).2.1 hq] at he
            cases he
            simp
          | false =>
            obtain ⟨x, hx⟩ := (hrep q).2.2 hq
            rw [hx] at he
            cases he
            simp

/-- The literals of a file that are taken for queries are literals. -/
def Literals (toks : List PyTok) : Prop := ∀ t ∈ toks, Query t → ∃ body, Body t.value body

theorem passes_congr {v : Str} {p q : Prop} (h : p ↔ q) : Passes v p ↔ Passes v q := by rw [Passes, Passes, h]

theorem effects_pass {fmt val : Bool} {toks : List PyTok} (hend : ∃ e, toks.getLast? = some e ∧ e.kind = .endmarker)
    (hlit : Literals toks) : (∃ es, effects fmt val none toks = .ok es) ↔ AllPass fmt val toks := by
  have hcheck : ∀ n : PyTok, (val && !Str.contains n.value noSqlValidation) = true ↔
      (val = true ∧ ¬ Tells n str!"nosqlvalidation") := by
    intro n
    rw [← tells_iff, Bool.and_eq_true, Bool.not_eq_true', Bool.not_eq_true]
    rfl
  rw [effects_ok_iff]
  constructor
  · intro h s n hf hq hl
    obtain ⟨pre, rest, h1, h2⟩ := follows_iff.1 hf
    obtain ⟨e, he⟩ := h pre s rest h1
    rw [effect, if_pos ((query_iff s).2 hq), h2] at he
    simp only [if_pos ((looked_iff fmt val n).2 hl)] at he
    exact (passes_congr (hcheck n)).1 (((analysed_iff (hlit s (by rw [h1]; simp) hq) _ _).1).1 ⟨e, he⟩)
  · intro h pre t rest hs
    cases hq : isQuery t with
    | false => exact ⟨_, effect_other hq fmt val none rest⟩
    | true =>
      have hQ := (query_iff t).1 hq
      obtain ⟨n, hn⟩ := find_of_end (rest := rest) (by
        obtain ⟨x, hx, hk⟩ := hend
        refine ⟨x, ?_, hk⟩
        rw [hs] at hx
        revert hx
        cases rest with
        | nil =>
          intro hx
          rw [List.getLast?_append, List.getLast?_singleton, Option.some_or] at hx
          cases hx
          rw [hQ.1] at hk
          cases hk
        | cons a l =>
          intro hx
          rw [List.getLast?_append, List.getLast?_cons_cons] at hx
          cases hl : (a :: l).getLast? with
          | none => simp at hl
          | some y => rw [hl, Option.some_or] at hx; exact hx)
      rw [effect, if_pos hq, hn]
      simp only
      split
      · rename_i hl
        refine ((analysed_iff (hlit t (by rw [hs]; simp) hQ) _ _).1).2 ((passes_congr (hcheck n)).2 ?_)
        exact h t n (follows_iff.2 ⟨pre, rest, hs, hn⟩) hQ ((looked_iff fmt val n).1 hl)
      · exact ⟨_, rfl⟩

/-- The analysis of a file returns exactly if its effects do. -/
theorem found_effects {env : FileEnv} {fl : Flags} {c : Path → Str} {f : Path} (hr : Readable env c f) (r : Found) :
    found env fl c f = .ok r → ∃ es,
      effects (fl.format || fl.check) (fl.validate || fl.verbose) none (env.tokenize (c (env.abspath f))).toks = .ok es ∧
      r.invalid = (es.flatMap (·.reports)).length := by
  intro h
  rw [found, hr.read] at h
  simp only at h
  cases hc : computeContent env.limit (env.tokenize (c (env.abspath f))) (fl.format || fl.check) (fl.validate || fl.verbose) with
  | error e => rw [hc] at h; cases h
  | ok q =>
    obtain ⟨n, content, inv, locs⟩ := q
    rw [hc] at h
    cases h
    obtain ⟨es, h1, h2, h3, h4, h5⟩ := computeContent_ok hc
    rw [hr.whole] at h1
    exact ⟨es, h1, h3⟩

theorem effects_found {env : FileEnv} {fl : Flags} {c : Path → Str} {f : Path} (hr : Readable env c f) {es : List Effect}
    (hes : effects (fl.format || fl.check) (fl.validate || fl.verbose) none (env.tokenize (c (env.abspath f))).toks = .ok es) :
    ∃ r, found env fl c f = .ok r ∧ r.invalid = (es.flatMap (·.reports)).length := by
  obtain ⟨text, htext⟩ := hr.prints
  have hun : ∃ text', untokenize (es.map (·.tok)) = .ok text' := by
    rw [untokenize, untokenizeFrom_eq] at htext
    rw [untokenize, untokenizeFrom_eq, gapsFrom_congr (forall₂_of_effects hes).1]
    cases hg : gapsFrom {} (env.tokenize (c (env.abspath f))).toks with
    | error e => rw [hg] at htext; cases htext
    | ok gs => exact ⟨_, rfl⟩
  obtain ⟨text', hun⟩ := hun
  refine ⟨⟨es.countP (·.changed), text', (es.flatMap (·.reports)).length, es.flatMap (·.reports)⟩, ?_, rfl⟩
  rw [found, hr.read]
  simp only [computeContent, hr.whole]
  rw [mainLoop_of_effects hr.short hes]
  simp only [bind, Except.bind, hun]
  rfl

/-- C53, exactly: a file is analysed without an exception exactly if all its queries that are looked at can be formatted and, where they
are to be validated, `is_valid` returns. -/
theorem C53_analysed_iff (env : FileEnv) (fl : Flags) (c : Path → Str) (f : Path) (hr : Readable env c f)
    (hlit : Literals (env.tokenize (c (env.abspath f))).toks) :
    (∃ r, found env fl c f = .ok r) ↔
      AllPass (fl.format || fl.check) (fl.validate || fl.verbose) (env.tokenize (c (env.abspath f))).toks := by
  rw [← effects_pass hr.ends hlit]
  constructor
  · rintro ⟨r, h⟩
    obtain ⟨es, h1, -⟩ := found_effects hr r h
    exact ⟨es, h1⟩
  · rintro ⟨es, h⟩
    obtain ⟨r, h1, -⟩ := effects_found hr h
    exact ⟨r, h1⟩

/-- C53, exactly: a file is flagged exactly if all its queries pass, and `is_valid` says no to one of them whose next comment or string
does not say `nosqlvalidation`. -/
theorem C53_flagged_iff (env : FileEnv) (fl : Flags) (c : Path → Str) (f : Path) (hr : Readable env c f)
    (hlit : Literals (env.tokenize (c (env.abspath f))).toks) (hv : (fl.validate || fl.verbose) = true) :
    (∃ r, found env fl c f = .ok r ∧ 0 < r.invalid) ↔
      AllPass (fl.format || fl.check) true (env.tokenize (c (env.abspath f))).toks ∧
      ∃ s n, Follows (env.tokenize (c (env.abspath f))).toks s n ∧ Query s ∧ ¬ Tells n str!"nosqlvalidation" ∧ Refused s.value := by
  have hinv : ∀ es : List Effect, 0 < (es.flatMap (·.reports)).length ↔ ∃ e ∈ es, e.reports ≠ [] := by
    intro es
    rw [List.length_pos_iff, ne_eq, List.flatMap_eq_nil_iff]
    simp
  have key : ∀ es, effects (fl.format || fl.check) true none (env.tokenize (c (env.abspath f))).toks = .ok es →
      ((∃ e ∈ es, e.reports ≠ []) ↔
        ∃ s n, Follows (env.tokenize (c (env.abspath f))).toks s n ∧ Query s ∧ ¬ Tells n str!"nosqlvalidation" ∧ Refused s.value) := by
    intro es hes
    rw [effects_follow hes hr.ends (fun e => e.reports ≠ []) (by simp)]
    constructor
    · rintro ⟨s, n, e, h1, h2, -, h4, h5⟩
      have hmem : s ∈ (env.tokenize (c (env.abspath f))).toks := by
        obtain ⟨pre, rest, h, -⟩ := follows_iff.1 h1
        rw [h]; simp
      obtain ⟨h6, h7⟩ := ((analysed_iff (hlit s hmem h2) _ _).2 e h4).1 h5
      refine ⟨s, n, h1, h2, ?_, h7⟩
      rw [Bool.true_and, Bool.not_eq_true'] at h6
      rw [← tells_iff]
      simp only [Bool.not_eq_true]
      exact h6
    · rintro ⟨s, n, h1, h2, h3, h4⟩
      have hc : (true && !Str.contains n.value noSqlValidation) = true := by
        rw [← tells_iff, Bool.not_eq_true] at h3
        rw [Bool.true_and, Bool.not_eq_true']
        exact h3
      obtain ⟨pre, rest, hs, hn⟩ := follows_iff.1 h1
      obtain ⟨e, he⟩ := effects_ok_iff.1 ⟨es, hes⟩ pre s rest hs
      rw [effect, if_pos ((query_iff s).2 h2), hn] at he
      simp only [hc, or_true, if_true] at he
      refine ⟨s, n, e, h1, h2, .inr (.inr hc), by rw [hc]; exact he, ?_⟩
      exact ((analysed_iff (hlit s (by rw [hs]; simp) h2) _ _).2 e he).2 ⟨rfl, h4⟩
  rw [← effects_pass hr.ends hlit]
  constructor
  · rintro ⟨r, h, hpos⟩
    obtain ⟨es, h1, h2⟩ := found_effects hr r h
    rw [hv] at h1
    exact ⟨⟨es, h1⟩, (key es h1).1 ((hinv es).1 (by rw [← h2]; exact hpos))⟩
  · rintro ⟨⟨es, h1⟩, h2⟩
    obtain ⟨r, h3, h4⟩ := effects_found (fl := fl) hr (by rw [hv]; exact h1)
    exact ⟨r, h3, by rw [h4]; exact (hinv es).2 ((key es h1).2 h2)⟩

/-- C53, exactly, for runs: `--validate` ends with status 1 exactly if one of the files is such. -/
theorem C53_status_iff (env : FileEnv) (srcs : List Path) (w : World) (b : Bool)
    (hr : ∀ f ∈ reached env srcs, Readable env w.content f)
    (hlit : ∀ f ∈ reached env srcs, Literals (env.tokenize (w.content (env.abspath f))).toks) :
    (handleInputs env ⟨false, false, true, b⟩ srcs w).1 = 1 ↔
      ∃ f ∈ reached env srcs, AllPass false true (env.tokenize (w.content (env.abspath f))).toks ∧
        ∃ s n, Follows (env.tokenize (w.content (env.abspath f))).toks s n ∧ Query s ∧ ¬ Tells n str!"nosqlvalidation" ∧
          Refused s.value := by
  rw [C45_exit_status_found env ⟨false, false, true, b⟩ srcs w (.inl rfl)]
  have := fun f hf => C53_flagged_iff env ⟨false, false, true, b⟩ w.content f (hr f hf) (hlit f hf) rfl
  constructor
  · rintro (⟨h, -⟩ | ⟨-, f, hf, h⟩)
    · cases h
    · exact ⟨f, hf, (this f hf).1 h⟩
  · rintro ⟨f, hf, h⟩
    exact .inr ⟨rfl, f, hf, (this f hf).2 h⟩

end

/-! ## Examples -/

/-- Two queries, the first of which is rejected; the text of the second is a parameter. -/
def twoQueries (v : Str) : List PyTok :=
  [⟨.string, str!"'SELECT a'", (1, 0), (1, 10)⟩, ⟨.newline, str!"\n", (1, 10), (1, 11)⟩, ⟨.string, v, (2, 0), (2, v.length)⟩,
   ⟨.endmarker, [], (3, 0), (3, 0)⟩]

/-- Flagged if the second one passes, not flagged if formatting it raises. -/
example :
    let env v : FileEnv := { demoEnv with tokenize := fun _ => ⟨twoQueries v, none⟩ }
    Readable (env str!"'SELECT 1'") demoWorld.content str!"d/a.py" ∧
    @Literals asciiEnv (twoQueries str!"'SELECT 1'") ∧
    (@handleInputs asciiEnv (env str!"'SELECT 1'") ⟨false, false, true, false⟩ [str!"d/a.py"] demoWorld).1 = 1 ∧
    (@handleInputs asciiEnv (env str!"'SELECT a FROM t GROUP a'") ⟨false, false, true, false⟩ [str!"d/a.py"] demoWorld).1 = 0 ∧
    @Refused asciiEnv str!"'SELECT a'" ∧ (∃ e, @formatSql asciiEnv str!"SELECT a FROM t GROUP a" = .error e) := by
  refine ⟨⟨rfl, rfl, ⟨_, rfl, rfl⟩, show 4 ≤ 100 by decide, ⟨_, rfl⟩⟩, ?_, by decide +kernel, by decide +kernel,
    ⟨str!"SELECT a", ⟨[], '\'', 1, by decide, by decide, by decide, by decide, by decide⟩, by decide +kernel⟩, ?_⟩
  · intro t ht hq
    have := hq.1
    simp only [twoQueries, List.mem_cons, List.not_mem_nil, or_false] at ht
    rcases ht with rfl | rfl | rfl | rfl
    · exact ⟨str!"SELECT a", [], '\'', 1, by decide, by decide, by decide, by decide, by decide⟩
    · cases this
    · exact ⟨str!"SELECT 1", [], '\'', 1, by decide, by decide, by decide, by decide, by decide⟩
    · cases this
  · have : (match @formatSql asciiEnv str!"SELECT a FROM t GROUP a" with | .error _ => true | .ok _ => false) = true := by
      decide +kernel
    revert this
    cases @formatSql asciiEnv str!"SELECT a FROM t GROUP a" with
    | error e => exact fun _ => ⟨e, rfl⟩
    | ok _ => intro h; cases h

end SqlV
