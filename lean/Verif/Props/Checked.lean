import Verif.Props.Flagged

/-!
# Which files the check of formatting complains about (C48, for all queries)
-/

set_option linter.unusedSectionVars false

namespace SqlV

section
variable [E : PyEnv] [L : LawfulPyEnv E]

/-- What formatting makes of the Python literal `v`: the formatted text, with the same letters before the same kind of quotes; as many of
them if it is a single line, else three, on lines of its own. -/
def Becomes (v v' : Str) : Prop :=
  ∃ (p : Str) (c : Char) (k : Nat) (body out : Str), literalPrefix p ∧ (c = '"' ∨ c = '\'') ∧ (k = 1 ∨ k = 3) ∧
    (k = 1 → body.head? ≠ some c) ∧ v = p ++ List.replicate k c ++ body ++ List.replicate k c ∧ formatSql body = .ok out ∧
    v' = if '\n' ∈ out then p ++ List.replicate 3 c ++ ['\n'] ++ out ++ ['\n'] ++ List.replicate 3 c
      else p ++ List.replicate k c ++ out ++ List.replicate k c

/-- Formatting changes the literal. -/
def Loose (v : Str) : Prop := ∃ v', Becomes v v' ∧ v' ≠ v

/-- The file has a query that formatting changes, and whose next comment or string does not say `nosqlformat`. -/
def Unformatted (toks : List PyTok) : Prop :=
  ∃ s n, Follows toks s n ∧ Query s ∧ ¬ Tells n str!"nosqlformat" ∧ Loose s.value

theorem becomes_handled {v v' : Str} (h : Becomes v v') : ∃ q, handleSqlString v = .ok (v', q) := by
  obtain ⟨p, c, k, body, out, hp, hc, hk, hb, rfl, ho, rfl⟩ := h
  obtain ⟨q, hq, -⟩ := (C41_prefix_and_quotes p hp c hc k hk body hb).1 out ho
  exact ⟨q, hq⟩

theorem handled_becomes {v new : Str} {q : SQLQuery} (hl : ∃ body, Body v body) (h : handleSqlString v = .ok (new, q)) :
    Becomes v new := by
  obtain ⟨body, p, c, k, hp, hc, hk, hb, rfl⟩ := hl
  obtain ⟨h1, h2⟩ := C41_prefix_and_quotes p hp c hc k hk body hb
  cases ho : formatSql body with
  | error e => rw [h2 e ho] at h; cases h
  | ok out =>
    obtain ⟨q', hq, -⟩ := h1 out ho
    rw [hq] at h
    cases h
    exact ⟨p, c, k, body, out, hp, hc, hk, hb, rfl, ho, rfl⟩

theorem loose_iff {v new : Str} {q : SQLQuery} (hl : ∃ body, Body v body) (h : handleSqlString v = .ok (new, q)) :
    Loose v ↔ new ≠ v := by
  constructor
  · rintro ⟨v', hb, hne⟩
    obtain ⟨q', h'⟩ := becomes_handled hb
    rw [h] at h'
    cases h'
    exact hne
  · exact fun hne => ⟨new, handled_becomes hl h, hne⟩

theorem found_counts {env : FileEnv} {fl : Flags} {c : Path → Str} {f : Path} (hr : Readable env c f) (r : Found)
    (h : found env fl c f = .ok r) : ∃ es,
      effects (fl.format || fl.check) (fl.validate || fl.verbose) none (env.tokenize (c (env.abspath f))).toks = .ok es ∧
      r.changed = es.countP (·.changed) := by
  rw [found, hr.read] at h
  simp only at h
  cases hc : computeContent env.limit (env.tokenize (c (env.abspath f))) (fl.format || fl.check) (fl.validate || fl.verbose) with
  | error e => rw [hc] at h; cases h
  | ok q =>
    obtain ⟨n, content, inv, locs⟩ := q
    rw [hc] at h
    cases h
    obtain ⟨es, h1, h2, -⟩ := computeContent_ok hc
    rw [hr.whole] at h1
    exact ⟨es, h1, h2⟩

/-- C48, exactly: there is something to change in a file exactly if all its queries pass, and formatting changes one of them whose next
comment or string does not say `nosqlformat`. -/
theorem C48_changed_iff (env : FileEnv) (fl : Flags) (c : Path → Str) (f : Path) (hr : Readable env c f)
    (hlit : Literals (env.tokenize (c (env.abspath f))).toks) (hv : (fl.format || fl.check) = true) :
    (∃ r, found env fl c f = .ok r ∧ 0 < r.changed) ↔
      AllPass true (fl.validate || fl.verbose) (env.tokenize (c (env.abspath f))).toks ∧
      Unformatted (env.tokenize (c (env.abspath f))).toks := by
  have key : ∀ es, effects true (fl.validate || fl.verbose) none (env.tokenize (c (env.abspath f))).toks = .ok es →
      ((∃ e ∈ es, e.changed = true) ↔ Unformatted (env.tokenize (c (env.abspath f))).toks) := by
    intro es hes
    rw [effects_follow hes hr.ends (fun e => e.changed = true) (by simp)]
    constructor
    · rintro ⟨s, n, e, h1, h2, -, h4, h5⟩
      have hmem : s ∈ (env.tokenize (c (env.abspath f))).toks := by
        obtain ⟨pre, rest, h, -⟩ := follows_iff.1 h1
        rw [h]; simp
      obtain ⟨new, q, g1, -, g2, -⟩ := analysed_ok h4
      obtain ⟨g3, g4⟩ := g2.1 h5
      refine ⟨s, n, h1, h2, ?_, (loose_iff (hlit s hmem h2) g1).2 g3⟩
      rw [← tells_iff, Bool.not_eq_true]
      exact g4
    · rintro ⟨s, n, h1, h2, h3, h4⟩
      have hc : Str.contains n.value noSqlFormat = false := by
        rw [← tells_iff, Bool.not_eq_true] at h3
        exact h3
      obtain ⟨pre, rest, hs, hn⟩ := follows_iff.1 h1
      obtain ⟨e, he⟩ := effects_ok_iff.1 ⟨es, hes⟩ pre s rest hs
      have hl : n.kind ≠ .comment ∨ (true && !Str.contains n.value noSqlFormat) = true ∨
          ((fl.validate || fl.verbose) && !Str.contains n.value noSqlValidation) = true := .inr (.inl (by rw [hc]; rfl))
      rw [effect, if_pos ((query_iff s).2 h2), hn] at he
      simp only [if_pos hl] at he
      refine ⟨s, n, e, h1, h2, hl, he, ?_⟩
      obtain ⟨new, q, g1, -, g2, -⟩ := analysed_ok he
      exact g2.2 ⟨(loose_iff (hlit s (by rw [hs]; simp) h2) g1).1 h4, hc⟩
  rw [← effects_pass hr.ends hlit]
  constructor
  · rintro ⟨r, h, hpos⟩
    obtain ⟨es, h1, h2⟩ := found_counts hr r h
    rw [hv] at h1
    exact ⟨⟨es, h1⟩, (key es h1).1 (List.countP_pos_iff.1 (by rw [← h2]; exact hpos))⟩
  · rintro ⟨⟨es, h1⟩, h2⟩
    obtain ⟨r, h3, -⟩ := effects_found (fl := fl) hr (by rw [hv]; exact h1)
    obtain ⟨es', h4, h5⟩ := found_counts hr r h3
    rw [hv, h1] at h4
    cases h4
    exact ⟨r, h3, by rw [h5]; exact List.countP_pos_iff.2 ((key es h1).2 h2)⟩

/-- C48, exactly, for runs: `--check-format` ends with status 1 exactly if one of the files is such. -/
theorem C48_status_iff (env : FileEnv) (srcs : List Path) (w : World) (b : Bool)
    (hr : ∀ f ∈ reached env srcs, Readable env w.content f)
    (hlit : ∀ f ∈ reached env srcs, Literals (env.tokenize (w.content (env.abspath f))).toks) :
    (handleInputs env ⟨false, true, false, b⟩ srcs w).1 = 1 ↔
      ∃ f ∈ reached env srcs, AllPass true b (env.tokenize (w.content (env.abspath f))).toks ∧
        Unformatted (env.tokenize (w.content (env.abspath f))).toks := by
  rw [C45_exit_status_found env ⟨false, true, false, b⟩ srcs w (.inl rfl)]
  have := fun f hf => C48_changed_iff env ⟨false, true, false, b⟩ w.content f (hr f hf) (hlit f hf) rfl
  simp only [Bool.false_or] at this
  constructor
  · rintro (⟨-, f, hf, h⟩ | ⟨h, -⟩)
    · exact ⟨f, hf, (this f hf).1 h⟩
    · cases h
  · rintro ⟨f, hf, h⟩
    exact .inl ⟨rfl, f, hf, (this f hf).2 h⟩

/-- C48, exactly: after `--format`, `--check-format` on the same inputs has something to report exactly if one of the files, as it is now,
is such.  (`w'` is what the first run leaves.) -/
theorem C48_iff (env : FileEnv) (srcs : List Path) (w w' : World)
    (hw : (handleInputs env ⟨true, false, false, false⟩ srcs w).2 = w')
    (hr : ∀ f ∈ reached env srcs, Readable env w'.content f)
    (hlit : ∀ f ∈ reached env srcs, Literals (env.tokenize (w'.content (env.abspath f))).toks) :
    (handleInputs env ⟨false, true, false, false⟩ srcs (handleInputs env ⟨true, false, false, false⟩ srcs w).2).1 = 0 ↔
      ∀ f ∈ reached env srcs, AllPass true false (env.tokenize (w'.content (env.abspath f))).toks →
        ¬ Unformatted (env.tokenize (w'.content (env.abspath f))).toks := by
  rw [hw]
  have h := C48_status_iff env srcs w' false hr hlit
  rcases (C45_exit_status env ⟨false, true, false, false⟩ srcs w').1 with h0 | h1
  · refine iff_of_true h0 fun f hf ha hu => ?_
    have := h.2 ⟨f, hf, ha, hu⟩
    omega
  · refine iff_of_false (by omega) fun hc => ?_
    obtain ⟨f, hf, ha, hu⟩ := h.1 h1
    exact hc f hf ha hu

end

/-! ## Examples -/

/-- A query that is formatted, and one that is not; the run says so. -/
example :
    @Becomes asciiEnv str!"'SELECT 1'" str!"'SELECT 1'" ∧ @Loose asciiEnv str!"'select  1'" ∧
    (let env : FileEnv := { demoEnv with tokenize := fun _ => ⟨twoQueries str!"'select  1'", none⟩ }
     (@handleInputs asciiEnv env ⟨false, true, false, false⟩ [str!"d/a.py"] demoWorld).1 = 1) ∧
    (let env : FileEnv := { demoEnv with tokenize := fun _ => ⟨twoQueries str!"'SELECT 1'", none⟩ }
     (@handleInputs asciiEnv env ⟨false, true, false, false⟩ [str!"d/a.py"] demoWorld).1 = 0) :=
  ⟨⟨[], '\'', 1, str!"SELECT 1", str!"SELECT 1", by decide, by decide, by decide, by decide, by decide, by decide +kernel, by decide⟩,
    ⟨str!"'SELECT 1'", ⟨[], '\'', 1, str!"select  1", str!"SELECT 1", by decide, by decide, by decide, by decide, by decide,
      by decide +kernel, by decide⟩, by decide⟩,
    by decide +kernel, by decide +kernel⟩

end SqlV
