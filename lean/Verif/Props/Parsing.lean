import Verif.Lemmas.Fuel
import Verif.Lemmas.Query
import Verif.Lemmas.NodeEq

/-! Termination of the parser, and what the first token decides. -/

set_option linter.unusedSectionVars false

namespace SqlV

variable [E : PyEnv]

/-! ### C07 -/

theorem parseAt_term {n : Nat} {s : Stream} (h : 3 * s.toks.length < n) : parseAt n s ≠ .diverge := by
  have := (good_parsers n).stmt s h
  unfold Term at this
  unfold parseAt
  cases hr : (parsers n).stmt s with
  | ok x => simp
  | err e => simp
  | diverge => rw [hr] at this; exact this.elim

theorem parseAt_mono {m n : Nat} (h : m ≤ n) (s : Stream) :
    parseAt m s = .diverge ∨ parseAt m s = parseAt n s := by
  unfold parseAt
  rcases (parsers_le h).stmt.run s with h | h
  · exact .inl (by rw [h])
  · exact .inr (by rw [h])

/-- C07: recursion (and looping) to a depth of three times the number of tokens plus one is enough for every
token sequence, whether or not the tokeniser raises at its end; more depth changes nothing. -/
theorem C07_parsing_finishes (s : Stream) (n : Nat) (h : 3 * s.toks.length < n) :
    parseAt n s ≠ .diverge ∧ parseAt n s = parse s := by
  refine ⟨parseAt_term h, ?_⟩
  have h1 : parse s ≠ .diverge := parseAt_term (by unfold parseFuel; omega)
  unfold parse at *
  rcases Nat.le_total n (parseFuel s) with h2 | h2
  · rcases parseAt_mono h2 s with h3 | h3
    · exact absurd h3 (parseAt_term h)
    · exact h3
  · rcases parseAt_mono h2 s with h3 | h3
    · exact absurd h3 h1
    · exact h3.symm

/-- C07: parsing yields a statement or an exception. -/
theorem C07_statement_or_exception (s : Stream) : (∃ n, parse s = .ok n) ∨ ∃ e, parse s = .err e := by
  have h := (C07_parsing_finishes s (3 * s.toks.length + 1) (by omega))
  rw [← h.2]
  cases hr : parseAt (3 * s.toks.length + 1) s with
  | ok n => exact .inl ⟨n, rfl⟩
  | err e => exact .inr ⟨e, rfl⟩
  | diverge => exact absurd hr h.1

/-- Depth that does not suffice is noticed, it never changes the outcome. -/
theorem C07_too_little_depth (s : Stream) (n : Nat) :
    parseAt n s = .diverge ∨ parseAt n s = parse s := by
  rcases parseAt_mono (Nat.le_max_left n (3 * s.toks.length + 1)) s with h | h
  · exact .inl h
  · rw [(C07_parsing_finishes s (max n (3 * s.toks.length + 1)) (by omega)).2] at h
    exact .inr h

/-- Non-vacuity of C07: some depth is really needed. -/
example : @parseAt asciiEnv 5 ⟨[str!"SELECT", str!"(", str!"(", str!"1", str!")", str!")"], none⟩ = .diverge ∧
    @parse asciiEnv ⟨[str!"SELECT", str!"(", str!"(", str!"1", str!")", str!")"], none⟩ =
      .ok (.select [.paren [.paren [.int 1]]] false false [] .none .none .none .none .none .none .none false) := by
  decide +kernel

/-! ### C08 -/

/-- C08: a text whose first token is neither SELECT nor WITH is rejected. -/
theorem C08_other_statements_rejected (sql : Str) (t : Str) (ts : List Str) (f : Option PyErr)
    (htok : toTokens sql = ⟨t :: ts, f⟩) (h1 : lower t ≠ str!"select") (h2 : lower t ≠ str!"with") :
    formatSql sql = .error (.parsing []) ∧ (SQLQuery.new sql).isValid.1 = .ok false ∧
      (SQLQuery.new sql).isValid.2.errors.length = 1 := by
  have hp : parseSql sql = .error (.parsing []) := by
    unfold parseSql
    have : parse (toTokens sql) = .err (.parsing []) := by
      rw [htok]
      simp only [parse, parseFuel, parseAt, parsers, Rec.next, stmtF]
      simp only [bind, P.bind, next!, if_neg h1, if_neg h2]
      rfl
    rw [this]
  refine ⟨?_, ?_, ?_⟩
  · rw [formatSql, hp]; rfl
  · rw [(isValid_new sql).1, verdict.eq_def, hp]
  · rw [(isValid_new sql).2, verdict.eq_def, hp]; rfl

/-- Non-vacuity of C08. -/
example : @toTokens asciiEnv str!"INSERT INTO t" = ⟨[str!"INSERT", str!"INTO", str!"t"], none⟩ := by
  decide +kernel

/-! ### C09 -/

/-- Every normal result satisfies `Q`. -/
def Yields (p : P α) (Q : α → Prop) : Prop := ∀ s a s', p s = .ok (a, s') → Q a

theorem Yields.bind {p : P α} {f : α → P β} {Q : β → Prop} (h : ∀ a, Yields (f a) Q) :
    Yields (p >>= f) Q := by
  intro s b s' hb
  change P.bind p f s = _ at hb
  unfold P.bind at hb
  cases hp : p s with
  | ok x => rw [hp] at hb; exact h _ _ _ _ hb
  | err e => rw [hp] at hb; cases hb
  | diverge => rw [hp] at hb; cases hb

theorem Yields.pure {a : α} {Q : α → Prop} (h : Q a) : Yields (Pure.pure a : P α) Q := by
  rintro s b s' ⟨⟩
  exact h

theorem selectF_yields (r : Rec) : Yields (selectF r) fun n => n.isSelect = true := by
  unfold selectF
  repeat' first
    | (refine Yields.bind ?_; rintro ⟨_, _⟩; dsimp only)
    | (refine Yields.bind ?_; intro _)
    | exact Yields.pure rfl

/-- The parser is one more level of `Rec.next`. -/
theorem parse_succ (s : Stream) : ∃ n, parse s = parseAt (n + 2) s := ⟨8 * s.toks.length + 14, rfl⟩

/-- What the first token decides. -/
theorem parse_kind {t : Str} {ts : List Str} {f : Option PyErr} {n : Node}
    (h : parse ⟨t :: ts, f⟩ = .ok n) :
    (lower t = str!"select" ∧ n.isSelect = true) ∨
    (lower t = str!"with" ∧ ∃ qs s, n = .withStmt qs s) := by
  obtain ⟨k, hk⟩ := parse_succ ⟨t :: ts, f⟩
  rw [hk] at h
  simp only [parseAt] at h
  rw [show (parsers (k + 2)).stmt = stmtF (parsers (k + 1)) from rfl] at h
  simp only [stmtF, bind, P.bind, next!] at h
  by_cases h1 : lower t = str!"select"
  · simp only [if_pos h1] at h
    refine .inl ⟨h1, ?_⟩
    rw [show (parsers (k + 1)).select = selectF (parsers k) from rfl] at h
    cases hs : selectF (parsers k) ⟨ts, f⟩ with
    | ok x =>
      rw [hs] at h
      cases h
      exact selectF_yields _ _ _ _ hs
    | err e => rw [hs] at h; cases h
    | diverge => rw [hs] at h; cases h
  · simp only [if_neg h1] at h
    by_cases h2 : lower t = str!"with"
    · simp only [if_pos h2] at h
      refine .inr ⟨h2, ?_⟩
      change (match ((parsers (k + 1)).withLoop [] >>= fun qs => (parsers (k + 1)).select >>= fun s =>
        (pure (Node.withStmt qs s) : P Node)) ⟨ts, f⟩ with
        | .ok (e, _) => Res.ok e | .err e => .err e | .diverge => .diverge) = _ at h
      have hy : Yields ((parsers (k + 1)).withLoop [] >>= fun qs => (parsers (k + 1)).select >>= fun s =>
          (pure (Node.withStmt qs s) : P Node)) fun n => ∃ qs s, n = .withStmt qs s :=
        Yields.bind fun qs => Yields.bind fun s => Yields.pure ⟨qs, s, rfl⟩
      cases hw : ((parsers (k + 1)).withLoop [] >>= fun qs => (parsers (k + 1)).select >>= fun s =>
          (pure (Node.withStmt qs s) : P Node)) ⟨ts, f⟩ with
      | ok x => rw [hw] at h; cases h; exact hy _ _ _ hw
      | err e => rw [hw] at h; cases h
      | diverge => rw [hw] at h; cases h
    · simp only [if_neg h2] at h
      cases h

/-- Every text returned satisfies `Q`. -/
def Gives (x : Except PyErr α) (Q : α → Prop) : Prop := ∀ b, x = .ok b → Q b

theorem Gives.bind {x : Except PyErr α} {f : α → Except PyErr β} {Q : β → Prop}
    (h : ∀ a, x = .ok a → Gives (f a) Q) : Gives (x >>= f) Q := by
  intro b hb
  cases x with
  | error e => cases hb
  | ok a => exact h a rfl b hb

theorem Gives.ok {a : α} {Q : α → Prop} (h : Q a) : Gives (.ok a) Q := by
  rintro b ⟨⟩
  exact h

/-- The text of a statement begins with its first keyword. -/
theorem selectBody_starts (es : List R) (all d : Bool) (on : List R) (f w g h o l off : R) :
    Gives (selectBody es all d on f w g h o l off) fun x => str!"SELECT" <+: x := by
  unfold selectBody
  have rest : ∀ (head : Str), str!"SELECT" <+: head → Gives (do
      let es ← match es with
        | [e] => do
          let x ← e.t
          pure (' ' :: x)
        | es => do
          let xs ← mapR R.t es
          pure (str!"\n " ++ Str.join str!",\n " (xs.map indentNL))
      let f ← if f.truthy then do
          let x ← f.fromPos
          pure (str!"\nFROM " ++ x)
        else pure []
      let w ← optClause str!"\nWHERE" w
      let g ← optClause (str!"\nGROUP " ++ (if g.each then str!"EACH " else []) ++ str!"BY") g
      let h ← optClause str!"\nHAVING" h
      let o ← optClause str!"\nORDER BY" o
      let l ← optClause str!"\nLIMIT " l
      let off ← optClause str!"\nOFFSET " off
      return head ++ es ++ f ++ w ++ g ++ h ++ o ++ l ++ off : RStr) fun x => str!"SELECT" <+: x := by
    intro head hh
    have fin : ∀ es : Str, Gives (do
        let f ← if f.truthy then do
            let x ← f.fromPos
            pure (str!"\nFROM " ++ x)
          else pure []
        let w ← optClause str!"\nWHERE" w
        let g ← optClause (str!"\nGROUP " ++ (if g.each then str!"EACH " else []) ++ str!"BY") g
        let h ← optClause str!"\nHAVING" h
        let o ← optClause str!"\nORDER BY" o
        let l ← optClause str!"\nLIMIT " l
        let off ← optClause str!"\nOFFSET " off
        return head ++ es ++ f ++ w ++ g ++ h ++ o ++ l ++ off : RStr) fun x => str!"SELECT" <+: x := by
      intro es
      have fin2 : ∀ f : Str, Gives (do
          let w ← optClause str!"\nWHERE" w
          let g ← optClause (str!"\nGROUP " ++ (if g.each then str!"EACH " else []) ++ str!"BY") g
          let h ← optClause str!"\nHAVING" h
          let o ← optClause str!"\nORDER BY" o
          let l ← optClause str!"\nLIMIT " l
          let off ← optClause str!"\nOFFSET " off
          return head ++ es ++ f ++ w ++ g ++ h ++ o ++ l ++ off : RStr) fun x => str!"SELECT" <+: x := by
        intro f
        refine Gives.bind fun _ _ => Gives.bind fun _ _ => Gives.bind fun _ _ => Gives.bind fun _ _ =>
          Gives.bind fun _ _ => Gives.bind fun _ _ => Gives.ok ?_
        simp only [List.append_assoc]
        exact hh.trans (List.prefix_append ..)
      dsimp only
      split
      · exact Gives.bind fun _ _ => fin2 _
      · exact fin2 _
    dsimp only
    split
    · exact Gives.bind fun _ _ => fin _
    · exact Gives.bind fun _ _ => fin _
  dsimp only
  split
  · exact rest _ ⟨_, rfl⟩
  · split
    · split
      · exact rest _ ⟨_, rfl⟩
      · exact Gives.bind fun _ _ => rest _ ⟨_, rfl⟩
    · exact rest _ ⟨_, rfl⟩

theorem select_starts {n : Node} (h : n.isSelect = true) : Gives (transform n) fun x => str!"SELECT" <+: x := by
  cases n <;> try cases h
  rename_i es all d on f w g hv ob l off semi
  simp only [transform, render, R.select, R.ofTransform]
  refine Gives.bind fun b hb => Gives.ok ?_
  have := selectBody_starts _ _ _ _ _ _ _ _ _ _ _ b hb
  split
  · exact this.trans (List.prefix_append ..)
  · exact this

theorem with_starts (qs : List Node) (s : Node) :
    Gives (transform (.withStmt qs s)) fun x => str!"WITH " <+: x := by
  simp only [transform, render, R.ofTransform]
  refine Gives.bind fun _ _ => Gives.bind fun _ _ => Gives.ok ?_
  exact ⟨_, rfl⟩

/-- A text that parses has a first token. -/
theorem parse_first {s : Stream} {n : Node} (h : parse s = .ok n) : ∃ t ts f, s = ⟨t :: ts, f⟩ := by
  obtain ⟨toks, f⟩ := s
  cases toks with
  | cons t ts => exact ⟨t, ts, f, rfl⟩
  | nil =>
    obtain ⟨k, hk⟩ := parse_succ ⟨[], f⟩
    rw [hk] at h
    simp only [parseAt] at h
    rw [show (parsers (k + 2)).stmt = stmtF (parsers (k + 1)) from rfl] at h
    cases f <;> cases h

/-- C09: whatever `format_sql` returns begins with the keyword that the input begins with; there is no
other case (see `C08_other_statements_rejected`). -/
theorem C09_starts_with_keyword (sql out : Str) (h : formatSql sql = .ok out) :
    ∃ t ts f, toTokens sql = ⟨t :: ts, f⟩ ∧
      ((lower t = str!"select" ∧ str!"SELECT" <+: out) ∨ (lower t = str!"with" ∧ str!"WITH " <+: out)) := by
  unfold formatSql parseSql at h
  cases hp : parse (toTokens sql) with
  | err e => rw [hp] at h; cases h
  | diverge => rw [hp] at h; cases h
  | ok n =>
    rw [hp] at h
    obtain ⟨t, ts, f, hs⟩ := parse_first hp
    refine ⟨t, ts, f, hs, ?_⟩
    rw [hs] at hp
    rcases parse_kind hp with ⟨h1, h2⟩ | ⟨h1, qs, s, rfl⟩
    · exact .inl ⟨h1, select_starts h2 _ h⟩
    · exact .inr ⟨h1, with_starts _ _ _ h⟩

/-- Non-vacuity of C09, both kinds. -/
example : (@formatSql asciiEnv str!"select 1").toOption = some str!"SELECT 1" ∧
    (@formatSql asciiEnv str!"wIth q as (select 1) select a from q").toOption =
      some str!"WITH q AS (\n SELECT 1\n)\nSELECT a\nFROM q" := by
  decide +kernel

end SqlV
