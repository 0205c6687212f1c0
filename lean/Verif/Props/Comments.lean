import Verif.Props.Tokens
import Verif.Props.Parsing

/-!
# Comments are read as code (C80)

The tokeniser knows no comments: the marks of a comment are minus signs, slashes and stars, its text is a part of the
statement, and the end of the line ends nothing.
-/

namespace SqlV

set_option linter.unusedSectionVars false

open Lex

section

variable [E : PyEnv]

/-- Congruence of the lexer in what follows a text made of pieces. -/
theorem go_congr_text {ps : List Piece} (hok : ∀ p ∈ ps, p.Ok) {s s' : Str}
    (h : ∀ run, go (.out run) s = go (.out run) s') (run : Str) :
    go (.out run) (text ps ++ s) = go (.out run) (text ps ++ s') := by
  induction ps generalizing run with
  | nil => exact h run
  | cons p ps ih =>
    have ih := ih fun x hx => hok x (by simp [hx])
    have hp := hok p (by simp)
    simp only [text, List.flatMap_cons, List.append_assoc] at ih ⊢
    cases p with
    | word w => exact go_congr_word (fun c hc => (hp c hc).1) ih run
    | lit q c => rw [go_piece_lit hp, go_piece_lit hp, raw, raw, ih]
    | gap w => rw [Piece.text, go_gap hp.2, go_gap hp.2, raw, raw, ih, ih]

theorem plain_quiet {c s : Str} (hc : ∀ x ∈ c, isQuote x = false ∧ x ≠ '\\') (hs : plain .out s) :
    plain .out (c ++ s) := by
  induction c with
  | nil => simpa using hs
  | cons x xs ih =>
    have hx := hc x (by simp)
    simp [plain, hx.1, hx.2, ih fun y hy => hc y (by simp [hy])]

/-- Two rests of a text that the lexer reads alike have the same outcome after the same beginning. -/
theorem outcome_congr_rest {ps : List Piece} (hok : ∀ p ∈ ps, p.Ok) {s s' : Str} (hs : s ≠ []) (hs' : s' ≠ [])
    (hp : plain .out s) (hp' : plain .out s') (h : ∀ run, go (.out run) s = go (.out run) s') :
    toTokens (text ps ++ s) = toTokens (text ps ++ s') ∧ outcome (text ps ++ s) = outcome (text ps ++ s') := by
  have hk := kinds_le (text ps ++ s)
  have hk' := kinds_le (text ps ++ s')
  have key : toTokens (text ps ++ s) = toTokens (text ps ++ s') := by
    simp only [toTokens, toTokensAt,
      splitTokens_eq recursionLimit _ (by rw [recursionLimit]; omega) (by simp [hs]) (plain_text hok hp),
      splitTokens_eq recursionLimit _ (by rw [recursionLimit]; omega) (by simp [hs']) (plain_text hok hp'),
      raw, go_congr_text hok h]
  exact ⟨key, outcome_congr (by rw [parseSql, parseSql, key])⟩

/-- C80: the mark of a comment is two minus signs, or a slash and a star, whatever follows: a comment at the end of the text,
or one with quotes, which open a literal. -/
theorem C80_marks (ps : List Piece) (hok : ∀ p ∈ ps, p.Ok) (r : Str) (hr : plain .out r) :
    toTokens (text ps ++ (str!"--" ++ r)) = toTokens (text ps ++ (str!" - - " ++ r)) ∧
    outcome (text ps ++ (str!"--" ++ r)) = outcome (text ps ++ (str!" - - " ++ r)) ∧
    toTokens (text ps ++ (str!"/*" ++ r)) = toTokens (text ps ++ (str!" / * " ++ r)) ∧
    outcome (text ps ++ (str!"/*" ++ r)) = outcome (text ps ++ (str!" / * " ++ r)) := by
  have h1 := outcome_congr_rest hok (s := str!"--" ++ r) (s' := str!" - - " ++ r) (by simp) (by simp)
    (by simpa [plain, isQuote] using hr) (by simpa [plain, isQuote] using hr)
    fun run => by simp [go, isQuote, isBlank, isPunct, chunk_nil]
  have h2 := outcome_congr_rest hok (s := str!"/*" ++ r) (s' := str!" / * " ++ r) (by simp) (by simp)
    (by simpa [plain, isQuote] using hr) (by simpa [plain, isQuote] using hr)
    fun run => by simp [go, isQuote, isBlank, isPunct, chunk_nil]
  exact ⟨h1.1, h1.2, h2.1, h2.2⟩

/-- C80: a comment from `--` to the end of its line is read as two minus signs followed by the words of the comment and by
the next line.  The comment has no quotes and backslashes; what follows may have literals. -/
theorem C80_line_comment (ps : List Piece) (hok : ∀ p ∈ ps, p.Ok) (c y : Str)
    (hc : ∀ x ∈ c, isQuote x = false ∧ x ≠ '\\') (hy : plain .out y) :
    toTokens (text ps ++ (str!"--" ++ c ++ '\n' :: y)) = toTokens (text ps ++ (str!" - - " ++ c ++ ' ' :: y)) ∧
    outcome (text ps ++ (str!"--" ++ c ++ '\n' :: y)) = outcome (text ps ++ (str!" - - " ++ c ++ ' ' :: y)) := by
  have hend : ∀ run, go (.out run) (c ++ '\n' :: y) = go (.out run) (c ++ ' ' :: y) :=
    go_congr_word (fun x hx => (hc x hx).1) fun run => by simp [go, isQuote, isBlank]
  refine outcome_congr_rest hok (by simp) (by simp) ?_ ?_ fun run => ?_
  · have : plain .out ('\n' :: y) := by simpa [plain, isQuote] using hy
    simpa [plain, isQuote] using plain_quiet hc this
  · have : plain .out (' ' :: y) := by simpa [plain, isQuote] using hy
    simpa [plain, isQuote] using plain_quiet hc this
  · simp [go, isQuote, isBlank, isPunct, chunk_nil, hend]

/-- C80: a comment between `/*` and `*/` is read as a slash and a star, the words of the comment, a star and a slash. -/
theorem C80_block_comment (ps : List Piece) (hok : ∀ p ∈ ps, p.Ok) (c y : Str)
    (hc : ∀ x ∈ c, isQuote x = false ∧ x ≠ '\\') (hy : plain .out y) :
    toTokens (text ps ++ (str!"/*" ++ c ++ (str!"*/" ++ y))) =
      toTokens (text ps ++ (str!" / * " ++ c ++ (str!" * / " ++ y))) ∧
    outcome (text ps ++ (str!"/*" ++ c ++ (str!"*/" ++ y))) =
      outcome (text ps ++ (str!" / * " ++ c ++ (str!" * / " ++ y))) := by
  have hend : ∀ run, go (.out run) (c ++ (str!"*/" ++ y)) = go (.out run) (c ++ (str!" * / " ++ y)) :=
    go_congr_word (fun x hx => (hc x hx).1) fun run => by simp [go, isQuote, isBlank, isPunct, chunk_nil]
  refine outcome_congr_rest hok (by simp) (by simp) ?_ ?_ fun run => ?_
  · have : plain .out (str!"*/" ++ y) := by simpa [plain, isQuote] using hy
    simpa [plain, isQuote] using plain_quiet hc this
  · have : plain .out (str!" * / " ++ y) := by simpa [plain, isQuote] using hy
    simpa [plain, isQuote] using plain_quiet hc this
  · have := hend []
    simp only [List.cons_append, List.nil_append] at this
    simp [go, isQuote, isBlank, isPunct, chunk_nil, this]

/-- C80: a text that begins with a comment, after blanks or not, is not a statement, whatever follows the comment. -/
theorem C80_leading_comment [L : LawfulPyEnv E] (w : Str) (hw : Blank w) (mark : Str)
    (hm : mark = str!"--" ∨ mark = str!"/*") (y : Str) (hy : plain .out y) :
    formatSql (w ++ (mark ++ y)) = .error (.parsing []) ∧ (SQLQuery.new (w ++ (mark ++ y))).isValid.1 = .ok false ∧
      (SQLQuery.new (w ++ (mark ++ y))).isValid.2.errors.length = 1 := by
  have hp : plain .out (w ++ (mark ++ y)) := by
    refine plain_gap hw ?_
    rcases hm with rfl | rfl <;> simpa [plain, isQuote] using hy
  have hne : w ++ (mark ++ y) ≠ [] := by rcases hm with rfl | rfl <;> simp
  have hk := kinds_le (w ++ (mark ++ y))
  have hraw : raw (w ++ (mark ++ y)) = raw (mark ++ y) := by
    rw [raw, go_gap hw]
    split
    · rfl
    · rw [chunk_nil]; rfl
  have htok : ∃ t ts f, toTokens (w ++ (mark ++ y)) = ⟨t :: ts, f⟩ ∧ (t = str!"-" ∨ t = str!"/") := by
    rw [toTokens, toTokensAt, splitTokens_eq recursionLimit _ (by rw [recursionLimit]; omega) hne hp, hraw]
    have key : ∀ (e n : Str) (rest : List Str), startsMerge mergeTokens e = false →
        ∃ ts f, mergeStream mergeTokens none (e :: n :: rest) = ⟨e :: ts, f⟩ := by
      intro e n rest he
      simp [mergeStream, he]
    rcases hm with rfl | rfl
    · obtain ⟨ts, f, h⟩ := key str!"-" str!"-" (raw y) (by decide)
      exact ⟨_, ts, f, h, .inl rfl⟩
    · obtain ⟨ts, f, h⟩ := key str!"/" str!"*" (raw y) (by decide)
      exact ⟨_, ts, f, h, .inr rfl⟩
  obtain ⟨t, ts, f, h, ht⟩ := htok
  have hl : lower t = t := by
    rcases ht with rfl | rfl <;> simp [lower, L.lower_ascii, isAscii]
  exact C08_other_statements_rejected _ t ts f h
    (by rw [hl]; rcases ht with rfl | rfl <;> simp) (by rw [hl]; rcases ht with rfl | rfl <;> simp)

end

/-- Non-vacuity of C80: a statement with a comment in the middle, whose words are formatted. -/
example : text [.word str!"select", .gap str!" ", .word str!"a,", .gap str!" "] ++
      (str!"--" ++ str!" the b" ++ '\n' :: str!"b from t where c = 'd'") =
        str!"select a, -- the b\nb from t where c = 'd'" ∧
    (∀ p ∈ [Piece.word str!"select", .gap str!" ", .word str!"a,", .gap str!" "], p.Ok) ∧
    (∀ x ∈ str!" the b", isQuote x = false ∧ x ≠ '\\') ∧ plain .out str!"b from t where c = 'd'" ∧
    @formatSql asciiEnv str!"select a, -- the b\nb from t where c = 'd'" =
      .ok str!"SELECT\n a,\n - - the b\nFROM t\nWHERE c = 'd'" := by
  refine ⟨rfl, ?_, by decide, by decide, by decide +kernel⟩
  intro p hp
  simp only [List.mem_cons, List.not_mem_nil, or_false] at hp
  rcases hp with rfl | rfl | rfl | rfl <;> simp [Piece.Ok, Blank, isQuote, isBlank]

/-- C80: the clauses that follow a comment can be lost without a message. -/
theorem C80_comment_cuts :
    @formatSql asciiEnv str!"select a from t where b -- hi\n and c group by d" = .ok str!"SELECT a\nFROM t\nWHERE b - -" ∧
    @formatSql asciiEnv str!"select a from t where b /* hi */ and c group by d" = .ok str!"SELECT a\nFROM t\nWHERE b / *" ∧
    @formatSql asciiEnv str!"select a from t where b and c group by d" =
      .ok str!"SELECT a\nFROM t\nWHERE b AND c\nGROUP BY d" := by
  decide +kernel

/-- C80: a comment can make a valid statement invalid. -/
theorem C80_comment_invalid :
    (@SQLQuery.isValid asciiEnv (SQLQuery.new str!"select a from t limit 1 -- rows")).1 = .ok false ∧
    (@SQLQuery.isValid asciiEnv (SQLQuery.new str!"select a from t limit 1 -- rows")).2.errors =
      [str!"argument of LIMIT must not contain variables"] ∧
    (@SQLQuery.isValid asciiEnv (SQLQuery.new str!"select a from t limit 1")).1 = .ok true := by
  decide +kernel

/-- C80: a quote in a comment opens a literal that goes on after the end of the line. -/
theorem C80_comment_quote :
    (@toTokens asciiEnv str!"select a -- don't\nfrom t where b = 'c' and d").toks =
      [str!"select", str!"a", str!"-", str!"-", str!"don", str!"'", str!"t\nfrom t where b = ", str!"'", str!"c", str!"'",
        str!" and d"] ∧
    @formatSql asciiEnv str!"select a -- don't\nfrom t where b = 'c' and d" = .ok str!"SELECT a - - don" := by
  decide +kernel

/-- C80: a comment can raise an error other than a parsing error. -/
theorem C80_comment_raises :
    @formatSql asciiEnv str!"select a from t order by b -- x\n" = .error .attribute ∧
    (@SQLQuery.isValid asciiEnv (SQLQuery.new str!"select a, -- , b\n c from (select a, c from t)")).1 =
      .error .stopIteration := by
  decide +kernel

end SqlV
