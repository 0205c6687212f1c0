import Verif.Lemmas.Pieces
import Verif.Lemmas.Query
import Verif.Lemmas.Stuck

/-!
# Properties of the tokeniser (C01-C06)

`plain .out s` (in `Verif/Spec/Lex.lean`) describes the texts without backslashes outside literals and
without nested quotes.  `to_tokens("")` yields one empty token, so empty texts are excluded throughout.
-/

namespace SqlV

set_option linter.unusedSectionVars false

open Lex

section

variable [E : PyEnv]

/-- C01 for texts without backslashes (however their quotes are placed), for plain texts and for texts without quotes that
are not stuck: the tokens spell the text.  For other texts with backslashes it is false (`C01_not_all`). -/
theorem C01_tokens_spell_text (s : Str) (hs : s ≠ []) (h : '\\' ∉ s ∨ plain .out s ∨ bare s) :
    ∃ toks, toTokens s = ⟨toks, none⟩ ∧ Spells s toks :=
  toTokens_spells hs h recursionLimit (by decide)

/-- Characters other than blanks. -/
def inked (s : Str) : Str := s.filter fun c => !isBlank c

theorem inked_blank {w : Str} (h : Blank w) : inked w = [] := by
  simp only [inked, List.filter_eq_nil_iff]
  intro c hc
  simp [h c hc]

theorem inked_append (a b : Str) : inked (a ++ b) = inked a ++ inked b := by simp [inked]

theorem Lex.Spells.inked {s : Str} {l : List Str} (h : Spells s l) : inked l.flatten = inked s := by
  induction h with
  | done w hw => rw [inked_blank hw]; rfl
  | tok w t s l hw ht _ ih =>
    simp only [List.flatten_cons, inked_append, ih, inked_blank hw, List.nil_append]
  | op w a u b s l hw hu _ _ _ _ ih =>
    simp only [List.flatten_cons, inked_append, ih, inked_blank hw, inked_blank hu, List.nil_append,
      List.append_assoc]

/-- C01: put together, the tokens are the text up to blanks (same domain as
`C01_tokens_spell_text`). -/
theorem C01_no_character_lost (s : Str) (h : '\\' ∉ s ∨ plain .out s ∨ bare s) :
    inked (toTokens s).toks.flatten = inked s := by
  by_cases hs : s = []
  · subst hs; rfl
  obtain ⟨toks, h1, h2⟩ := C01_tokens_spell_text s hs h
  rw [h1]
  exact h2.inked

/-- C02 for texts without backslashes, for plain texts and for texts without quotes that are not stuck: twenty-one levels
of recursion are enough, so no stack is exhausted, and the tokens do not depend on the stack.  Missing for the full
statement: other texts with backslashes, for which it is false (`C02_not_all`). -/
theorem C02_tokenising_finishes_partial (s : Str) (h : '\\' ∉ s ∨ plain .out s ∨ bare s) (depth : Nat)
    (hd : 21 ≤ depth) : (toTokensAt depth s).fail = none := by
  by_cases hs : s = []
  · subst hs
    obtain ⟨n, rfl⟩ : ∃ n, depth = n + 1 := ⟨depth - 1, by omega⟩
    rfl
  · obtain ⟨toks, h1, -⟩ := toTokens_spells hs h depth hd
    rw [h1]

/-- C02: tokenising raises nothing but a `RecursionError`, whatever the text. -/
theorem C02_only_recursion (s : Str) (depth : Nat) :
    (toTokensAt depth s).fail = none ∨ (toTokensAt depth s).fail = some .recursion := by
  rw [toTokensAt, merge_fail _ _ _ (Nat.le_refl _)]
  exact splitTokens_deep depth s

/-- C02 for all texts without quotes: on the stuck ones no depth is enough, on the others twenty-one levels are. -/
theorem C02_without_quotes [L : LawfulPyEnv E] (s : Str) (hq : ∀ c ∈ s, isQuote c = false) :
    if stuck s then ∀ depth, (toTokensAt depth s).fail = some .recursion
    else ∀ depth, 21 ≤ depth → (toTokensAt depth s).fail = none := by
  split
  · rename_i h
    intro depth
    rw [toTokensAt, merge_fail _ _ _ (Nat.le_refl _), splitTokens_stuck depth s hq h]
  · rename_i h
    exact C02_tokenising_finishes_partial s (.inr (.inr ⟨hq, by simpa using h⟩))

/-- C02 is false in general: on `a\,b` no recursion depth is enough. -/
theorem C02_not_all (depth : Nat) : (toTokensAt depth str!"a\\,b").fail = some .recursion := by
  have h : ∀ n, splitTokens n str!"a\\,b" = ⟨[], some .recursion⟩ := by
    intro n
    induction n with
    | zero => rfl
    | succ n ih =>
      have : splitTokens (n + 1) str!"a\\,b" = splitEach (splitTokens n) [str!"a\\,b"] := rfl
      rw [this, splitEach, ih]
      rfl
  rw [toTokensAt, h]
  rfl

/-- What the user sees of a text. -/
structure Outcome where
  format : Except PyErr Str
  valid : Except PyErr Bool
  errors : List Str

/-- Formatting and validating a text. -/
def outcome (s : Str) : Outcome where
  format := formatSql s
  valid := (SQLQuery.new s).isValid.1
  errors := (SQLQuery.new s).isValid.2.errors

/-- The outcome only depends on the parsed statement. -/
theorem outcome_congr {s s' : Str} (h : parseSql s = parseSql s') : outcome s = outcome s' := by
  simp only [outcome, formatSql, h, (isValid_new s).1, (isValid_new s).2, (isValid_new s').1,
    (isValid_new s').2]

/-- C03: texts with the same words and literals, whatever the gaps between them and whatever blanks
around them, have the same outcome.  (Both texts must be non-empty: `C03_empty_differs`.) -/
theorem C03_layout_irrelevant (ps ps' : List Piece) (hsame : SameWords ps ps')
    (hok : ∀ p ∈ ps, p.Ok) (hok' : ∀ p ∈ ps', p.Ok)
    (lead lead' trail trail' : Str) (hl : Blank lead) (hl' : Blank lead') (ht : Blank trail)
    (ht' : Blank trail') (hne : lead ++ text ps ++ trail ≠ []) (hne' : lead' ++ text ps' ++ trail' ≠ []) :
    toTokens (lead ++ text ps ++ trail) = toTokens (lead' ++ text ps' ++ trail') ∧
    outcome (lead ++ text ps ++ trail) = outcome (lead' ++ text ps' ++ trail') := by
  have key : toTokens (lead ++ text ps ++ trail) = toTokens (lead' ++ text ps' ++ trail') := by
    have hp : ∀ (ps : List Piece) (l t : Str), (∀ p ∈ ps, p.Ok) → Blank l → Blank t →
        plain .out (l ++ text ps ++ t) ∧ raw (l ++ text ps ++ t) = raw (text ps ++ t) := by
      intro ps l t hok hl ht
      have h1 : plain .out t := by simpa using plain_gap ht (s := []) rfl
      rw [List.append_assoc]
      refine ⟨plain_gap hl (plain_text hok h1), ?_⟩
      rw [raw, go_gap hl]
      split
      · rfl
      · rw [chunk_nil]; rfl
    obtain ⟨h1, h2⟩ := hp ps lead trail hok hl ht
    obtain ⟨h3, h4⟩ := hp ps' lead' trail' hok' hl' ht'
    have hk := kinds_le (lead ++ text ps ++ trail)
    have hk' := kinds_le (lead' ++ text ps' ++ trail')
    have h5 : raw (text ps ++ trail) = raw (text ps' ++ trail') :=
      go_sameWords hsame hok hok' ht ht' []
    simp only [toTokens, toTokensAt,
      splitTokens_eq recursionLimit _ (by rw [recursionLimit]; omega) hne h1,
      splitTokens_eq recursionLimit _ (by rw [recursionLimit]; omega) hne' h3, h2, h4, h5]
  exact ⟨key, outcome_congr (by rw [parseSql, parseSql, key])⟩

/-- The tokens of a part of a text (nothing for the empty text). -/
def tokensOf (s : Str) : List Str := if s = [] then [] else (toTokens s).toks

theorem tokensOf_text {ps : List Piece} (hok : ∀ p ∈ ps, p.Ok) :
    tokensOf (text ps) = (mergeStream mergeTokens none (raw (text ps))).toks := by
  by_cases h : text ps = []
  · simp [tokensOf, h, raw_nil, mergeStream]
  · have hk := kinds_le (text ps)
    have hp : plain .out (text ps) := by
      simpa using plain_text hok (t := []) rfl
    simp only [tokensOf, h, if_false, toTokens, toTokensAt]
    rw [splitTokens_eq recursionLimit _ (by rw [recursionLimit]; omega) h hp]

/-- C04: a literal without quotes inside, and not ending in a backslash, becomes its opening quote, its
content as one token, and its closing quote; what is around it is tokenised on its own. -/
theorem C04_literals_opaque (ps ps' : List Piece) (hok : ∀ p ∈ ps, p.Ok) (hok' : ∀ p ∈ ps', p.Ok)
    (q : Char) (c : Str) (hq : isQuote q) (hc : ∀ x ∈ c, isQuote x = false)
    (hb : c.getLast? ≠ some '\\') :
    toTokens (text ps ++ (q :: c ++ [q]) ++ text ps') =
      ⟨tokensOf (text ps) ++ [[q]] ++ (if c = [] then [] else [c]) ++ [[q]] ++ tokensOf (text ps'),
       none⟩ := by
  have hl : (Piece.lit q c).Ok := ⟨hq, hc, hb⟩
  have hall : ∀ p ∈ ps ++ .lit q c :: ps', p.Ok := by
    intro p hp
    simp only [List.mem_append, List.mem_cons] at hp
    rcases hp with h | rfl | h
    · exact hok p h
    · exact hl
    · exact hok' p h
  have heq : text ps ++ (q :: c ++ [q]) ++ text ps' = text (ps ++ .lit q c :: ps') := by
    simp [text, Piece.text]
  have hne : text (ps ++ .lit q c :: ps') ≠ [] := by rw [← heq]; simp
  have hk := kinds_le (text (ps ++ .lit q c :: ps'))
  have hp : plain .out (text (ps ++ .lit q c :: ps')) := by
    simpa using plain_text hall (t := []) rfl
  have h1 := (raw_spells (text ps)).nonempty
  have h2 := (raw_spells (text ps')).nonempty
  have htok : tok c = if c = [] then [] else [c] := by cases c <;> simp [tok]
  have h3 : ∀ t ∈ tok c, t ≠ [] := by
    rw [htok]; intro t ht; split at ht <;> simp_all
  rw [heq]
  simp only [toTokens, toTokensAt]
  rw [splitTokens_eq recursionLimit _ (by rw [recursionLimit]; omega) hne hp, raw_around_lit hok hl]
  simp only
  rw [mergeStream_isolate hq _ _ _ (Nat.le_refl _) h1 (by
      intro t ht
      simp only [List.mem_append, List.mem_cons] at ht
      rcases ht with ht | rfl | ht
      · exact h3 t ht
      · simp
      · exact h2 t ht),
    mergeStream_isolate hq _ _ _ (Nat.le_refl _) h3 h2, tokensOf_text hok, tokensOf_text hok', ← htok]
  have : (mergeStream mergeTokens none (tok c)).toks = tok c := by
    rw [htok]
    split
    · rfl
    · rw [mergeStream_one]
  simp [this]

/-- C05: the tokens of a text without quotes that is not stuck are atomic. -/
theorem C05_tokens_atomic (s : Str) (hs : s ≠ []) (hq : ∀ c ∈ s, isQuote c = false) (hb : stuck s = false) :
    ∀ t ∈ (toTokens s).toks, Atomic t := by
  have hk := kinds_le s
  intro t ht
  simp only [toTokens, toTokensAt,
    splitTokens_bare recursionLimit s (by rw [recursionLimit]; omega) hs hq hb] at ht
  rcases mergeStream_mem _ _ (Nat.le_refl _) (raw_spells s).nonempty t ht with h | h
  · exact go_atomic [] s (by simp) hq t h
  · exact .op t h

/-- Atomic tokens are non-empty and without blanks. -/
theorem Lex.Atomic.spec {t : Str} (h : Atomic t) : t ≠ [] ∧ ∀ c ∈ t, isBlank c = false := by
  cases h with
  | punct c h => simp [(isPunct_facts h).2]
  | dot => decide
  | op _ h => revert t; decide
  | number _ h1 _ h2 => exact ⟨by rintro rfl; simp at h1, fun c hc => (h2 c hc).2.1⟩
  | word _ h1 _ h2 => exact ⟨h1, fun c hc => (h2 c hc).2.1⟩

/-- C06: on plain texts, and on texts without quotes that are not stuck, in which no operator start is followed by another one, the tokens are those of
the reference lexer, at every sufficient recursion depth.  Missing for the full statement: texts that
are not plain, and clashing operators; it is false for both (`C06_not_all`, `C06_nested_quotes`). -/
theorem C06_reference_lexer_partial (s : Str) (hs : s ≠ []) (hp : plain .out s ∨ bare s)
    (hc : noClash (raw s)) (depth : Nat) (hd : 21 ≤ depth) :
    toTokensAt depth s = ⟨Lex.tokens s, none⟩ :=
  hp.elim (fun hp => toTokens_eq_tokens hs hp hc depth hd) fun hp => toTokens_bare hs hp hc depth hd

end

/-! ### Concrete cases -/

/-- C01 is false in general: the text `'b\` has one quote, its tokens have two. -/
theorem C01_not_all : ∃ s : Str, s ≠ [] ∧ (@toTokens asciiEnv s).fail = none ∧
    inked (@toTokens asciiEnv s).toks.flatten ≠ inked s :=
  ⟨str!"'b\\", by decide, by decide +kernel, by decide +kernel⟩

/-- The empty text and a blank one differ: `ParsingError` and `StopIteration`. -/
theorem C03_empty_differs : (@toTokens asciiEnv []) ≠ @toTokens asciiEnv str!" " := by decide +kernel

/-- C06 is false when operators clash: `| <=` is cut after `<`. -/
theorem C06_not_all : @toTokens asciiEnv str!"a | <= b" ≠ ⟨@Lex.tokens asciiEnv str!"a | <= b", none⟩ := by
  decide +kernel

/-- C06 and C04 are false when a literal contains a quote of another kind that also occurs before. -/
theorem C06_nested_quotes : @toTokens asciiEnv str!"'x' \"it's\"" ≠
    ⟨@Lex.tokens asciiEnv str!"'x' \"it's\"", none⟩ := by
  decide +kernel

/-- C04 is false for literals with two escaped quotes. -/
theorem C04_two_escapes : @toTokens asciiEnv str!"'a\\'b\\'c'" ≠
    ⟨@Lex.tokens asciiEnv str!"'a\\'b\\'c'", none⟩ := by
  decide +kernel

example : str!"SELECT 'a b', x.y" ≠ [] ∧ '\\' ∉ str!"SELECT 'a b', x.y" := by decide

example : plain .out str!"SELECT r'\\d+', 'it\\'s' FROM t" := by decide +kernel

example : @toTokens asciiEnv str!"SELECT 'a b', x.y<=1.5" =
    ⟨[str!"SELECT", str!"'", str!"a b", str!"'", str!",", str!"x", str!".", str!"y", str!"<=",
      str!"1.5"], none⟩ := by decide +kernel

/-- Texts without quotes: stuck ones, and one that has backslashes and is not. -/
example : stuck str!"SELECT a\\,b" = true ∧ stuck str!"SELECT a,b\\ FROM t" = true ∧ stuck str!"a.b\\" = true ∧
    stuck str!"SELECT \\a,b FROM t\\u \\" = false ∧
    (@toTokens asciiEnv str!"SELECT \\a,b FROM t\\u \\").toks =
      [str!"SELECT", str!"\\a", str!",", str!"b", str!"FROM", str!"t\\u", str!"\\"] := by decide +kernel

/-- Non-trivial pieces that meet the hypotheses of C03 and C04. -/
def demoPieces (gap : Str) : List Piece :=
  [.word str!"SELECT", .gap gap, .word str!"a,", .lit '\'' str!"from  (x", .gap gap, .word str!"FROM"]

example : SameWords (demoPieces str!" ") (demoPieces str!"\n\t ") :=
  .same _ (.gap _ _ (.same _ (.same _ (.gap _ _ (.same _ .nil)))))

theorem demoPieces_ok {gap : Str} (h : gap ≠ []) (hb : Blank gap) : ∀ p ∈ demoPieces gap, p.Ok := by
  intro p hp
  simp only [demoPieces, List.mem_cons, List.not_mem_nil, or_false] at hp
  rcases hp with rfl | rfl | rfl | rfl | rfl | rfl
  · exact (by decide : ∀ c ∈ str!"SELECT", isQuote c = false ∧ isBlank c = false ∧ c ≠ '\\')
  · exact ⟨h, hb⟩
  · exact (by decide : ∀ c ∈ str!"a,", isQuote c = false ∧ isBlank c = false ∧ c ≠ '\\')
  · exact ⟨by decide, by decide, by decide⟩
  · exact ⟨h, hb⟩
  · exact (by decide : ∀ c ∈ str!"FROM", isQuote c = false ∧ isBlank c = false ∧ c ≠ '\\')

example : Blank str!"\n\t " ∧ str!"\n\t " ≠ [] := by
  refine ⟨?_, by decide⟩
  exact (by decide : ∀ c ∈ str!"\n\t ", isBlank c = true)

example : @noClash (@raw asciiEnv str!"SELECT a <= b || c FROM t WHERE d != 1") := by decide +kernel

example : @Lex.tokens asciiEnv str!"a <= b" = [str!"a", str!"<=", str!"b"] := by decide +kernel

end SqlV
