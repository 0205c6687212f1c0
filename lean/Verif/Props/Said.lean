import Verif.Lemmas.SaidWritten
import Verif.Props.Tokens
import Mathlib.Data.List.Flatten

/-!
# The parser reads nothing into a text (C74)
-/

namespace SqlV

set_option linter.unusedSectionVars false

open Said (said written unquoted)

section

variable [E : PyEnv] [L : LawfulPyEnv E]

/-- C74: for every token list, the tree the parser returns was said by some of the tokens, in the same order: each name,
literal, operator, keyword, comma and opening bracket of the tree is a token of its own (`said`, Spec/Said). -/
theorem C74_nothing_read_in (s : Stream) (n : Node) (h : parse s = .ok n) : ∃ ws, said n ws ∧ ws.Sublist s.toks :=
  Said.parse_said h

/-- C74: the words of the tree that the writer chose are tokens, in the same order. -/
theorem C74_words_are_tokens (s : Stream) (n : Node) (h : parse s = .ok n) : (written n).Sublist s.toks := by
  obtain ⟨ws, h1, h2⟩ := Said.parse_said h
  exact (Said.has_written n ws h1).trans h2

theorem parse_of_parseSql {sql : Str} {n : Node} (h : parseSql sql = .ok n) : parse (toTokens sql) = .ok n := by
  unfold parseSql at h
  cases hp : parse (toTokens sql) with
  | ok m => rw [hp] at h; cases h; rfl
  | err e => rw [hp] at h; cases h
  | diverge => rw [hp] at h; cases h

/-- C74: the characters of these words, blanks aside, are in the text, in the same order.  The hypothesis is that of
`C01_no_character_lost`; with other backslashes the tokeniser makes up a quote (`C74_invented_quote`). -/
theorem C74_words_are_text (sql : Str) (n : Node) (h : parseSql sql = .ok n)
    (hb : '\\' ∉ sql ∨ Lex.plain .out sql ∨ Lex.bare sql) : (inked (written n).flatten).Sublist sql := by
  have h1 := C74_words_are_tokens _ _ (parse_of_parseSql h)
  have h2 : (inked (written n).flatten).Sublist (inked (toTokens sql).toks.flatten) := by
    unfold inked
    exact h1.flatten.filter _
  rw [C01_no_character_lost sql hb] at h2
  exact h2.trans List.filter_sublist

end

/-- A statement and the words of its tree. -/
example : let sql := str!"SELECT a, f('x y', b.c) AS z FROM (SELECT a FROM t) p JOIN u USING (k) WHERE a IN ('v', \"w\") LIMIT 3"
    (parseSql (E := asciiEnv) sql).toOption.map (written (E := asciiEnv)) =
      some [str!"a", str!"f", str!"x y", str!"b", str!"c", str!"z", str!"a", str!"t", str!"p", str!"u", str!"k", str!"a",
        str!"v", str!"w"] ∧ '\\' ∉ sql := by
  decide +kernel

/-- Opening quotes are left out of `said` because of texts like this: the parser reads the quote before `b` a second time and
`c` as an alias in quotes that are not there. -/
example : (parseSql (E := asciiEnv) str!"SELECT a = r'b' c'").toOption.map (written (E := asciiEnv)) =
    some [str!"a", str!"r", str!"b", str!"c"] := by
  decide +kernel

/-- The hypothesis of `C74_words_are_text` is needed for the tokens: the text has one double quote fewer than they have. -/
theorem C74_invented_quote : (toTokens (E := asciiEnv) str!"SELECT \"a\" 'b\\").toks =
    [str!"SELECT", str!"\"", str!"a", str!"\"", str!"'", str!"b\\\""] := by
  decide +kernel

end SqlV
