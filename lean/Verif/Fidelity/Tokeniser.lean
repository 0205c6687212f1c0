import Verif.Parser

/-!
# The project's own tests: `tests/unit/test_tokeniser.py`

The tokens of a text, the pieces of a split text, and the tokens up to a word.
Each example is one test function, evaluated by the kernel on the model with `asciiEnv`.  These are tests of the model,
not proofs about it: they show that the model agrees with the expectations its authors wrote down.
-/

namespace SqlV.Fidelity

/-- The result of a parser, without what it has not read. -/
def result {α : Type} : Res (α × Stream) → Option α
  | .ok (a, _) => some a
  | _ => none

/-- `test_split_with_sep_one_element`, line 9 -/
example : splitWithSep str!"a" ',' = [str!"a"] := by
  decide +kernel

/-- `test_split_with_sep_one_sep`, line 13 -/
example : splitWithSep str!"," ',' = [str!","] := by
  decide +kernel

/-- `test_split_with_sep`, line 17 -/
example : splitWithSep str!"a,b" ',' = [str!"a", str!",", str!"b"] := by
  decide +kernel

/-- `test_split_with_escaped_sep`, line 21 -/
example : splitWithSep str!"a,b\\,c" ',' = [str!"a", str!",", str!"b\\,c"] := by
  decide +kernel

/-- `test_function_tokenizer`, line 25 -/
example : @toTokens asciiEnv str!"foo('BAR FOZ')" = ⟨[str!"foo", str!"(", str!"'", str!"BAR FOZ", str!"'",
      str!")"], none⟩ := by
  decide +kernel

/-- `test_semi_colon`, line 30 -/
example : @toTokens asciiEnv str!"select * from t;" = ⟨[str!"select", str!"*", str!"from", str!"t", str!";"],
      none⟩ := by
  decide +kernel

/-- `test_arithmetic`, line 35 -/
example : @toTokens asciiEnv str!"2+3*5/7-5" = ⟨[str!"2", str!"+", str!"3", str!"*", str!"5", str!"/", str!"7",
      str!"-", str!"5"], none⟩ := by
  decide +kernel

/-- `test_floating_point_numbers`, line 40 -/
example : @toTokens asciiEnv str!"5.9998/7-5.34" = ⟨[str!"5.9998", str!"/", str!"7", str!"-", str!"5.34"], none⟩ := by
  decide +kernel

/-- `test_floating_point_numbers_with_column`, line 45 -/
example : @toTokens asciiEnv str!"f * 5.9998" = ⟨[str!"f", str!"*", str!"5.9998"], none⟩ := by
  decide +kernel

/-- `test_parenthesis_arithmetic`, line 50 -/
example : @toTokens asciiEnv str!"(2+3)" = ⟨[str!"(", str!"2", str!"+", str!"3", str!")"], none⟩ := by
  decide +kernel

/-- `test_newlines_and_spaces`, line 55 -/
example : @toTokens asciiEnv str!"  \n  \
      (\n \
      \n \
      2 \n   \
      + \n\
      3)   \n" = ⟨[str!"(", str!"2", str!"+", str!"3", str!")"], none⟩ := by
  decide +kernel

/-- `test_equal_predicate`, line 60 -/
example : @toTokens asciiEnv str!"x=2" = ⟨[str!"x", str!"=", str!"2"], none⟩ := by
  decide +kernel

/-- `test_keep_predicates`, line 65 -/
example : @toTokens asciiEnv str!"x >= 2" = ⟨[str!"x", str!">=", str!"2"], none⟩ := by
  decide +kernel

/-- `test_keep_predicates_no_ending`, line 70 -/
example : @toTokens asciiEnv str!"x >=" = ⟨[str!"x", str!">="], none⟩ := by
  decide +kernel

/-- `test_keep_different_predicate`, line 75 -/
example : @toTokens asciiEnv str!"x<>2" = ⟨[str!"x", str!"<>", str!"2"], none⟩ := by
  decide +kernel

/-- `test_lt`, line 80 -/
example : @toTokens asciiEnv str!"x<3" = ⟨[str!"x", str!"<", str!"3"], none⟩ := by
  decide +kernel

/-- `test_index`, line 85 -/
example : @toTokens asciiEnv str!"x[3]" = ⟨[str!"x", str!"[", str!"3", str!"]"], none⟩ := by
  decide +kernel

/-- `test_chained_columns`, line 90 -/
example : @toTokens asciiEnv str!"x.y.z" = ⟨[str!"x", str!".", str!"y", str!".", str!"z"], none⟩ := by
  decide +kernel

/-- `test_escaped_string`, line 95 -/
example : @toTokens asciiEnv str!"'O\\'Connor'" = ⟨[str!"'", str!"O\\'Connor", str!"'"], none⟩ := by
  decide +kernel

/-- `test_escaped_string_with_keyword`, line 100 -/
example : @toTokens asciiEnv str!"name = 'O\\'Connor'" = ⟨[str!"name", str!"=", str!"'", str!"O\\'Connor",
      str!"'"], none⟩ := by
  decide +kernel

/-- `test_some_string_containing_quote`, line 105 -/
example : @toTokens asciiEnv str!"\"foo'\"" = ⟨[str!"\"", str!"foo'", str!"\""], none⟩ := by
  decide +kernel

/-- `test_another_string_containing_quote`, line 110 -/
example : @toTokens asciiEnv str!"'foo\"'" = ⟨[str!"'", str!"foo\"", str!"'"], none⟩ := by
  decide +kernel

/-- `test_string_containing_many_quotes`, line 115 -/
example : @toTokens asciiEnv str!"\"'f'o'o'\"" = ⟨[str!"\"", str!"'f'o'o'", str!"\""], none⟩ := by
  decide +kernel

/-- `test_string_containing_many_quotes_and_space`, line 120 -/
example : @toTokens asciiEnv str!" \"'f'o'o'\"" = ⟨[str!"\"", str!"'f'o'o'", str!"\""], none⟩ := by
  decide +kernel

/-- `test_keep_tokens_in`, line 125 -/
example : result (@untilNotIn asciiEnv [str!"foo", str!"bar"] none ⟨[str!"foo", str!"bar", str!"baz"], none⟩) =
    some ([str!"foo", str!"bar"], some str!"baz") := by
  decide +kernel

/-- `test_keep_tokens_in_parenthesis`, line 130 -/
example : result (@untilNotIn asciiEnv [str!"foo", str!"bar"] none ⟨[str!"foo", str!"(", str!"no", str!")",
      str!"bar", str!"baz"], none⟩) =
    some ([str!"foo"], some str!"(") := by
  decide +kernel

/-- `test_get_tokens_until`, line 138 -/
example : result (@untilOneOf asciiEnv [str!"bar"] none [] ⟨[str!"foo", str!"bar", str!"baz"], none⟩) =
    some ([str!"foo"], some str!"bar") := by
  decide +kernel

/-- `test_get_tokens_until_empty`, line 143 -/
example : result (@untilOneOf asciiEnv [] none [] ⟨[str!"foo", str!"bar", str!"baz"], none⟩) =
    some ([str!"foo", str!"bar", str!"baz"], none) := by
  decide +kernel

/-- `test_get_tokens_until_with_first`, line 148 -/
example : result (@untilOneOf asciiEnv [str!"bar"] (some str!"fib") [] ⟨[str!"foo", str!"bar", str!"baz"], none⟩) =
    some ([str!"fib", str!"foo"], some str!"bar") := by
  decide +kernel

/-- `test_get_tokens_until_with_keep`, line 156 -/
example : result (@untilOneOf asciiEnv [str!"offset"] none [(str!"with", str!"offset")] ⟨[str!"foo", str!"with",
      str!"offset", str!"offset"], none⟩) =
    some ([str!"foo", str!"with", str!"offset"], some str!"offset") := by
  decide +kernel

/-- `test_get_tokens_until_with_keep_capitalised`, line 164 -/
example : result (@untilOneOf asciiEnv [str!"offset"] none [(str!"with", str!"offset")] ⟨[str!"foo", str!"WITH",
      str!"offset", str!"offset"], none⟩) =
    some ([str!"foo", str!"WITH", str!"offset"], some str!"offset") := by
  decide +kernel

/-- `test_empty_list_get_tokens_until`, line 172 -/
example : result (@untilOneOf asciiEnv [str!"]"] none [] ⟨[str!"]"], none⟩) =
    some ([], some str!"]") := by
  decide +kernel

end SqlV.Fidelity
