import Verif.Lemmas.CoreLetters
import Verif.Props.Core
import Verif.Props.Tokens

/-!
# Formatting of the core grammar (C11, C14, C15)

`Reads (toks n) ts` (in `Verif/Spec/Core.lean`) says that the tokens `ts` are a way to write the statement `n`;
`layout n` (in `Verif/Spec/Layout.lean`) is its documented layout.
-/

set_option linter.unusedSectionVars false

namespace SqlV

open Core

section

variable [E : PyEnv] [L : LawfulPyEnv E]

/-! ### C11 -/

/-- C11: however a statement of the core grammar is written, the formatted text is its layout.  `tidy` leaves out
parenthesised lists in conditions, which the printer breaks (`C11_not_untidy`), and columns with one of the thirteen
names that are printed in capitals (`C60_column_names`). -/
theorem C11_layout (n : Node) (hc : core n = true) (ht : tidy n = true) (sql : Str) (ts : List Str)
    (hs : toTokens sql = ⟨ts, none⟩) (hr : Reads (toks n) ts) : formatSql sql = .ok (layout n) := by
  obtain ⟨n', h, rfl⟩ := C10_parser_inverts_grammar_text n hc sql ts hs hr
  rw [formatSql, h]
  exact transform_core hc ht

/-! ### C14 -/

/-- C14: two texts with the same statement of the core grammar, whatever the letter case of keywords, operators and
function names and whatever leading zeros of numbers, are formatted alike. -/
theorem C14_case_irrelevant (n : Node) (hc : core n = true) (sql sql' : Str) (ts ts' : List Str)
    (hs : toTokens sql = ⟨ts, none⟩) (hs' : toTokens sql' = ⟨ts', none⟩) (hr : Reads (toks n) ts) (hr' : Reads (toks n) ts') :
    formatSql sql = formatSql sql' := by
  obtain ⟨a, ha, ha'⟩ := C10_parser_inverts_grammar_text n hc sql ts hs hr
  obtain ⟨b, hb, hb'⟩ := C10_parser_inverts_grammar_text n hc sql' ts' hs' hr'
  have hw : wf n = true := by
    simp only [core, Bool.and_eq_true] at hc
    replace hc := hc.1
    exact hc.1
  rw [formatSql, formatSql, ha, hb]
  show transform a = transform b
  rw [transform_fold (n := a) (by rw [ha']; exact hw), transform_fold (n := b) (by rw [hb']; exact hw), ha', hb']

/-! ### C15 -/

/-- C15: what follows the semicolon of a statement of the core grammar changes nothing, not even if it cannot be
tokenised. -/
theorem C15_after_semicolon (n : Node) (hc : core n = true) (he : ended n = true) (ts : List Str) (hr : Reads (toks n) ts)
    (sql sql' : Str) (rest rest' : List Str) (f f' : Option PyErr)
    (hs : toTokens sql = ⟨ts ++ rest, f⟩) (hs' : toTokens sql' = ⟨ts ++ rest', f'⟩) :
    outcome sql = outcome sql' := by
  obtain ⟨n', -, h⟩ := parse_core hc hr
  refine outcome_congr ?_
  rw [parseSql, parseSql, hs, hs', h rest f (by rw [he]; rintro ⟨⟩), h rest' f' (by rw [he]; rintro ⟨⟩)]

end

/-! ### Concrete cases -/

/-- Non-vacuity of C11 and C14 (with `demo` of `Verif/Props/Core.lean`). -/
example : @core asciiEnv demo = true ∧ tidy demo = true ∧ (@toTokens asciiEnv demoSql).fail = none ∧
    Reads (toks demo) (@toTokens asciiEnv demoSql).toks ∧
    Reads (toks demo) (@toTokens asciiEnv (demoSql.map Char.toLower)).toks := by
  decide +kernel

/-- The layout of `demo`. -/
example : layout demo = str!"SELECT DISTINCT\n a,\n COUNT(t.b) + 1 AS n\nFROM t\nLEFT JOIN (\n SELECT c\n FROM u\n" ++
    str!" WHERE NOT x\n) v\nON a = 'it' AND b IN (1, 2)\nWHERE\n CASE\n  WHEN a THEN 1\n  ELSE 2\n END BETWEEN 1 AND 3\n" ++
    str!"GROUP BY\n a,\n b\nHAVING F(a) > 0\nORDER BY\n a DESC,\n b\nLIMIT 10\nOFFSET 5;" := by
  decide +kernel

example : tidy demo2 = true ∧ layout demo2 = str!"SELECT\n * EXCEPT (\n  a,\n  b\n ) REPLACE (a + 1 AS a),\n" ++
    str!" ARRAY_AGG(DISTINCT x IGNORE NULLS ORDER BY y DESC LIMIT 3) FILTER (WHERE z) p,\n SUM(x) OVER (\n" ++
    str!"  PARTITION BY\n   a,\n   b\n  ORDER BY c\n  ROWS BETWEEN 1 PRECEDING AND CURRENT ROW\n ),\n [1, 2],\n" ++
    str!" a[F(0)].b | 1,\n EXTRACT(YEAR FROM d)\nFROM [t]" := by
  decide +kernel

example : tidy demo3 = true ∧ layout demo3 = str!"SELECT\n 1.5 * a,\n F(x)[0][1],\n (a + 1)[0],\n [1, 2.25][a],\n R'x['\n" ++
    str!"FROM t\nWHERE F(x)[0] > 0.5" := by
  decide +kernel

example : tidy demo8 = true ∧
    layout demo8 = str!"SELECT c AS 'the c'\nFROM (\n SELECT b AS c\n FROM s AS \"u\"\n)" := by
  decide +kernel

example : tidy demo6 = true ∧ layout demo6 = str!"SELECT b\nFROM (\n WITH p AS (\n  SELECT b\n  FROM s\n )\n SELECT b\n FROM p\n) t" := by
  decide +kernel

example : tidy demo4 = true ∧ layout demo4 = str!"SELECT x\nFROM (\n SELECT a\n FROM s\n)\nUNION ALL\nSELECT DISTINCT b\n" ++
    str!"FROM t, UNNEST(b) AS u WITH OFFSET AS i\nEXCEPT v\nWHERE x IN UNNEST([1, 2])" := by
  decide +kernel

/-- A condition with a parenthesised list of two elements, too long for one line. -/
def untidy : Node :=
  .select [.column str!"a"] false false [] (.table (.column str!"t") false)
    (.where_ (.boolc str!"and"
      (.cond (.column str!"a234567890123456789012345678901234567890") str!"="
        (.column str!"b234567890123456789012345678901234567890"))
      (.paren [.column str!"c", .column str!"d"])))
    .none .none .none .none .none false

/-- C11 is false without `tidy`: the second element of a parenthesised list is lost. -/
theorem C11_not_untidy : @core asciiEnv untidy = true ∧ tidy untidy = false ∧
    @transform asciiEnv untidy = .ok (str!"SELECT a\nFROM t\nWHERE\n a234567890123456789012345678901234567890 = " ++
      str!"b234567890123456789012345678901234567890\n AND (c)") := by
  decide +kernel

/-- Non-vacuity of C15: `demo` ends in a semicolon. -/
example : @core asciiEnv demo = true ∧ ended demo = true ∧ Reads (toks demo) (@toTokens asciiEnv demoSql).toks ∧
    (@toTokens asciiEnv (demoSql ++ str!" nonsense")).toks = (@toTokens asciiEnv demoSql).toks ++ [str!"nonsense"] := by
  decide +kernel

end SqlV
