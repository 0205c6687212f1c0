import Verif.Query
import Verif.Props.Said
import Verif.Lemmas.ShownWritten

/-!
# The formatter changes nothing but the layout (C75)
-/

namespace SqlV

set_option linter.unusedSectionVars false

open Shown (shown whole Laid Kept)
open Said (written)

section

variable [E : PyEnv] [L : LawfulPyEnv E]

/-- C75: for every whole tree, what the printer returns is the words of the tree, with nothing but blanks between them. -/
theorem C75_layout_only (n : Node) (x : Str) (h : transform n = .ok x) (hw : whole n = true) : Laid (shown n) x :=
  (Shown.shows n hw).t x h

/-- C75: what `format_sql` returns, for every text with a whole tree, and what becomes of the words that the writer chose:
they are tokens of the text and, as they are or in capitals, words of the formatted text, in the same order. -/
theorem C75_format (sql x : Str) (n : Node) (hp : parseSql sql = .ok n) (hf : formatSql sql = .ok x) (hw : whole n = true) :
    Laid (shown n) x ∧ Kept (written n) (shown n) ∧ (written n).Sublist (toTokens sql).toks := by
  unfold formatSql at hf
  rw [hp] at hf
  exact ⟨C75_layout_only n x hf hw, Shown.kept n hw, C74_words_are_tokens _ _ (parse_of_parseSql hp)⟩

end

/-- A statement outside of the core grammar, the words of its tree and what is printed. -/
example : let sql := str!"select f(a)[offset(3)] x, extract(day from b) from (select x from t union all select 'y z' from u)"
    (parseSql (E := asciiEnv) sql).toOption.map (whole ·) = some true ∧
    (parseSql (E := asciiEnv) sql).toOption.map (shown (E := asciiEnv)) =
      some [str!"SELECT", str!"F", str!"(", str!"a", str!")", str!"[", str!"OFFSET", str!"(", str!"3", str!")", str!"]", str!"x",
        str!",", str!"EXTRACT", str!"(", str!"DAY", str!"FROM", str!"b", str!")", str!"FROM", str!"(", str!"SELECT", str!"x",
        str!"FROM", str!"t", str!"UNION ALL", str!"SELECT", str!"'", str!"y z", str!"'", str!"FROM", str!"u", str!")"] ∧
    (formatSql (E := asciiEnv) sql).toOption =
      some str!"SELECT\n F(a)[OFFSET(3)] x,\n EXTRACT(DAY FROM b)\nFROM (\n SELECT x\n FROM t\n UNION ALL\n SELECT 'y z'\n FROM u\n)" := by
  decide +kernel

/-- Without the hypothesis it is false: the LIMIT of the call, the semicolon of the sub-query and the second condition are
not printed. -/
theorem C75_not_all :
    (formatSql (E := asciiEnv) str!"SELECT ARRAY_AGG(x LIMIT 0)").toOption = some str!"SELECT ARRAY_AGG(x)" ∧
    (formatSql (E := asciiEnv) str!"SELECT a FROM (SELECT b FROM t;)").toOption =
      some str!"SELECT a\nFROM (\n SELECT b\n FROM t\n)" ∧
    (formatSql (E := asciiEnv) str!"SELECT a WHERE (CASE WHEN a THEN b END, c)").toOption =
      some str!"SELECT a\nWHERE (\n CASE\n  WHEN a THEN b\n END\n)" := by
  decide +kernel

end SqlV
