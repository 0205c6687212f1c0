# A Lean model of sqlvalidator

The model is a Lake project in `lean/`.  It covers all of the Python code under `/repo/sqlvalidator` (3305 lines)
with the exceptions listed under "What is not modelled".  The properties are in `properties.jsonl`, the theorems that
settle each of them in `MANIFEST.json`, and the experiments with wrong programs in `seeded/LOG.jsonl`.

## Layers

The project has four layers.  A module only imports modules of its own layer and of the layers above it.

### 1. The model (`Verif/*.lean`)

| module | models | lines of the source |
|---|---|---|
| `Py` | Python strings as `List Char`; `split`, `replace`, `strip`, `splitlines`, `join`; exceptions as values | – |
| `Tree` | the classes of `grammar/sql.py` as one inductive type `Node`, one constructor per class | sql.py, the `class` and `__init__` lines |
| `Env` | `PyEnv`, the interpreter facts the code relies on | `lower` of tokeniser.py 24-25 |
| `Tokeniser` | `grammar/tokeniser.py` | 1-190, whole file |
| `Parser` | `grammar/lexer.py` | 1-977, whole file |
| `Repr` | every `__repr__` of `grammar/sql.py`, and `repr` of `str` and `list` | sql.py |
| `Transform` | every `transform` and `__str__` of `grammar/sql.py` | sql.py |
| `Validate` | every `validate`, `return_type`, `resolve_return_type`, `known_fields` of `grammar/sql.py` | sql.py |
| `Query` | `sql_formatter.py`, `sql_validator.py` | 1-6 and 1-38, whole files |
| `Equal` | `sql.py` | the `__eq__` methods |
| `Files` | `file_handler.py`, `main.py`, and `tokenize.untokenize` of CPython 3.11 (`Lib/tokenize.py` 167-223) | 1-430 and 1-62 |
| `Args` | the parser that `main.py` sets up, after `Lib/argparse.py` of CPython 3.11 | main.py 8-57 |

Every definition carries a comment with the file and lines it stands for.  The functions are mirrored one by one: the
names, the order of the tests and the order of the side effects are those of the source.  That includes its slips,
such as the stop word `respects` of ARRAY_AGG beside the test for `respect`.

### 2. Descriptions that do not mention the model (`Verif/Spec`)

| module | describes |
|---|---|
| `Lex` | a one-pass reference lexer |
| `Quotes` | how any text is cut at its quotes |
| `CommandLine` | what the words of a command line say; which command lines start a run |
| `Repr` | what a Python string literal stands for; the templates of the representations |
| `Spell` | when a list of tokens spells a text; texts that differ in layout only |
| `Scan` | sequences balanced in parentheses, brackets and CASE … END |
| `Core` | the core grammar: `toks` (how a tree is written), `Reads` (the ways to write it), `wf`/`core` (where parts may stand), `fold` (letter case) |
| `Layout` | the layout of formatted text with blocks of lines; `tidy`; `canon` |
| `Calm` | statements on which validation raises nothing |
| `Sound` | what can be wrong with a query over tables |
| `Scope` | the columns a FROM clause offers, and what can be wrong with any query |
| `Report` | the messages about any query, in order, or the exception |
| `Equal` | what `==` on trees does not compare |
| `Names` | names that are printed in capitals |
| `Words` | what `SELECT w`, `SELECT a t b`, `SELECT c FROM a t b` and calls of this shape mean, for every token |
| `Said` | the word lists that say a tree; the words of a tree that the writer chose |
| `Shown` | the words by which a tree is printed, texts that consist of given words, trees of which the printer forgets nothing |
| `Printable` | of which trees the printer makes a text, and the trees for which it raises no `TypeError` |
| `Verdict` | for every tree, whether validation raises and whether it reports anything; the columns that a tree offers |
| `Built` | the grammar of the trees that the parser builds; the exceptions it raises |
| `Notes` | the lists of messages for any tree; what a message is about |
| `Fields` | which names a sub-query exports, types of expressions, positions |
| `Calls` | call sequences on a query object |
| `PyFile` | Python files as tokens and gaps |
| `Run` | the files reached from a list of inputs, the result for each |

### 3. Lemmas (`Verif/Termination.lean`, `Verif/Lemmas`)

* `Fuel`, `Termination`: the parsers are monotone in their recursion depth, and three times the number of tokens is
  enough.  The depth is invisible in all later statements.
* `Split`, `Tokenise`, `Merge`, `Pieces`: the tokeniser computes the reference lexer.
* `Scan`, `Tame`, `Reads`, `Ev`, `Core*`: the parser on the core grammar, from atoms to statements.
* `Doc`, `CoreSolid`, `CoreRender`, `CorePrint*`, `CoreLetters`: the printer produces the layout.
* `DocLex`, `OneKind`, `CoreLex*`, `CoreLast`, `CoreLits`: the layout is read back as the same tokens.
* `Prints`: the printer raises nothing.
* `Validate`, `Types`, `Columns`, `Exports`, `Order`, `Calm*`, `CoreValid`: validation.
* `Stuck`, `Quotes`: texts that are split for ever; the tokens of all others.
* `Query`, `Files`, `Effects`, `Untok`, `Literal`, `Run`, `RunFacts`: query objects, files, runs.
* `Repr`: of which objects there is a representation.
* `Args`, `CommandLine`: words of the command line, and the loops of argparse.

### 4. Properties (`Verif/Props`)

`Tokens` C01-C06, `Parsing` C07-C09, `Core` C10 and C16, `Layout` C11, C14 and C15, `RoundTrip` C12, C13, C15, C17
and C19, `Raising` C18, C34 and C64, `Columns` C20-C25 and C33, `Clauses` C26-C32 and C35, `Exact` C33 and C35, `Query` C36 and C55, `PyFiles`
C37-C41, C48 and C53, `Runs` C42-C47, C49-C52 and C54, `Scan` C56 and C57, `Texts` C58-C61, `Messages` C62, `Literals` C48 and C63, `Tables` C65,
`Scope` C66, `Report` C67, `Equal` C68, `Words` C69 to C73, `Said` C74, `Shown` C75, `Printable` C76, `Verdict` C77, `Built` C78, `Notes` C79, `Comments` C80, `Quotes` C81, `CommandLine` C82, `Repr` C83, `Touched` C84, `Formatted` C85, `Reported` C86, `Flagged` C53, `Ambiguous` C23 to C25, `Checked` C48.  Each theorem is followed by an `example`
that meets its hypotheses with a non-trivial case.

## Conventions

* A Python `str` is a `List Char`.  Lean's `Char` excludes lone surrogates, which Python strings may contain.
* An exception is a value of `PyErr`, one constructor per class.  Messages are kept only for `ParsingError`.
* `Res α` is `ok`, `err` or `diverge`.  `diverge` means that the depth given to the parser was too small.
  `parse` uses a sufficient depth, and `C07` shows that it never diverges.
* A generator is a `Stream`: the tokens it will yield and the exception it ends with, if any.
* Methods of trees are computed bottom-up into tables (`R` for printing, `V` for validating), because a method only
  looks at the methods and the classes of the children.
* Mutable state is threaded: the three attributes of a query object, the file system and output of a run (`World`).
* Sets are lists without duplicates.  The only place where their order is observable asks `PyEnv.setOrder`.

### The interpreter (`PyEnv`)

Facts of CPython that the repository uses but does not define are the fields of a class: `str.lower`, `str.upper` and
`str.isdigit` (all of Unicode), `int()`, `str(float())`, `str.isprintable` for single characters beyond ASCII (asked by `repr`), the
iteration order of sets.  Theorems hold for every `PyEnv`, or for every
`PyEnv` with `LawfulPyEnv`: agreement with the ASCII tables on ASCII text, `int()` on at most 4300 decimal digits,
`setOrder` a permutation.  `asciiEnv` is one lawful instance; it is used for examples and counterexamples.

### The operating system (`FileEnv`)

`os.path.abspath`, `isdir`, `isfile`, `os.walk`, `os.path.join`, reading and writing with their failures, and
`tokenize.generate_tokens` are parameters.  Runs are proved correct for all of them.  `limit` bounds the nesting of
`handle_string_token`, the only function of `file_handler.py` that recurses.

## The core grammar

`core n` holds of the trees of

* SELECT [ALL | DISTINCT | DISTINCT ON (…)], aliases with and without AS (after AS also literals), FROM, WHERE, GROUP [EACH] BY [ROLLUP],
  HAVING, ORDER BY [ASC | DESC], LIMIT [ALL], OFFSET, semicolon; WITH, also in the parentheses of FROM
  and of another WITH
* FROM: tables (names, dotted paths, quoted, in brackets), sub-queries, parentheses, aliases, 11 kinds of joins
  with ON or USING or neither (everything up to the first ON or USING is the right side, so `a JOIN b JOIN c ON x` joins `a` to
  `b JOIN c`), CROSS JOIN and comma, UNNEST with its alias and WITH OFFSET [[AS] name], and the set operators
  UNION, INTERSECT and EXCEPT, with or without ALL, whose right side is a source or a bare SELECT [DISTINCT] … FROM …
* expressions: columns, dotted paths, integers, decimals (also negative ones) that `str(float())` leaves alone, strings (with backslashes, and one
  escaped quote), raw strings (as an element of a list), NULL, TRUE, FALSE, calls (of functions named
  OFFSET, LEFT and RIGHT only as arguments and elements of parentheses and brackets, as in `a[OFFSET(0)]`; of TIMESTAMP_TRUNC not in
  arguments), COUNT [DISTINCT], CAST, ARRAY_AGG
  with DISTINCT, IGNORE NULLS, ORDER BY and LIMIT, FILTER (WHERE …), OVER with PARTITION BY, ORDER BY and frames,
  parentheses, arrays, indices (of columns, calls, parentheses, arrays and indices), sub-queries, CASE, arithmetic, NOT, 13 predicates, BETWEEN, bitwise operators, AND,
  OR, parts of dates, `*` with EXCEPT and REPLACE

of any depth and width.  `wf` gives the conditions.  They are of three kinds: precedence (`level`), words that are not
names (`reserved`), and places where the parser goes wrong (a sub-query in an expression must not have commas
outside parentheses; a literal must not consist of a clause keyword; a quote of another kind may stand in a literal only if all
literals of the statement have the same kind; THEN must not contain AND or OR; …).
`Reads (toks n) ts` says that `ts` is a way to write `n`: keywords in any letter case, numbers with leading zeros.

`tidy` (used by C11-C13, C15, C17, C19) leaves out parenthesised lists of several elements that are a whole condition
or an operand of AND and OR, because the printer loses their elements, and columns with one of the thirteen names that are
printed in capitals (C60).  `firm` (C34, C64) leaves out empty parentheses as
operands of AND and OR and as bounds of BETWEEN, because the printer may raise on them.  `calm` (C34) leaves out CAST, LIMIT ALL, empty
parentheses, sub-queries where a type is needed, names in GROUP BY that may be ambiguous, and positions in ORDER BY of
a window, because validation raises on them.

## What is not modelled

* argparse beyond the parser that `main.py` sets up, the text of the help and the version, and the wording of usage errors.
* Printing itself.  A run emits events (`Event`), one per `print` call; `Event.text` gives the line that is printed.
  The text of an exception (`str(e)`) is a parameter of `Event.text`.
* `tokenize.generate_tokens` and the file system: parameters, see above.
* Python's stack limit inside the parser and the printer.  Deeply nested statements raise `RecursionError` in Python;
  the model parses them.  The limit is modelled in the tokeniser (where the recursion is unbounded, C02) and in
  `handle_string_token`.
* Memory and time.
* Floating point: `str(float(s))` is a function of `PyEnv`.
* Python versions other than 3.11 where they differ: `tokenize` of f-strings from 3.12 on.
* Type annotations, `__hash__` of the classes of `sql.py` (`__eq__`, used by the
  repository's tests only, is `pyEq`; `_FieldInfo.__eq__` and `__hash__` are structural equality of `Field`).

## How the properties are proved

* C01-C06: strong induction over the kinds of separators left to split at, then comparison with the reference lexer.
* C07: a measure on the tokens left and the rank of the parser.
* C08, C09: case analysis of the statement parser and of the two statement printers.
* C10-C17, C19: induction over trees of the core grammar: the parser inverts `toks`, the printer produces `layout`,
  the lexer reads `layout` back as `toks` in canonical spelling.
* C18, C34: the same, and lists of texts for which the property fails, evaluated by the kernel.
* C20-C35: `validate` over all trees; induction over trees where needed; witnesses where the code violates the property.
* C36, C55: a query object as a state machine; induction over call sequences.
* C37-C41: `compute_file_content` over arbitrary token streams; induction over the stream.
* C42-C54: `handle_inputs` over an abstract file system; induction over inputs and files.
* C56, C57: induction over token lists.
* C58-C61: `validate` gives the same result for a parsed tree and its folded form (`validate_fold`), then C10 and C12.
* C62: the printed lines as texts; decimal numbers are injective.
* C63: each query of such a file is analysed like its text alone (C41, C34, C64, C11), then C45.
* C64: induction over trees: each method of the printer that is called returns.
* C65: induction over trees: with nothing known about columns, each `validate` method returns an empty list exactly if its
  node is `sound`; the files follow with C63.
* C66: induction over trees: `known_fields` has the members of `offers`; each `validate` method returns an empty list exactly if
  its node `fits` the known columns.  Texts of expressions, which are compared with names of columns, come from C11.
* C67: the same induction with an equation: each `validate` method returns what `report` says about its node.
* C68: induction over the first tree, with all forms of the second.
* C69 to C73: case analysis of the token.  The tables of words in `Spec/Words` and `Spec/Core` are written out there and not
  shared with the parser.
* C74: for every parser function, what it returns is said by the words it was given ahead, followed by the tokens it took
  (`Lemmas/SaidAll`, by induction on the fuel with one rule per construct of the parser monad).
* C75: induction on the tree, for every method a caller may use.
* C76: induction on the tree, for the five ways in which a text is asked for; necessary and sufficient conditions at once.
* C77: induction on the tree for the three signatures of `validate`, with C76 for the objects that are printed by it; necessary and
  sufficient conditions at once.
* C78: a rule for parsers (results satisfy a predicate, exceptions are of a kind) carried through all of them, by induction on the
  depth of recursion; TypeErrors by counting WITH in C74.
* C79: induction on the tree, three times: the messages are in the set, the set has one element, its messages are about parts of
  the tree; parts of a tree are said by some of the words that say it (C74).
* C80: the reference lexer reads both texts alike from every run, hence after every text made of pieces.
* C81: three levels of cutting at quotes, then C06 for texts without quotes.  A piece has at most one quote of the kind at which it was
  cut, which is escaped, and cutting at another kind leaves that so; hence what still has quotes after three levels is cut for ever.
* C82: each word is classified as the description says; the two loops of argparse then come down to one scan of the words.
* C83: induction over trees for the exceptions, over strings for the literals.
* C84: C82 for the command line, C51 for the file system, C37 for each file.
* C85: C82, C43, C37, and C41 and C11 for each literal; induction over the tokens.
* C86: the same with C67 for each literal, and the facts about runs behind C42-C47.

Properties that the code violates are kept at full strength in `properties.jsonl`.  Their negation is proved with a
concrete witness (`…_not_all` and similar names), and a theorem with suffix `_partial` covers the largest domain that was found.

## What was found

The proofs uncovered these defects of the code.  Each is a theorem about the model.

* A backslash in front of a punctuation character outside a literal, or at the end of a word that has one, makes the
  tokeniser recurse without end (`C02_not_all`, `C02_without_quotes`).
* Adjacent operators are merged wrongly (`a | <= b`), quotes inside literals of another kind are not opaque
  (`C06_not_all`, `C06_nested_quotes`).
* Comments are read as code; the clauses after one may be lost (`C80_comment_cuts`).
* A parenthesised list in a condition that is broken over lines loses its elements (`C11_not_untidy`).
* A literal with line breaks is changed by formatting, and again by formatting the result (`C13_not_all`, `C17_not_all`);
  `format_sql` raises ValueError on `SELECT 'a', "it's" FROM t` (`C17_quotes`).
* Text disappears when formatting: after NOT LIKE, after a second `||`, after an index, after UNION without FROM, after
  `r'…'`, and more (`C18_not_all`); everything after a semicolon (`C15_after_semicolon`).
* A name after an unknown token is forgotten: `SELECT a x b`, `EXTRACT(years FROM b)` (`C70_forgets`, `C70_call`).
* After a raw literal the opening quote is read again: `SELECT a = r'b' c'` is accepted, with the alias `'c'` (`Props/Said`).
* `ARRAY_AGG(x LIMIT 0)` is printed without LIMIT, `WHERE (CASE … END, c)` without `c` (`C75_not_all`).
* `format_sql` raises on `ORDER BY a AND b`, `GROUP BY a AND b, c`, `THEN b OR c`, `DISTINCT ON (a x)`, `LIMIT 1, 2`, `EXCEPT ()`
  and on WITH inside of WITH (`C76_cases`).
* The verdict of `is_valid` may depend on the iteration order of a set (`C20_two_types_depend_on_order`).
* An alias of a sub-query, a qualified column and a column called like a keyword are not exported
  (`C23_not_all`, `C23_qualified_not_exported`, `C24_not_all`); the columns of a star are not found in a join
  (`C25_star_side_rejected`).
* Positions after the first in a parenthesis are not checked (`C28_only_first_in_parentheses`).
* LIMIT ALL, CAST, empty parentheses, `ORDER BY a NULLS FIRST`, `LIMIT 3, 4`, positions in a window raise in
  validation (`C30_not_all`, `C34_not_all`).
* Errors in the sides of a join are not reported (`C33_not_all`, `C33_sides_of_joins`).
* Every plain column selected from UNNEST, from a set operation or without FROM is reported as not found
  (`C61_unknown_columns`).
* Formatting can change the verdict, because some column names are printed in capitals (`C59_not_all`).
* With `--format --validate`, the invalid queries of a file that cannot be written are not counted, and the run ends with
  status 0 (`C45_unwritable_not_counted`).
* GROUP BY does not know aliases with AS (`C35_not_all`, `C35_iff`).
* After `is_valid` has raised once, the next call says that the query is valid (`C36_not_all`).
* Tabs between the tokens of a Python file are lost when a query in it is formatted (`C37_tab_counterexample`; `C37_gaps_exact` says what is printed
  in place of any text between tokens).
* `SELECT 1 + SELECT 'x'` is found valid, and formatted as `SELECT 1 + <SelectStatement:` and so on, the representation of a Python
  object (`C83_not_sql`).
* Inputs on both sides of a flag, as in `a.py --format b.py`, are refused (`C82_split_inputs`).
* A second run may reformat what the first has formatted (`C48_not_all`).
* A file is truncated before it is written (`C51_not_all`).
* A query that cannot be parsed is not reported by `--validate` (`C53_unparsable_not_flagged`).

## The project's tests

`Verif/Fidelity/` replays the tests of the project on the model: 164 tests of formatting, 76 of validation, 63 of the
parsers, 32 of the tokeniser, 11 of file processing and 2 of `transform`.  Each is an `example` that the kernel
evaluates.  They are no proofs of properties; they check that the model behaves as the authors of the code expect.
Left out is one test, which mocks a function.

## Wrong programs

The theorems were tested by editing one definition of the model at a time in a copy of the project, and building the
copy.  `seeded/LOG.jsonl` has one line per edit: the definition, the edit, the claim it breaks, the theorems that
failed, and the theorems that were tightened because of it.  Edits that no theorem noticed led to additions to the
core grammar or to new theorems; edits that do not change the behaviour are marked as such.

## Trusted base

* Lean's kernel (4.33.0).  Mathlib is used for a few lemmas on lists and for tactics; what it proves is checked by the
  same kernel.
* The axioms `propext` (P), `Classical.choice` (C) and `Quot.sound` (Q), as listed below.  There are no further
  axioms, no `sorry`, no `native_decide`, no `bv_decide`.  Finite tables and witnesses are evaluated with `decide` or
  `decide +kernel`, that is, by the kernel.
* The reading of the Python code that the comments of the model document, and of CPython's `tokenize.untokenize` and `argparse`.
* The assumptions in `PyEnv`, `LawfulPyEnv` and `FileEnv`.

| property | theorem | axioms |
|---|---|---|
| C01 | `C01_tokens_spell_text` | P, C, Q |
| C01 | `C01_no_character_lost` | P, C, Q |
| C01 | `C01_not_all` | P |
| C02 | `C02_tokenising_finishes_partial` | P, C, Q |
| C02 | `C02_only_recursion` | P, C, Q |
| C02 | `C02_without_quotes` | P, C, Q |
| C02 | `C02_not_all` | P |
| C03 | `C03_layout_irrelevant` | P, C, Q |
| C03 | `C03_empty_differs` | P |
| C04 | `C04_literals_opaque` | P, C, Q |
| C04 | `C04_two_escapes` | P |
| C05 | `C05_tokens_atomic` | P, C, Q |
| C06 | `C06_reference_lexer_partial` | P, C, Q |
| C06 | `C06_not_all` | P |
| C06 | `C06_nested_quotes` | P |
| C07 | `C07_parsing_finishes` | P, C, Q |
| C07 | `C07_statement_or_exception` | P, C, Q |
| C07 | `C07_too_little_depth` | P, C, Q |
| C08 | `C08_other_statements_rejected` | P, Q |
| C09 | `C09_starts_with_keyword` | P |
| C10 | `C10_parser_inverts_grammar` | P, C, Q |
| C10 | `C10_parser_inverts_grammar_text` | P, C, Q |
| C10 | `C10_unambiguous` | P, C, Q |
| C11 | `C11_layout` | P, C, Q |
| C11 | `C11_not_untidy` | P |
| C12 | `C12_tokens_preserved` | P, C, Q |
| C13 | `C13_idempotent` | P, C, Q |
| C13 | `C13_layout_fixed` | P, C, Q |
| C13 | `C13_not_all` | P |
| C14 | `C14_case_irrelevant` | P, C, Q |
| C15 | `C15_after_semicolon` | P, C, Q |
| C15 | `C15_semicolon_kept` | P, C, Q |
| C16 | `C16_group_without_by` | P, C, Q |
| C16 | `C16_order_without_by` | P, C, Q |
| C17 | `C17_literals_kept_partial` | P, C, Q |
| C17 | `C17_literals_in_place_partial` | P, C, Q |
| C17 | `C17_not_all` | P, Q |
| C17 | `C17_quotes` | P |
| C18 | `C18_nothing_dropped_partial` | P, C, Q |
| C18 | `C18_not_all` | P, Q |
| C19 | `C19_integers_keep_value` | P, C, Q |
| C19 | `C19_integers_in_place` | P, C, Q |
| C20 | `C20_order_irrelevant` | P, C, Q |
| C20 | `C20_two_types_depend_on_order` | P |
| C21 | `C21_tables_accept_columns` | P, C, Q |
| C22 | `C22_columns_need_from` | P, Q |
| C22 | `C22_text_not_valid` | P, Q |
| C23 | `C23_outer_columns_exported_partial` | P, C, Q |
| C23 | `C23_missing_column_reported_partial` | P, C, Q |
| C23 | `C23_iff` | P, C, Q |
| C23 | `C23_not_all` | P |
| C23 | `C23_qualified_not_exported` | P |
| C24 | `C24_qualified_columns_partial` | P, C, Q |
| C24 | `C24_qualified_columns_printed` | P, C, Q |
| C24 | `C24_join_iff` | P, C, Q |
| C24 | `C24_not_all` | P |
| C25 | `C25_ambiguous_reported_partial` | P, C, Q |
| C25 | `C25_unambiguous_accepted_partial` | P, C, Q |
| C25 | `C25_missing_reported_partial` | P, C, Q |
| C25 | `C25_iff` | P, C, Q |
| C25 | `C25_valid_exports` | P, C, Q |
| C25 | `C25_star_side_rejected` | P |
| C26 | `C26_where_errors` | P, C, Q |
| C26 | `C26_having_errors` | P, C, Q |
| C26 | `C26_where_valid` | P, C, Q |
| C26 | `C26_having_valid` | P, C, Q |
| C27 | `C27_operand_errors` | P, C, Q |
| C27 | `C27_between_bounds` | P, Q |
| C27 | `C27_operand_reported` | P, C, Q |
| C28 | `C28_group_by_positions` | P, C, Q |
| C28 | `C28_only_first_in_parentheses` | P |
| C29 | `C29_order_by_positions` | P, C, Q |
| C29 | `C29_only_first_in_parentheses` | P |
| C30 | `C30_limit_valid` | P, Q |
| C30 | `C30_limit_messages_partial` | P, Q |
| C30 | `C30_limit_nested_partial` | P, Q |
| C30 | `C30_not_all` | P |
| C31 | `C31_offset_valid` | P, Q |
| C31 | `C31_offset_messages_partial` | P, Q |
| C31 | `C31_offset_nested_partial` | P, Q |
| C31 | `C31_not_all` | P |
| C32 | `C32_join_condition` | P |
| C32 | `C32_join_condition_reported` | P, Q |
| C33 | `C33_inner_errors_surface_partial` | P, Q |
| C33 | `C33_invalid_inside_invalid_partial` | P, Q |
| C33 | `C33_sides_of_joins` | P, Q |
| C33 | `C33_not_all` | P |
| C34 | `C34_core_never_raises_partial` | P, C, Q |
| C34 | `C34_not_all` | P |
| C35 | `C35_group_by_alias_partial` | P, Q |
| C35 | `C35_exact` | P, C, Q |
| C35 | `C35_iff` | P, C, Q |
| C35 | `C35_not_all` | P |
| C36 | `C36_stable_partial` | P, Q |
| C36 | `C36_exact` | P, Q |
| C36 | `C36_iff` | P, Q |
| C36 | `C36_not_all` | P |
| C37 | `C37_only_queries_change` | P, Q |
| C37 | `C37_text_between_tokens_partial` | P, C, Q |
| C37 | `C37_gaps_exact` | P, C, Q |
| C37 | `C37_gaps_places` | P, Q |
| C37 | `C37_gaps_stable` | P, Q |
| C37 | `C37_blanks_stay` | P, Q |
| C37 | `C37_round_trip` | P, Q |
| C37 | `C37_tab_counterexample` | P |
| C38 | `C38_nosqlformat` | P, Q |
| C39 | `C39_nosqlvalidation` | P, Q |
| C40 | `C40_select_strings` | P, C, Q |
| C40 | `C40_others_ignored` | P, Q |
| C41 | `C41_prefix_and_quotes` | P, Q |
| C42 | `C42_no_write_without_format` | P, C, Q |
| C43 | `C43_changed_files_written` | P, Q |
| C43 | `C43_other_files_untouched` | P, Q |
| C44 | `C44_each_file_once` | P, Q |
| C44 | `C44_repeated_inputs` | P, Q |
| C45 | `C45_exit_status` | P, C, Q |
| C45 | `C45_exit_status_found` | P, C, Q |
| C45 | `C45_unwritable_not_counted` | P |
| C46 | `C46_failing_file_unchanged` | P, Q |
| C46 | `C46_others_unaffected` | P, Q |
| C47 | `C47_counts_are_sums` | P, Q |
| C48 | `C48_check_after_format_partial` | P, C, Q |
| C48 | `C48_core_check_after_format_partial` | P, C, Q |
| C48 | `C48_changed_iff` | P, Q |
| C48 | `C48_status_iff` | P, C, Q |
| C48 | `C48_iff` | P, C, Q |
| C48 | `C48_not_all` | P |
| C49 | `C49_check_agrees_with_format` | P, Q |
| C50 | `C50_only_python_files` | P, Q |
| C51 | `C51_old_or_new_partial` | P, Q |
| C51 | `C51_old_new_or_empty` | P, Q |
| C51 | `C51_not_all` | P |
| C52 | `C52_gating` | P |
| C53 | `C53_invalid_query_flagged_partial` | P, C, Q |
| C53 | `C53_flagged_iff` | P, C, Q |
| C53 | `C53_analysed_iff` | P, Q |
| C53 | `C53_status_iff` | P, C, Q |
| C53 | `C53_unparsable_not_flagged` | P |
| C54 | `C54_same_queries` | P |
| C54 | `C54_locations_printed` | P, Q |
| C55 | `C55_format_after_any_calls` | P, Q |
| C55 | `C55_verdicts_without_format` | P, Q |
| C56 | `C56_balanced_collected` | P, Q |
| C56 | `C56_balanced_collected_first` | P, Q |
| C56 | `C56_collected_is_balanced` | P, Q |
| C57 | `C57_stops_at_first_outer_keyword` | P, Q |
| C57 | `C57_stops_at_first_outer_keyword_first` | P, Q |
| C57 | `C57_takes_all_without_keyword` | P, Q |
| C57 | `C57_returns_prefix` | P, Q |
| C57 | `C57_first_token_case` | P |
| C58 | `C58_verdict_of_spellings` | P, C, Q |
| C59 | `C59_formatting_keeps_verdict_partial` | P, C, Q |
| C59 | `C59_not_all` | P |
| C60 | `C60_column_names` | P, C, Q |
| C61 | `C61_unknown_columns` | P, C, Q |
| C61 | `C61_any_text` | P, C, Q |
| C62 | `C62_format_summary_faithful` | P, C, Q |
| C62 | `C62_validation_summary_faithful` | P, C, Q |
| C62 | `C62_check_last_line` | P, Q |
| C62 | `C62_validate_last_line` | P, Q |
| C62 | `C62_file_lines` | P |
| C62 | `C62_file_lines_faithful` | P, C, Q |
| C63 | `C63_validate_files` | P, C, Q |
| C63 | `C63_check_files` | P, C, Q |
| C64 | `C64_formatting_never_raises` | P, C, Q |
| C64 | `C64_empty_operand` | P |
| C65 | `C65_accepted_over_tables` | P, C, Q |
| C65 | `C65_answer_over_tables` | P, C, Q |
| C65 | `C65_validate_files_over_tables` | P, C, Q |
| C65 | `C65_not_over_subqueries` | P |
| C66 | `C66_accepted` | P, C, Q |
| C66 | `C66_answer` | P, C, Q |
| C66 | `C66_validate_files` | P, C, Q |
| C66 | `C66_not_mixed` | P |
| C66 | `C66_not_named` | P |
| C67 | `C67_messages` | P, C, Q |
| C67 | `C67_raises` | P, C, Q |
| C67 | `C67_fits` | P, C, Q |
| C67 | `C67_verbose_lines` | P, C, Q |
| C68 | `C68_equal_iff` | P, C, Q |
| C68 | `C68_reflexive` | P, C, Q |
| C68 | `C68_symmetric` | P |
| C68 | `C68_transitive` | P, C, Q |
| C68 | `C68_raises` | P |
| C68 | `C68_answers` | P, C, Q |
| C68 | `C68_exact` | P, C, Q |
| C68 | `C68_hides` | P |
| C69 | `C69_one_token` | P, C, Q |
| C69 | `C69_all_distinct` | P, C, Q |
| C70 | `C70_select` | P, C, Q |
| C70 | `C70_call` | P, C, Q |
| C70 | `C70_forgets` | P, C, Q |
| C71 | `C71_from` | P, C, Q |
| C72 | `C72_types` | P, C, Q |
| C73 | `C73_prefix` | P, C, Q |
| C74 | `C74_nothing_read_in` | P, Q |
| C74 | `C74_words_are_tokens` | P, Q |
| C74 | `C74_words_are_text` | P, C, Q |
| C74 | `C74_invented_quote` | P |
| C75 | `C75_layout_only` | P, Q |
| C75 | `C75_format` | P, Q |
| C75 | `C75_not_all` | P |
| C76 | `C76_text_only_if` | P, Q |
| C76 | `C76_text_if` | P, Q |
| C76 | `C76_format_exact` | P, Q |
| C76 | `C76_exceptions` | P, Q |
| C76 | `C76_cases` | P |
| C77 | `C77_fine_only_if` | P, C, Q |
| C77 | `C77_fine_if` | P, C, Q |
| C77 | `C77_accepted_only_if` | P, C, Q |
| C77 | `C77_accepted_if` | P, C, Q |
| C77 | `C77_exceptions` | P, C, Q |
| C77 | `C77_answer` | P, C, Q |
| C77 | `C77_cases` | P |
| C77 | `C77_mixed` | P |
| C78 | `C78_tree` | P, C, Q |
| C78 | `C78_exceptions` | P, C, Q |
| C78 | `C78_format` | P, C, Q |
| C78 | `C78_is_valid` | P, C, Q |
| C78 | `C78_messages` | P, C, Q |
| C78 | `C78_not_built` | P |
| C78 | `C78_cases` | P |
| C79 | `C79_messages` | P, C, Q |
| C79 | `C79_only_list` | P, Q |
| C79 | `C79_exact` | P, C, Q |
| C79 | `C79_blames` | P, C, Q |
| C79 | `C79_text` | P, C, Q |
| C79 | `C79_cases` | P |
| C79 | `C79_two_lists` | P, C, Q |
| C80 | `C80_marks` | P, C, Q |
| C80 | `C80_line_comment` | P, C, Q |
| C80 | `C80_block_comment` | P, C, Q |
| C80 | `C80_leading_comment` | P, C, Q |
| C80 | `C80_comment_cuts` | P |
| C80 | `C80_comment_invalid` | P |
| C80 | `C80_comment_quote` | P |
| C80 | `C80_comment_raises` | P |
| C81 | `C81_tokens` | P, C, Q |
| C81 | `C81_raises_iff` | P, C, Q |
| C81 | `C81_kinds` | P, C, Q |
| C81 | `C81_same_quotes` | P, C, Q |
| C82 | `C82_accepts_iff` | P, C, Q |
| C82 | `C82_asks_iff` | P, C, Q |
| C82 | `C82_main` | P, C, Q |
| C82 | `C82_split_inputs` | P, C, Q |
| C83 | `C83_represented` | P |
| C83 | `C83_exceptions` | P |
| C83 | `C83_text` | P, Q |
| C83 | `C83_double_quotes` | P |
| C83 | `C83_plain_strings` | P, Q |
| C83 | `C83_characters` | P, Q |
| C83 | `C83_printable_kept` | P, Q |
| C83 | `C83_strings` | P, Q |
| C83 | `C83_strings_differ` | P, Q |
| C83 | `C83_not_sql` | P |
| C83 | `C83_cases` | P |
| C84 | `C84_touched` | P, C, Q |
| C84 | `C84_text` | P, C, Q |
| C84 | `C84_text_kept` | P, C, Q |
| C84 | `C37_gaps_places` | P, Q |
| C85 | `C85_formatted` | P, C, Q |
| C86 | `C86_run` | P, C, Q |
