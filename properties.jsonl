{"id": "C01", "title": "Tokenising loses and invents nothing", "statement": "Read left to right, the tokens of an SQL text are exactly the non-whitespace text of the input, in order: no character is dropped, duplicated, reordered or made up, and only blanks, newlines and tabs between tokens disappear.", "quantifier": "every text containing no backslash (any quotes, balanced or not, any characters); also every text whose backslashes stand inside literals that contain no quotes of another kind, and every text without quotes that can be tokenised at all", "why_tests_cant": "the input space is all strings; quoting and separator interactions cannot be sampled exhaustively", "anchors": ["sqlvalidator/grammar/tokeniser.py: to_tokens, split_tokens, split_with_sep, merge_stream"]}
{"id": "C02", "title": "Tokenising always finishes", "statement": "Tokenising any SQL text terminates with a token list and never exhausts the interpreter's stack.", "quantifier": "every input text; expected to fail for backslashes outside string literals, in which case the failing family is exhibited, exactly for texts without quotes", "why_tests_cant": "termination is a statement about all inputs; a hang or unbounded recursion only shows on the unlucky one", "anchors": ["sqlvalidator/grammar/tokeniser.py: split_tokens, _split_on_kept_token, _split_on_string_token, split_with_escaping"]}
{"id": "C03", "title": "Whitespace layout of the input is irrelevant", "statement": "Replacing any run of whitespace between lexemes by any other non-empty run of whitespace (or adding/removing leading and trailing whitespace) changes neither the formatted text nor the validation verdict.", "quantifier": "every text without quotes or backslashes, and every replacement whitespace", "why_tests_cant": "infinitely many layouts of infinitely many queries", "anchors": ["sqlvalidator/grammar/tokeniser.py: _split_on_whitespace_token, to_tokens", "sqlvalidator/sql_formatter.py: format_sql"]}
{"id": "C04", "title": "String literals are opaque to the tokeniser", "statement": "A quoted literal becomes the opening quote, its content verbatim as a single token, and the closing quote, whatever keywords, blanks, operators or punctuation the content holds.", "quantifier": "every quote character, every content that is free of quote characters and does not end in a backslash, every context before and after that consists of text without quotes and of such literals", "why_tests_cant": "contents are arbitrary text", "anchors": ["sqlvalidator/grammar/tokeniser.py: _split_on_string_token"]}
{"id": "C05", "title": "Tokens are atomic", "statement": "Every token of a quote-free text is non-empty, contains no whitespace, and is a single punctuation character, one of the two-character operators, a dotted number, or a word free of punctuation.", "quantifier": "every non-empty text free of quotes in which no backslash escapes a punctuation character", "why_tests_cant": "a statement about every token of every text", "anchors": ["sqlvalidator/grammar/tokeniser.py: split_tokens, merge_stream, KEPT_SPLIT_TOKENS, MERGE_TOKENS"]}
{"id": "C06", "title": "The tokeniser agrees with a left-to-right reference lexer", "statement": "The recursive separator-by-separator splitting yields precisely the tokens that a simple one-pass left-to-right lexer yields.", "quantifier": "every text without backslashes whose literals contain no quote characters of another kind", "why_tests_cant": "the two algorithms differ in structure; agreement must hold on all inputs", "anchors": ["sqlvalidator/grammar/tokeniser.py: to_tokens"]}
{"id": "C07", "title": "Parsing always finishes", "statement": "Parsing any token sequence terminates: it yields a statement or an exception, never an endless loop, and the outcome does not depend on how much stack is available beyond what is needed.", "quantifier": "every finite token sequence, including malformed ones", "why_tests_cant": "termination over all inputs cannot be tested", "anchors": ["sqlvalidator/grammar/lexer.py: SQLStatementParser, SelectStatementParser, FromStatementParser, ExpressionParser, CaseParser, WithStatementParser"]}
{"id": "C08", "title": "Only SELECT and WITH statements are accepted", "statement": "A text whose first token is not SELECT or WITH (in any letter case) is rejected by format_sql with ParsingError and reported invalid by is_valid with exactly one error, without raising.", "quantifier": "every token sequence with such a first token", "why_tests_cant": "all possible first tokens", "anchors": ["sqlvalidator/grammar/lexer.py: SQLStatementParser.parse", "sqlvalidator/sql_validator.py: SQLQuery._validate"]}
{"id": "C09", "title": "Formatted text is a SELECT or WITH statement", "statement": "Whenever format_sql returns, the returned text begins with SELECT or with WITH followed by a blank, according to the first token of the input.", "quantifier": "every input for which formatting succeeds", "why_tests_cant": "a statement about every output", "anchors": ["sqlvalidator/grammar/sql.py: SelectStatement.transform, WithStatement.transform"]}
{"id": "C10", "title": "The parser inverts the grammar", "statement": "For each statement of the core grammar (select list, DISTINCT, FROM with tables, sub-queries and joins, WHERE, GROUP BY, HAVING, ORDER BY, LIMIT, OFFSET; nested expressions, calls, CASE, conditions, aliases) the parser recovers exactly the tree its tokens spell.", "quantifier": "every tree of the core grammar, unbounded in depth and width", "why_tests_cant": "infinitely many trees", "anchors": ["sqlvalidator/grammar/lexer.py: SQLStatementParser.parse"]}
{"id": "C11", "title": "Layout of formatted queries", "statement": "For each core statement the formatted text is the documented layout: one clause per line, one select expression per line indented by one blank when there are several, sub-queries on their own lines indented by one blank, keywords and function names in capitals.", "quantifier": "every text whose tokens spell a tidy core statement (no parenthesised list of several elements as a whole condition or an operand of AND and OR, whose elements the printer loses)", "why_tests_cant": "infinitely many trees", "anchors": ["sqlvalidator/grammar/sql.py: transform methods"]}
{"id": "C12", "title": "Formatting preserves the query", "statement": "For each core statement, formatting succeeds and the formatted text has the same token sequence as the input, up to the letter case of keywords, operators and function names: nothing is dropped, added or reordered.", "quantifier": "every text whose tokens spell a tidy core statement (no parenthesised list of several elements as a whole condition or an operand of AND and OR, whose elements the printer loses)", "why_tests_cant": "tests compare a few literal outputs", "anchors": ["sqlvalidator/sql_formatter.py: format_sql", "sqlvalidator/grammar/sql.py: transform methods", "sqlvalidator/grammar/lexer.py"]}
{"id": "C13", "title": "Formatting is idempotent", "statement": "Formatting an already formatted core statement returns it unchanged.", "quantifier": "every text whose tokens spell a tidy core statement (no parenthesised list of several elements as a whole condition or an operand of AND and OR, whose elements the printer loses)", "why_tests_cant": "quantifies over all queries", "anchors": ["sqlvalidator/sql_formatter.py: format_sql"]}
{"id": "C14", "title": "Keyword case is irrelevant", "statement": "Two spellings of a core statement that differ only in the letter case of keywords are formatted to the same text.", "quantifier": "every core statement and every re-casing of its keywords", "why_tests_cant": "exponentially many spellings of infinitely many queries", "anchors": ["sqlvalidator/grammar/lexer.py", "sqlvalidator/grammar/tokeniser.py: lower"]}
{"id": "C15", "title": "Text after the terminating semicolon", "statement": "What follows the first top-level semicolon never influences the outcome, and the formatted text ends in a semicolon exactly when the input statement has one.", "quantifier": "every core statement and every following token sequence; for the semicolon of the output every tidy core statement", "why_tests_cant": "arbitrary trailing text", "anchors": ["sqlvalidator/grammar/lexer.py: SelectStatementParser.parse"]}
{"id": "C16", "title": "Missing BY is an error", "statement": "GROUP not followed by BY (or EACH BY) and ORDER not followed by BY make the query invalid with the corresponding message, never silently accepted.", "quantifier": "every core query prefix and every following token other than BY", "why_tests_cant": "all prefixes and all offending tokens", "anchors": ["sqlvalidator/grammar/lexer.py: SelectStatementParser.parse"]}
{"id": "C17", "title": "String contents survive formatting", "statement": "The content of a string literal appears unchanged in the formatted text.", "quantifier": "every query containing a string literal; expected to fail for contents with line breaks", "why_tests_cant": "arbitrary contents in arbitrary contexts", "anchors": ["sqlvalidator/grammar/sql.py: String, SelectStatement.transform, FunctionCall.__str__"]}
{"id": "C18", "title": "No part of a query is dropped silently", "statement": "If format_sql returns, every token of the statement is still present in the output.", "quantifier": "every input; expected to fail, the failing families are exhibited", "why_tests_cant": "quantifies over all inputs", "anchors": ["sqlvalidator/grammar/lexer.py: ExpressionParser.parse, ExpressionListParser.parse", "sqlvalidator/grammar/sql.py: ArrayAggFunctionCall"]}
{"id": "C19", "title": "Integer literals keep their value", "statement": "An integer literal of any magnitude is printed with the same value and without leading zeros.", "quantifier": "every string of digits that Python converts to an integer (at most 4300 digits), with any number of leading zeros", "why_tests_cant": "unbounded magnitudes", "anchors": ["sqlvalidator/grammar/sql.py: Integer", "sqlvalidator/grammar/lexer.py: ExpressionParser.parse"]}
{"id": "C20", "title": "Validation does not depend on set iteration order", "statement": "The list of errors is the same whatever order the interpreter iterates its hash sets in.", "quantifier": "every syntax tree, every two orderings of known fields with unambiguous types", "why_tests_cant": "hash seeds and orders cannot be enumerated", "anchors": ["sqlvalidator/grammar/sql.py: validate, resolve_return_type, known_fields"]}
{"id": "C21", "title": "Plain tables accept any column", "statement": "When the FROM clause is a plain table, no column of the query is ever reported as missing or ambiguous.", "quantifier": "every expression tree in the query", "why_tests_cant": "all expression trees", "anchors": ["sqlvalidator/grammar/sql.py: Table.known_fields, Column.validate, ChainedColumns.validate"]}
{"id": "C22", "title": "Columns need a FROM clause", "statement": "A query without FROM that selects a column (other than *) is invalid.", "quantifier": "every select list containing a column, every other clause", "why_tests_cant": "all select lists", "anchors": ["sqlvalidator/grammar/sql.py: SelectStatement.validate, Column.validate"]}
{"id": "C23", "title": "Outer columns must be exported by the sub-query", "statement": "With FROM (SELECT ...), a plain column of the outer query is accepted exactly when the sub-query exports it: selects it, aliases something to it, or exports *.", "quantifier": "every sub-query select list and every column name", "why_tests_cant": "all combinations of names", "anchors": ["sqlvalidator/grammar/sql.py: SelectStatement.known_fields, Column.validate"]}
{"id": "C24", "title": "Alias-qualified columns", "statement": "With FROM (SELECT ...) a, the reference a.x is accepted exactly when the sub-query exports x or *, and b.x is rejected for every other alias b.", "quantifier": "all aliases, names and sub-queries", "why_tests_cant": "all combinations of names", "anchors": ["sqlvalidator/grammar/sql.py: Alias.known_fields, ChainedColumns.validate"]}
{"id": "C25", "title": "Ambiguous columns", "statement": "An unqualified column exported by both sides of an aliased join is reported ambiguous; one exported by exactly one side is accepted.", "quantifier": "all names, aliases and sub-queries", "why_tests_cant": "all combinations of names", "anchors": ["sqlvalidator/grammar/sql.py: Join.known_fields, Column.validate"]}
{"id": "C26", "title": "WHERE and HAVING need a boolean", "statement": "WHERE and HAVING over an expression of known non-boolean type are reported, and those of boolean or unknown type are not.", "quantifier": "every expression tree and set of known fields", "why_tests_cant": "all expressions", "anchors": ["sqlvalidator/grammar/sql.py: WhereClause.validate, HavingClause.validate"]}
{"id": "C27", "title": "AND/OR operands need a boolean, BETWEEN bounds do not", "statement": "Each operand of AND/OR with known non-boolean type is reported; the bounds of BETWEEN are not.", "quantifier": "every expression tree", "why_tests_cant": "all expressions", "anchors": ["sqlvalidator/grammar/sql.py: BooleanCondition.validate, Condition.validate"]}
{"id": "C28", "title": "GROUP BY positions", "statement": "GROUP BY n, under any number of parentheses, is accepted exactly when 1 <= n <= number of select expressions.", "quantifier": "every integer, every nesting depth, every select list", "why_tests_cant": "unbounded integers and depths", "anchors": ["sqlvalidator/grammar/sql.py: GroupByClause.validate"]}
{"id": "C29", "title": "ORDER BY positions", "statement": "ORDER BY n, under any number of parentheses, is accepted exactly when 1 <= n <= number of select expressions.", "quantifier": "every integer, every nesting depth, every select list", "why_tests_cant": "unbounded integers and depths", "anchors": ["sqlvalidator/grammar/sql.py: OrderByItem.validate"]}
{"id": "C30", "title": "LIMIT argument", "statement": "LIMIT is accepted exactly for a non-negative integer literal under any number of parentheses; other expressions get the documented message.", "quantifier": "every expression, every nesting depth", "why_tests_cant": "unbounded", "anchors": ["sqlvalidator/grammar/sql.py: LimitClause.validate"]}
{"id": "C31", "title": "OFFSET argument", "statement": "OFFSET is accepted exactly for a non-negative integer literal under any number of parentheses; other expressions get the documented message.", "quantifier": "every expression, every nesting depth", "why_tests_cant": "unbounded", "anchors": ["sqlvalidator/grammar/sql.py: OffsetClause.validate"]}
{"id": "C32", "title": "Joins need a condition", "statement": "A join other than CROSS JOIN and the comma is reported exactly when it has neither ON nor USING.", "quantifier": "every join type and both sides", "why_tests_cant": "all join trees", "anchors": ["sqlvalidator/grammar/sql.py: Join.validate"]}
{"id": "C33", "title": "Errors inside sub-queries surface", "statement": "If the query in a FROM sub-query is invalid on its own, the outer query is invalid too.", "quantifier": "every sub-query, parenthesised or aliased, at any depth; expected to fail for sub-queries that are sides of a join", "why_tests_cant": "arbitrary nesting", "anchors": ["sqlvalidator/grammar/sql.py: SelectStatement.validate, Parenthesis.validate, Alias.validate, Join.validate"]}
{"id": "C34", "title": "is_valid never raises", "statement": "is_valid returns a boolean for every text.", "quantifier": "every text; expected to fail, the failing families are exhibited", "why_tests_cant": "all inputs", "anchors": ["sqlvalidator/sql_validator.py: SQLQuery.is_valid", "sqlvalidator/grammar/sql.py: validate"]}
{"id": "C35", "title": "GROUP BY accepts select aliases", "statement": "A GROUP BY column that is an alias of the select list is accepted.", "quantifier": "every alias, with or without AS; expected to fail with AS", "why_tests_cant": "all aliases and select lists", "anchors": ["sqlvalidator/grammar/sql.py: GroupByClause.validate"]}
{"id": "C36", "title": "Verdicts are stable over any call history", "statement": "After any sequence of format() and is_valid() calls on a query object, each further call answers like on a fresh object.", "quantifier": "every text, every call sequence; expected to fail once is_valid has raised", "why_tests_cant": "all call histories", "anchors": ["sqlvalidator/sql_validator.py: SQLQuery"]}
{"id": "C37", "title": "Non-SQL parts of a Python file are untouched", "statement": "After processing, the token list has the same length, kinds and positions; only string tokens holding SELECT queries may differ, and the text between tokens is byte for byte that of the original.", "quantifier": "every token sequence of a file", "why_tests_cant": "all files", "anchors": ["sqlvalidator/file_handler.py: compute_file_content"]}
{"id": "C38", "title": "nosqlformat is honoured", "statement": "A query string whose next comment (no other string in between) contains nosqlformat is not changed.", "quantifier": "every file, every comment text containing the marker", "why_tests_cant": "all files", "anchors": ["sqlvalidator/file_handler.py: compute_file_content"]}
{"id": "C39", "title": "nosqlvalidation is honoured", "statement": "A query string whose next comment (no other string in between) contains nosqlvalidation is not counted as invalid.", "quantifier": "every file, every comment text containing the marker", "why_tests_cant": "all files", "anchors": ["sqlvalidator/file_handler.py: compute_file_content"]}
{"id": "C40", "title": "Only SELECT strings are considered", "statement": "Exactly the string tokens whose text, after prefix letters, quotes and leading blanks, starts with the word select followed by a blank, a line end or nothing are analysed.", "quantifier": "every token text", "why_tests_cant": "all strings", "anchors": ["sqlvalidator/file_handler.py: is_select_string"]}
{"id": "C41", "title": "Prefix and quote style are kept", "statement": "A rewritten literal keeps its prefix letters and its quote character; a one-character quote becomes a triple one exactly when the formatted query spans several lines.", "quantifier": "every prefix, quote style and body", "why_tests_cant": "all literals", "anchors": ["sqlvalidator/file_handler.py: handle_sql_string"]}
{"id": "C42", "title": "Checking and validating never write", "statement": "Without --format no file is ever written.", "quantifier": "every set of inputs and flags without --format, every file system", "why_tests_cant": "all file systems and inputs", "anchors": ["sqlvalidator/file_handler.py: handle_inputs, analyse_file"]}
{"id": "C43", "title": "--format writes exactly the changed files", "statement": "With --format a file is written exactly when at least one of its queries changes; it then holds the computed content and every other file is unchanged.", "quantifier": "every set of inputs and every file system", "why_tests_cant": "all file systems", "anchors": ["sqlvalidator/file_handler.py: analyse_file"]}
{"id": "C44", "title": "Each file is handled once", "statement": "However often a file is named or reached through directories, it is analysed at most once per run, and counted at most once.", "quantifier": "every list of inputs, with duplicates and overlapping directories", "why_tests_cant": "all input lists", "anchors": ["sqlvalidator/file_handler.py: handle_inputs, analyse_dir, analyse_file"]}
{"id": "C45", "title": "Exit status", "statement": "The exit status is 1 exactly when --check-format finds a changed query or --validate finds an invalid one.", "quantifier": "every run", "why_tests_cant": "all runs", "anchors": ["sqlvalidator/file_handler.py: handle_inputs"]}
{"id": "C46", "title": "One bad file does not affect the others", "statement": "An exception while analysing a file leaves that file unchanged, contributes nothing to the counts and does not prevent the remaining files from being handled as if it were absent.", "quantifier": "every run with any set of failing files", "why_tests_cant": "all subsets of failing files", "anchors": ["sqlvalidator/file_handler.py: analyse_dir, handle_one_input"]}
{"id": "C47", "title": "Counts are the sums over files", "statement": "The reported numbers of changed files and queries and of invalid files and queries are the sums over the distinct analysed files.", "quantifier": "every run", "why_tests_cant": "all runs", "anchors": ["sqlvalidator/file_handler.py: InputSQLAnalyseInfo.update"]}
{"id": "C48", "title": "Formatting makes the check pass", "statement": "After --format, --check-format on the same inputs reports nothing to change.", "quantifier": "every file system and input list; holds only where formatting is idempotent", "why_tests_cant": "all files", "anchors": ["sqlvalidator/file_handler.py"]}
{"id": "C49", "title": "Check and format agree", "statement": "--check-format reports as changed precisely the files and queries that --format would rewrite.", "quantifier": "every file system and input list", "why_tests_cant": "all files", "anchors": ["sqlvalidator/file_handler.py: analyse_file, compute_file_content"]}
{"id": "C50", "title": "Only .py files of a directory are touched", "statement": "When a directory is given, only files whose name ends in .py are read or written.", "quantifier": "every directory tree", "why_tests_cant": "all trees", "anchors": ["sqlvalidator/file_handler.py: analyse_dir"]}
{"id": "C51", "title": "A crash while writing does not lose a file", "statement": "If the process stops at any point of a --format run, each file holds either its old or its new content.", "quantifier": "every crash point; expected to fail between truncation and write", "why_tests_cant": "crash points cannot be enumerated by unit tests", "anchors": ["sqlvalidator/file_handler.py: analyse_file"]}
{"id": "C52", "title": "Command line gating", "statement": "A run without any of --format, --check-format, --validate, --verbose-validate is refused before any file is read, and mutually exclusive flags are refused.", "quantifier": "every flag combination", "why_tests_cant": "full table of combinations and all inputs", "anchors": ["sqlvalidator/main.py: _main"]}
{"id": "C53", "title": "--validate flags every broken query", "statement": "If a file contains a query that cannot be parsed or is invalid, --validate exits with status 1.", "quantifier": "every file; expected to fail when the formatter raises first", "why_tests_cant": "all files", "anchors": ["sqlvalidator/file_handler.py: handle_sql_string, handle_inputs"]}
{"id": "C54", "title": "Verbose validation", "statement": "--verbose-validate finds the same invalid queries as --validate and prints the line and errors of each; its exit status is nevertheless always 0.", "quantifier": "every run", "why_tests_cant": "all runs", "anchors": ["sqlvalidator/file_handler.py: handle_inputs, analyse_file"]}
{"id": "C55", "title": "format and is_valid do not interfere", "statement": "format() never changes the verdict of is_valid() and is_valid() never changes the text returned by format().", "quantifier": "every text and every call sequence", "why_tests_cant": "all call histories", "anchors": ["sqlvalidator/sql_validator.py: SQLQuery"]}
{"id": "C56", "title": "Balanced scanning of parentheses", "statement": "The tokens handed to a call, tuple or sub-query are precisely those up to the matching closing parenthesis, for any nesting, and the rest of the stream is left intact.", "quantifier": "every balanced token sequence and every continuation", "why_tests_cant": "arbitrary nesting", "anchors": ["sqlvalidator/grammar/tokeniser.py: get_tokens_until_closing_parenthesis"]}
{"id": "C57", "title": "Clause keywords inside parentheses, brackets or CASE do not end a clause", "statement": "Scanning for the next clause keyword stops at the first such keyword outside parentheses, square brackets and CASE ... END, and returns the tokens before it unchanged.", "quantifier": "every token sequence balanced in parentheses, brackets and CASE/END, every continuation", "why_tests_cant": "arbitrary nesting", "anchors": ["sqlvalidator/grammar/tokeniser.py: get_tokens_until_one_of"]}
{"id": "C58", "title": "Verdict independent of spelling", "statement": "The answer and the errors of is_valid do not depend on the letter case of keywords, operators and function names or on leading zeros of numbers.", "quantifier": "every statement of the core grammar and every two ways to spell it", "why_tests_cant": "all statements and all spellings", "anchors": ["sqlvalidator/sql_validator.py: SQLQuery.is_valid", "sqlvalidator/grammar/sql.py: validate methods"]}
{"id": "C59", "title": "Formatting keeps the verdict", "statement": "is_valid gives the same answer and the same errors for a text and for its formatted version.", "quantifier": "every text that is formatted; expected to fail where formatting changes names or drops tokens", "why_tests_cant": "relates two runs over all statements", "anchors": ["sqlvalidator/grammar/sql.py: transform methods, validate methods", "sqlvalidator/grammar/sql.py: Column.KEYWORDS"]}
{"id": "C60", "title": "Which names are printed in capitals", "statement": "A selected column is printed exactly as written, unless its name is one of thirteen special words in lower case, which are printed in capitals.", "quantifier": "every name", "why_tests_cant": "all names", "anchors": ["sqlvalidator/grammar/sql.py: Column"]}
{"id": "C61", "title": "Columns of UNNEST and of set operations are always reported", "statement": "A column, aliased or not, that is selected without FROM, from UNNEST, from a set operation or from a join with one of them is reported as not found, and the query is not accepted.", "quantifier": "every text that is read as a query with such a FROM clause, every column but *", "why_tests_cant": "all select lists, all sources, all other clauses", "anchors": ["sqlvalidator/grammar/sql.py: SelectStatement.validate, known_fields"]}
{"id": "C62", "title": "Summary lines are faithful", "statement": "The summary line determines the numbers of files and queries; --check-format (--validate) alone ends with status 0 exactly if the last line printed says that nothing was found.", "quantifier": "every run and all numbers", "why_tests_cant": "all file systems and counts", "anchors": ["sqlvalidator/file_handler.py: print_format_summary, print_validation_summary, handle_inputs"]}
{"id": "C63", "title": "Validating and checking files of core queries is exact", "statement": "Over readable files whose queries are core statements, --validate ends with status 1 exactly if some unmarked query is rejected by its clauses and types, and --check-format exactly if some unmarked query is not laid out.", "quantifier": "all runs over readable files whose queries are tidy core statements (for --validate also calm)", "why_tests_cant": "all file systems, files and queries", "anchors": ["sqlvalidator/file_handler.py: handle_inputs, handle_file", "sqlvalidator/sql_validator.py: SQLQuery", "sqlvalidator/sql_formatter.py: format_sql"]}
{"id": "C64", "title": "Formatting core statements never raises", "statement": "format_sql returns a text for every statement of the core grammar, unless empty parentheses are an operand of AND or OR or a bound of BETWEEN; such a statement can raise IndexError.", "quantifier": "all core statements without such operands, all spellings", "why_tests_cant": "all trees of the grammar and all spellings", "anchors": ["sqlvalidator/sql_formatter.py: format_sql", "sqlvalidator/grammar/sql.py: transform and __str__ of all classes"]}
{"id": "C65", "title": "The verdict on queries over tables is exact", "statement": "A core query that reads from tables alone, with sub-queries in expressions over tables or nothing, is accepted by is_valid exactly if its outermost join, unless it is a CROSS JOIN or a comma, has ON or USING, every operand of AND and OR and every WHERE and HAVING condition that validation looks at is boolean or of unknown type, positions in GROUP BY and ORDER BY are in the select list, LIMIT and OFFSET are integers that are not negative, and it has no CAST and no position in a window's ORDER BY. --validate over files of such queries fails exactly if one of them is not accepted and not marked.", "quantifier": "all core statements over tables without empty parentheses next to AND and OR, all spellings; all runs over readable files of such statements that are calm", "why_tests_cant": "all trees of the grammar, all spellings and all file systems", "anchors": ["sqlvalidator/sql_validator.py: SQLQuery.is_valid", "sqlvalidator/grammar/sql.py: validate methods of all classes", "sqlvalidator/file_handler.py: handle_inputs"]}
{"id": "C66", "title": "The verdict on core statements is exact", "statement": "A statement of the core grammar is accepted by is_valid exactly if it is a query; every column, dotted path and name in GROUP BY or REPLACE that validation looks at is offered by the FROM clauses of the queries around it (sub-queries export their columns and aliases, a star over a known sub-query exports its columns, aliases qualify them, an unqualified name must be unambiguous) or may come from a table; operands of AND and OR and WHERE and HAVING conditions are boolean or of unknown type, where aliases of a sub-query have the type of their expression; positions in GROUP BY and ORDER BY are in the select list; LIMIT and OFFSET are integers that are not negative; the outermost join of each FROM clause and parenthesis, unless it is a CROSS JOIN or a comma, has ON or USING; and it has no CAST and no position in a window's ORDER BY. --validate over files of such queries fails exactly if one of them is not accepted and not marked.", "quantifier": "all tidy core statements in which columns known to a query under the same name have the same type, all spellings; all runs over readable files of such statements that are calm", "why_tests_cant": "all trees of the grammar, all spellings and all file systems", "anchors": ["sqlvalidator/sql_validator.py: SQLQuery.is_valid", "sqlvalidator/grammar/sql.py: validate, known_fields, return_type and resolve_return_type of all classes", "sqlvalidator/file_handler.py: handle_inputs"]}
{"id": "C67", "title": "The messages about core statements are exact", "statement": "For a statement of the core grammar, validation gives exactly the messages that the rules of C66 call for, in the order select list, FROM, WHERE, GROUP BY, HAVING, ORDER BY, LIMIT, OFFSET: a column that is not found or is ambiguous, a path that is not found in its alias, an operand or condition that is not boolean with the name of its type, a position that is not in the select list, a negative or non-integer LIMIT or OFFSET, a join without ON or USING; or it raises exactly the exception that the first offending construct calls for (CAST, a condition without a type, an ambiguous name in GROUP BY, an empty parenthesis, a position in a window's ORDER BY, a WITH statement). is_valid answers whether there are no messages, errors holds them, and --verbose-validate prints the line and the messages of each unmarked query that has some and of no other.", "quantifier": "all tidy core statements in which columns known to a query under the same name have the same type, all spellings; all runs over readable files of such statements that are calm", "why_tests_cant": "all trees of the grammar, all spellings and all file systems", "anchors": ["sqlvalidator/sql_validator.py: SQLQuery.is_valid, errors", "sqlvalidator/grammar/sql.py: validate, known_fields, return_type and resolve_return_type of all classes", "sqlvalidator/file_handler.py: handle_inputs"]}
{"id": "C68", "title": "Equality of trees compares what it compares", "statement": "== on the trees of sql.py is reflexive and symmetric, and it is transitive where it answers. It holds exactly if the trees agree once AS, quotes and prefixes of literals, date parts, indices, bitwise operators and their right operands, brackets of tables, columns of EXCEPT and REPLACE, branches of CASE and options of ARRAY_AGG are forgotten; all else is compared. It raises nothing but a TypeError, and that only where DISTINCT ON or PARTITION BY occurs. Texts that differ in a forgotten part parse to equal trees although they are formatted differently.", "quantifier": "all pairs and triples of trees", "why_tests_cant": "all pairs of trees; the repository's tests compare with the very same ==", "anchors": ["sqlvalidator/grammar/sql.py: __eq__ of all classes"]}
{"id": "C69", "title": "Every single token has one reading", "statement": "SELECT w is decided for every token w: digits are an integer, digits with dots a float, TRUE, YES, FALSE, NO and NULL in any spelling are values, a quote, NOT, SELECT and DISTINCT raise StopIteration, [ and CASE raise AssertionError, ( is an empty parenthesis, ALL selects nothing, and anything else is a column.", "quantifier": "all tokens", "why_tests_cant": "all strings", "anchors": ["sqlvalidator/grammar/lexer.py: SelectStatementParser.parse, ExpressionParser.parse 557-754", "sqlvalidator/grammar/sql.py: Boolean, Null, String.QUOTES"]}
{"id": "C70", "title": "Every token between two names has one reading", "statement": "SELECT a t b and SELECT f(a t b) are decided for all names a and b and every ASCII token t: the operators, comparisons and connectives of a fixed table build the tree they name, clause words begin their clause or raise that BY is missing, FROM after a date part in a call extracts it, and every other token is an alias, after which b is forgotten.", "quantifier": "all names, all ASCII tokens in between", "why_tests_cant": "all strings in between", "anchors": ["sqlvalidator/grammar/lexer.py: SelectStatementParser.parse, ExpressionParser.parse 544-931", "sqlvalidator/grammar/sql.py: Condition.PREDICATES, BooleanCondition.PREDICATES, BitwiseOperation.OPERATORS, DatePartExtraction.PARTS"]}
{"id": "C71", "title": "Every token between two names after FROM has one reading", "statement": "SELECT c FROM a t b is decided for all names and every ASCII token t: set operators combine, join words and the comma join, clause words begin their clause or raise that BY is missing, and every other token is read as between two names of the select list.", "quantifier": "all names, all ASCII tokens in between", "why_tests_cant": "all strings in between", "anchors": ["sqlvalidator/grammar/lexer.py: FromStatementParser.parse 182-313", "sqlvalidator/grammar/sql.py: Join.VALUES, CombinedQueries.SET_OPERATORS"]}
{"id": "C72", "title": "Types are read below TIMESTAMP_TRUNC", "statement": "In f(timestamp_trunc(x, w)), each of x and w is a type exactly if it is INT, FLOAT, DAY, MONTH, TIMESTAMP, INT64, STRING or DATE in any spelling, and a column otherwise.", "quantifier": "all names f, x, w and all spellings", "why_tests_cant": "all names", "anchors": ["sqlvalidator/grammar/lexer.py: ExpressionParser.parse 691-699, 723-727", "sqlvalidator/grammar/sql.py: Type.VALUES"]}
{"id": "C73", "title": "Only r is a prefix of literals", "statement": "In SELECT w 'v', with any of the three quotes, w belongs to the literal exactly if it is r or R; otherwise the literal is an alias of the column w.", "quantifier": "all names w, all quotes, all non-empty contents without quotes that are no separators", "why_tests_cant": "all names and contents", "anchors": ["sqlvalidator/grammar/lexer.py: ExpressionParser.parse 745-752, 912-931", "sqlvalidator/grammar/sql.py: String.PREFIXES"]}
{"id": "C74", "title": "The parser reads nothing into a text", "statement": "Whatever tree the parser returns was said by the tokens: there is a sublist of the tokens, in order, that spells the tree: every column, function, type and query name, every literal with its prefix and closing quote, every number, operator, keyword, flag, comma and opening bracket is a token of its own.  So no name is made up, moved, duplicated or put in other capitals, and without backslashes outside literals the characters of all names and literals, blanks aside, are characters of the text in the same order.", "quantifier": "all token lists, also such as no text gives and such as end in an error of the tokeniser; all texts for the corollary, except those with backslashes outside literals", "why_tests_cant": "all token lists on which the parser returns", "anchors": ["sqlvalidator/grammar/lexer.py: all parsers", "sqlvalidator/grammar/tokeniser.py: to_tokens"]}
{"id": "C75", "title": "The formatter changes nothing but the layout", "statement": "For every tree of which nothing is known to be forgotten (whole), whatever the printer returns consists of the words of the tree (keywords in capitals, names, literals, numbers, brackets and commas, in the order of the tree) with nothing but blanks between them; inside literals at most spaces are put after line breaks.  The names and literals that the writer chose are words of the formatted text, as they are or in capitals, and tokens of the text, in the same order.", "quantifier": "all trees that are whole, also outside of the core grammar; all texts with such a tree", "why_tests_cant": "all trees", "anchors": ["sqlvalidator/grammar/sql.py: all transform and __str__ methods", "sqlvalidator/sql_formatter.py: format_sql 5-6"]}
{"id": "C76", "title": "When formatting raises", "statement": "The printer returns a text exactly for the trees in which every part can be printed in the way in which it is asked for: no alias, no AND or OR, no ORDER BY and no WITH where str is called (elements of GROUP BY and ORDER BY, of DISTINCT ON, operands of arithmetic, THEN, LIMIT, OFFSET, aliases in joins), nothing empty in GROUP BY, ORDER BY, EXCEPT, REPLACE, or in the parentheses of FROM and JOIN, and only statements named in WITH; empty parentheses next to AND and OR may or may not be printed.  What is raised otherwise is AttributeError or IndexError, unless WITH is used inside of WITH.", "quantifier": "all trees and all texts", "why_tests_cant": "all trees", "anchors": ["sqlvalidator/grammar/sql.py: all transform and __str__ methods", "sqlvalidator/sql_formatter.py: format_sql 5-6"]}
{"id": "C77", "title": "The verdict on every statement", "statement": "Validation of a tree raises nothing exactly if the tree is a SELECT statement in which, at the places that validation looks at: there is no CAST; conditions of WHERE, HAVING, AND and OR have a type and, where columns are known, can be printed; LIMIT, OFFSET, and the elements of GROUP BY and ORDER BY do not begin with empty parentheses, and LIMIT and OFFSET have a type; names in GROUP BY are not ambiguous; a window is not ordered by a positive integer; dotted paths can be printed; and the columns of FROM clauses can be listed (no empty parentheses, aliases that are names).  It is accepted exactly if moreover the columns are known, the types are boolean or unknown, positions and counts are in range and joins have a condition.  What is raised otherwise is AttributeError, IndexError or TypeError.", "quantifier": "all trees; the two conditions differ only where columns of the same name have different types", "why_tests_cant": "all trees", "anchors": ["sqlvalidator/sql_validator.py: SQLQuery.is_valid", "sqlvalidator/grammar/sql.py: validate, known_fields, return_type and resolve_return_type of all classes"]}
{"id": "C78", "title": "What the parser builds and what it raises", "statement": "Whatever the text, the tree that the parser returns follows a fixed grammar: precedence of operators (arithmetic is right-nested under comparisons, comparisons under AND and OR, NOT binds tighter than comparisons), fixed sets of operators, types and parts of dates, clauses at their places, at most one of ON and USING, no alias of an alias after FROM, and so on.  If it raises, then ParsingError with one of six messages, StopIteration, AssertionError, ValueError or IndexError; a RecursionError comes from the tokeniser.  Hence format_sql raises one of these or AttributeError, and TypeError only if the word WITH occurs twice in the text; and is_valid raises no ParsingError but reports its message alone.", "quantifier": "all texts", "why_tests_cant": "all texts", "anchors": ["sqlvalidator/grammar/lexer.py: all parsers", "sqlvalidator/sql_formatter.py: format_sql", "sqlvalidator/sql_validator.py: SQLQuery.is_valid"]}
{"id": "C79", "title": "Every message is called for and about the text", "statement": "Whatever the statement, the messages of validation that raises nothing are those that the rules call for, in the order select list, FROM, WHERE, GROUP BY, HAVING, ORDER BY, LIMIT, OFFSET; the list is unique unless known columns of the same name have different types.  Each message is about something in the statement: the columns, paths and positions that it names are in the text, and so is the word of the clause or the connective that it names.", "quantifier": "all trees; all texts", "why_tests_cant": "The rules depend on the columns known at each place, of which there are arbitrarily many, and on the order of a set where types differ; tests check a few messages each.", "anchors": ["sqlvalidator/grammar/sql.py: all validate methods, known_fields, resolve_return_type", "sqlvalidator/sql_validator.py: SQLQuery.is_valid"]}
{"id": "C80", "title": "Comments are read as code", "statement": "A comment is no comment: wherever -- or /* stands outside a literal, it is read as two minus signs, or as a slash and a star, and the text of the comment is a part of the statement, in which the end of the line is a blank like any other.  So a text that begins with a comment is rejected, and a comment elsewhere can end up in the formatted text, cut off the clauses after it, make a valid statement invalid, open a literal, or raise an error other than a parsing error.", "quantifier": "all texts made of words, literals and gaps before the comment, and all plain texts after it", "why_tests_cant": "Tests have a few statements without comments; that no comment is ever skipped is about all places and all contents.", "anchors": ["sqlvalidator/grammar/tokeniser.py: split_with_sep, split_tokens, to_tokens", "sqlvalidator/sql_formatter.py: format_sql", "sqlvalidator/sql_validator.py: SQLQuery.is_valid"]}
{"id": "C81", "title": "The tokens of every text", "statement": "Every text is cut at its quotes: the kind of quote that comes first cuts the whole text, the parts outside are cut at the kind that comes first in each, and so on; a backslash escapes a quote, at most once in each piece.  Tokenising raises a RecursionError, at every recursion depth, if outside the literals something is escaped that would be cut, or a quote; otherwise it raises nothing, from depth 21 on.  The tokens are then the words, numbers and punctuation characters of the parts outside, the quotes, and the contents of the literals as they stand, where a token that begins an operator and the next one are put together if they are an operator.  In particular, if all literals have the same kind of quote, then quotes of the other kinds inside them are not special.", "quantifier": "all texts", "why_tests_cant": "All placements of quotes and backslashes; tests have a few.", "anchors": ["sqlvalidator/grammar/tokeniser.py: split_with_sep, split_with_escaping, merge_stream, _split_on_string_token, _split_on_whitespace_token, _split_on_kept_token, split_tokens, to_tokens"]}
{"id": "C82", "title": "Every command line", "statement": "A word says what it means by itself: a flag, in full or cut off as long as it is clear which one is meant, the help, the version, the name of an input (also a negative number, or a word with a space), or something that is refused.  A command line starts a run exactly if its inputs stand next to each other, there is at least one, all other words are flags, at least one is given, and no two exclude each other; after `--` every word is an input.  The run then has exactly these flags and inputs, in their order.  It asks for the help or the version, and ends with status 0, exactly if a word says so before another one is refused and no word is ambiguous.  Every other command line ends with status 2, and nothing is read or written.  In particular, inputs on both sides of a flag are refused.", "quantifier": "all command lines, all file systems", "why_tests_cant": "All lists of words of any length; tests have a few.", "anchors": ["sqlvalidator/main.py: _main"]}
{"id": "C83", "title": "Representations of objects", "statement": "`repr` of the objects the parser builds returns a text exactly if there are no calls with FILTER and no WITH where it looks (it does not look at what comes after WHEN, THEN and ELSE and at the ORDER BY of ARRAY_AGG), and raises an AttributeError otherwise.  The text is that of the templates, filled in.  The representation of a string is a Python literal for it, so different strings have different representations.  The formatter puts such representations into its result, even of texts that are found valid: where a statement without parentheses is an operand.", "quantifier": "all trees, all strings", "why_tests_cant": "Strings of all characters, with all mixtures of quotes, backslashes and controls; trees of any depth.", "anchors": ["sqlvalidator/grammar/sql.py: SelectStatement.__repr__, Expression.__repr__ and the other __repr__ methods, ArithmaticOperator.__str__"]}
{"id": "C84", "title": "What a run changes", "statement": "Whatever the words on the command line, a file changes only if the command line is accepted and says `--format`, the file is an input or a Python file below one, and a query in one of its string literals changes. It is then written from its tokens: the same tokens in the same order, of which only literals that hold queries differ; between them stand blanks and line continuations with the same lines and columns as the text that was there. If only blanks, line continuations and the indentation of blocks stand between the tokens, then the rest of the text is kept byte for byte. The only other possibility is an empty file, if writing it stopped after it had been truncated.", "quantifier": "all command lines, all file systems, all contents, all ways in which the tokens of a file stand in its text", "why_tests_cant": "All command lines together with all files; tests call parts of the code on a few files.", "anchors": ["sqlvalidator/main.py: _main", "sqlvalidator/file_handler.py: handle_inputs, analyse_file, compute_file_content"]}
{"id": "C85", "title": "Formatting files, from the command line to the text", "statement": "After a command line that is accepted and says `--format`, each file it reaches that can be read and written, and whose queries are tidy statements of the core grammar (that can be validated, if this is asked for too), holds exactly this: its tokens in order, where every literal that holds a query is replaced by a literal with the layout of the statement, the same letters before it and the same kind of quotes (three of them, on lines of their own, if the layout has several lines), except where the next comment or string says `nosqlformat`; and between the tokens blanks and line continuations with the same lines and columns as the text that was there. If no literal changes, the file is not touched.", "quantifier": "all command lines, all file systems, all files whose queries are tidy statements of the core grammar", "why_tests_cant": "All files with all statements; tests have a few files with one query each.", "anchors": ["sqlvalidator/main.py: _main", "sqlvalidator/file_handler.py: handle_inputs, analyse_file, compute_file_content, handle_sql_string", "sqlvalidator/sql_formatter.py: format_sql"]}
{"id": "C86", "title": "Everything a run prints, and its status", "statement": "For a command line that starts a run over files that can be read, printed and written, and whose queries are tidy statements of the core grammar about which there is a report (possibly an empty one): the run prints, for each input in order, each file once where it is reached first, `reformatted` or `would reformat` with the number of literals that change, if there are any, then the number of queries something is to be said about, if there are any and validation is asked for, and with --verbose-validate the line and the messages of each of them; one line for each input that does not exist; then the summaries with the sums over all files. Queries whose next comment or string says `nosqlformat` are not counted as changed, those whose next comment or string says `nosqlvalidation` are not reported. The status is 1 exactly if --check-format is given and a literal would change, or --validate is given and something is to be said about a query.", "quantifier": "all command lines, all file systems, all files of this kind", "why_tests_cant": "All combinations of inputs, flags, markers and statements; tests look at a few.", "anchors": ["sqlvalidator/main.py: _main", "sqlvalidator/file_handler.py: handle_inputs, handle_one_input, analyse_dir, analyse_file, compute_file_content, handle_sql_string, print_format_summary, print_validation_summary", "sqlvalidator/sql_validator.py: SQLQuery"]}
