{"claims": [
 {"property": "C01", "status": "proved", "theorems": ["SqlV.C01_tokens_spell_text", "SqlV.C01_no_character_lost", "SqlV.C01_not_all"], "note": "Proved for every text without backslashes, for texts with backslashes inside literals whose literals are plain, and for all texts without quotes that can be tokenised at all (C02_without_quotes). C01_not_all shows that the restriction on backslashes is needed."},
 {"property": "C02", "status": "partial", "theorems": ["SqlV.C02_tokenising_finishes_partial", "SqlV.C02_only_recursion", "SqlV.C02_without_quotes", "SqlV.C02_not_all"], "note": "False in general: a backslash outside a literal may lead to unbounded recursion (C02_not_all). For texts without quotes the failing family is characterised exactly (C02_without_quotes); for all texts, C81_raises_iff says which fail; proved here for texts without backslashes and for plain texts. Nothing but RecursionError is ever raised (C02_only_recursion, all texts)."},
 {"property": "C03", "status": "proved", "theorems": ["SqlV.C03_layout_irrelevant", "SqlV.C03_empty_differs"], "note": ""},
 {"property": "C04", "status": "proved", "theorems": ["SqlV.C04_literals_opaque", "SqlV.C04_two_escapes"], "note": "Backslashes are admitted. C04_two_escapes shows what several escaped quotes in a literal lead to."},
 {"property": "C05", "status": "proved", "theorems": ["SqlV.C05_tokens_atomic"], "note": "Also for texts with backslashes that can be tokenised at all."},
 {"property": "C06", "status": "partial", "theorems": ["SqlV.C06_reference_lexer_partial", "SqlV.C06_not_all", "SqlV.C06_nested_quotes"], "note": "Proved for plain texts and for texts without quotes that can be tokenised, without clashing operators; false in general (C06_not_all); the tokens of all texts are described by C81_tokens."},
 {"property": "C07", "status": "proved", "theorems": ["SqlV.C07_parsing_finishes", "SqlV.C07_statement_or_exception", "SqlV.C07_too_little_depth"], "note": "The depth of Python's own stack is not modelled: the theorem bounds the depth that is needed."},
 {"property": "C08", "status": "proved", "theorems": ["SqlV.C08_other_statements_rejected"], "note": ""},
 {"property": "C09", "status": "proved", "theorems": ["SqlV.C09_starts_with_keyword"], "note": ""},
 {"property": "C10", "status": "proved", "theorems": ["SqlV.C10_parser_inverts_grammar", "SqlV.C10_parser_inverts_grammar_text", "SqlV.C10_unambiguous"], "note": "every tree of the core grammar (Spec/Core.lean) and every spelling of it; function names, type names, predicates, AND and OR are kept as written, so the tree is recovered up to their letter case (fold)"},
 {"property": "C11", "status": "proved", "theorems": ["SqlV.C11_layout", "SqlV.C11_not_untidy"], "note": "every statement of the core grammar, every spelling; parenthesised lists that are whole conditions or operands of AND and OR are excluded (tidy), because the printer loses their elements (C11_not_untidy)"},
 {"property": "C12", "status": "proved", "theorems": ["SqlV.C12_tokens_preserved"], "note": "every tidy statement of the core grammar, every spelling; the tokens of the output are given exactly (canon): capitals for keywords, operators and function names, numbers without leading zeros. C11_not_untidy shows why tidy is needed."},
 {"property": "C13", "status": "proved", "theorems": ["SqlV.C13_idempotent", "SqlV.C13_layout_fixed", "SqlV.C13_not_all"], "note": "every tidy statement of the core grammar, every spelling; outside the core grammar it is false (C13_not_all: literals with line breaks)"},
 {"property": "C14", "status": "proved", "theorems": ["SqlV.C14_case_irrelevant"], "note": "every statement of the core grammar and any two spellings, including other leading zeros of numbers"},
 {"property": "C15", "status": "proved", "theorems": ["SqlV.C15_after_semicolon", "SqlV.C15_semicolon_kept"], "note": "what follows the semicolon: every statement of the core grammar with a semicolon and any rest; the semicolon of the output: every tidy statement of the core grammar"},
 {"property": "C16", "status": "proved", "theorems": ["SqlV.C16_group_without_by", "SqlV.C16_order_without_by"], "note": "every statement of the core grammar before the offending keyword and any tokens after it, even if tokenising them fails"},
 {"property": "C17", "status": "partial", "theorems": ["SqlV.C17_literals_kept_partial", "SqlV.C17_literals_in_place_partial", "SqlV.C17_not_all", "SqlV.C17_quotes"], "note": "Proved for the literals of tidy statements of the core grammar (any content without line breaks, with at most one escaped quote, other than some keywords; quotes of other kinds may stand inside if all literals of the statement have the same kind); false for contents with line breaks (C17_not_all) and with more escaped quotes or quotes of another kind (C17_quotes)."},
 {"property": "C18", "status": "partial", "theorems": ["SqlV.C18_nothing_dropped_partial", "SqlV.C18_not_all"], "note": "False in general: C18_not_all lists fourteen texts and the tokens dropped from them; C15_after_semicolon and C11_not_untidy are further cases. Proved for every tidy statement of the core grammar."},
 {"property": "C19", "status": "proved", "theorems": ["SqlV.C19_integers_keep_value", "SqlV.C19_integers_in_place"], "note": "all digit strings Python converts to integers (at most 4300 digits), and integers in place in every tidy statement of the core grammar"},
 {"property": "C20", "status": "proved", "theorems": ["SqlV.C20_order_irrelevant", "SqlV.C20_two_types_depend_on_order"], "note": "C20_two_types_depend_on_order shows that the condition on types is needed."},
 {"property": "C21", "status": "proved", "theorems": ["SqlV.C21_tables_accept_columns"], "note": "Sub-queries inside expressions must read from tables, too (tablesOnly)."},
 {"property": "C22", "status": "proved", "theorems": ["SqlV.C22_columns_need_from", "SqlV.C22_text_not_valid"], "note": "Columns at any depth of the select list, WHERE and HAVING, outside sub-queries and the constructs that are never looked into (Uses)."},
 {"property": "C23", "status": "partial", "theorems": ["SqlV.C23_outer_columns_exported_partial", "SqlV.C23_missing_column_reported_partial", "SqlV.C23_iff", "SqlV.C23_not_all", "SqlV.C23_qualified_not_exported"], "note": "Proved for sub-queries whose aliased expressions have a type (Exporting); false for an alias of a sub-query (C23_not_all). Qualified columns are not exported (C23_qualified_not_exported)."},
 {"property": "C24", "status": "partial", "theorems": ["SqlV.C24_qualified_columns_partial", "SqlV.C24_qualified_columns_printed", "SqlV.C24_join_iff", "SqlV.C24_not_all"], "note": "Proved for all names but those printed in capitals (Column.KEYWORDS), for which it is false (C24_not_all); for all names it holds of the names as they are printed (C24_qualified_columns_printed; over joins, C24_join_iff)."},
 {"property": "C25", "status": "partial", "theorems": ["SqlV.C25_ambiguous_reported_partial", "SqlV.C25_unambiguous_accepted_partial", "SqlV.C25_missing_reported_partial", "SqlV.C25_iff", "SqlV.C25_valid_exports", "SqlV.C25_star_side_rejected"], "note": "C25_iff says of all queries of plain columns whether they are valid, if neither side exports a name twice. Proved for sides whose aliased expressions have a type (Exporting); false for a side that exports *, whose columns are not found without qualifier (C25_star_side_rejected)."},
 {"property": "C26", "status": "proved", "theorems": ["SqlV.C26_where_errors", "SqlV.C26_having_errors", "SqlV.C26_where_valid", "SqlV.C26_having_valid"], "note": "For expressions with a type (TypeIn): all but sub-queries, CAST and other constructs on which resolving raises."},
 {"property": "C27", "status": "proved", "theorems": ["SqlV.C27_operand_errors", "SqlV.C27_between_bounds", "SqlV.C27_operand_reported"], "note": ""},
 {"property": "C28", "status": "proved", "theorems": ["SqlV.C28_group_by_positions", "SqlV.C28_only_first_in_parentheses"], "note": "A parenthesis of several positions is only looked at for its first (C28_only_first_in_parentheses)."},
 {"property": "C29", "status": "proved", "theorems": ["SqlV.C29_order_by_positions", "SqlV.C29_only_first_in_parentheses"], "note": "A parenthesis of several positions is only looked at for its first (C29_only_first_in_parentheses)."},
 {"property": "C30", "status": "partial", "theorems": ["SqlV.C30_limit_valid", "SqlV.C30_limit_messages_partial", "SqlV.C30_limit_nested_partial", "SqlV.C30_not_all"], "note": "Acceptance and messages are characterised exactly for all arguments. As stated the property is false: LIMIT ALL and sub-queries raise, and of several expressions in parentheses only the first is looked at (C30_not_all)."},
 {"property": "C31", "status": "partial", "theorems": ["SqlV.C31_offset_valid", "SqlV.C31_offset_messages_partial", "SqlV.C31_offset_nested_partial", "SqlV.C31_not_all"], "note": "As C30."},
 {"property": "C32", "status": "proved", "theorems": ["SqlV.C32_join_condition", "SqlV.C32_join_condition_reported"], "note": ""},
 {"property": "C33", "status": "partial", "theorems": ["SqlV.C33_inner_errors_surface_partial", "SqlV.C33_invalid_inside_invalid_partial", "SqlV.C33_sides_of_joins", "SqlV.C33_not_all"], "note": "Proved at any depth of parentheses, aliases and FROM clauses; false for the sides of a join (C33_not_all), of which only the select list and the FROM clause count (C33_sides_of_joins)."},
 {"property": "C34", "status": "partial", "theorems": ["SqlV.C34_core_never_raises_partial", "SqlV.C34_not_all"], "note": "False in general: C34_not_all lists texts and the exceptions raised. Proved for every calm statement of the core grammar without empty parentheses next to AND and OR (firm; calm leaves out CAST, LIMIT ALL, empty parentheses, sub-queries used as booleans or counts, names in GROUP BY that may be ambiguous and positions in ORDER BY of a window).  C77 says exactly of which trees validation raises nothing."},
 {"property": "C35", "status": "partial", "theorems": ["SqlV.C35_group_by_alias_partial", "SqlV.C35_exact", "SqlV.C35_iff", "SqlV.C35_not_all"], "note": "Proved for aliases without AS; false with AS (C35_not_all). C35_exact and C35_iff say for all elements of GROUP BY and for every name whether it is accepted."},
 {"property": "C36", "status": "partial", "theorems": ["SqlV.C36_stable_partial", "SqlV.C36_exact", "SqlV.C36_iff", "SqlV.C36_not_all"], "note": "False once is_valid has raised (C36_not_all). The answer after any calls is characterised for all texts (C36_exact); the property holds for exactly the texts on which is_valid does not raise (C36_iff)."},
 {"property": "C37", "status": "partial", "theorems": ["SqlV.C37_only_queries_change", "SqlV.C37_text_between_tokens_partial", "SqlV.C37_gaps_exact", "SqlV.C37_gaps_places", "SqlV.C37_gaps_stable", "SqlV.C37_blanks_stay", "SqlV.C37_round_trip", "SqlV.C37_tab_counterexample"], "note": "The token-level statement is proved for all files; the text between tokens is kept for files whose tokens are separated by blanks, line continuations and block indentation. For any other text between tokens C37_gaps_exact says what is printed in its place, and C37_gaps_places that lines and columns are the same. False for other white space, e.g. tabs between tokens (C37_tab_counterexample)."},
 {"property": "C38", "status": "proved", "theorems": ["SqlV.C38_nosqlformat"], "note": ""},
 {"property": "C39", "status": "proved", "theorems": ["SqlV.C39_nosqlvalidation"], "note": ""},
 {"property": "C40", "status": "proved", "theorems": ["SqlV.C40_select_strings", "SqlV.C40_others_ignored"], "note": ""},
 {"property": "C41", "status": "proved", "theorems": ["SqlV.C41_prefix_and_quotes"], "note": ""},
 {"property": "C42", "status": "proved", "theorems": ["SqlV.C42_no_write_without_format"], "note": ""},
 {"property": "C43", "status": "proved", "theorems": ["SqlV.C43_changed_files_written", "SqlV.C43_other_files_untouched"], "note": "A changed file that cannot be written is C46 and C51."},
 {"property": "C44", "status": "proved", "theorems": ["SqlV.C44_each_file_once", "SqlV.C44_repeated_inputs"], "note": ""},
 {"property": "C45", "status": "proved", "theorems": ["SqlV.C45_exit_status", "SqlV.C45_exit_status_found", "SqlV.C45_unwritable_not_counted"], "note": "Every run; a file on which an exception is raised counts for nothing (C46, C53), not even its invalid queries if only writing it failed (C45_unwritable_not_counted)."},
 {"property": "C46", "status": "proved", "theorems": ["SqlV.C46_failing_file_unchanged", "SqlV.C46_others_unaffected"], "note": "A write that fails after truncation is C51."},
 {"property": "C47", "status": "proved", "theorems": ["SqlV.C47_counts_are_sums"], "note": ""},
 {"property": "C48", "status": "partial", "theorems": ["SqlV.C48_check_after_format_partial", "SqlV.C48_core_check_after_format_partial", "SqlV.C48_changed_iff", "SqlV.C48_status_iff", "SqlV.C48_iff", "SqlV.C48_not_all"], "note": "C48_iff says for all files that can be read whether it holds. As stated, proved for literals on which formatting is idempotent and files that are read back as printed, and for files whose queries are tidy core statements; false in general (C48_not_all)."},
 {"property": "C49", "status": "proved", "theorems": ["SqlV.C49_check_agrees_with_format"], "note": "Every run; files that cannot be written are taken into account."},
 {"property": "C50", "status": "proved", "theorems": ["SqlV.C50_only_python_files"], "note": ""},
 {"property": "C51", "status": "partial", "theorems": ["SqlV.C51_old_or_new_partial", "SqlV.C51_old_new_or_empty", "SqlV.C51_not_all"], "note": "False between truncation and write (C51_not_all); proved for all other stops. C51_old_new_or_empty says for all stops what each file holds."},
 {"property": "C52", "status": "proved", "theorems": ["SqlV.C52_gating"], "note": ""},
 {"property": "C53", "status": "partial", "theorems": ["SqlV.C53_invalid_query_flagged_partial", "SqlV.C53_flagged_iff", "SqlV.C53_analysed_iff", "SqlV.C53_status_iff", "SqlV.C53_unparsable_not_flagged"], "note": "C53_flagged_iff, C53_analysed_iff and C53_status_iff say exactly which files are flagged, for all queries. As stated, proved for files whose analysis raises nothing (see also C63); false for queries that cannot be parsed (C53_unparsable_not_flagged)."},
 {"property": "C54", "status": "proved", "theorems": ["SqlV.C54_same_queries", "SqlV.C54_locations_printed"], "note": ""},
 {"property": "C55", "status": "proved", "theorems": ["SqlV.C55_format_after_any_calls", "SqlV.C55_verdicts_without_format"], "note": ""},
 {"property": "C56", "status": "proved", "theorems": ["SqlV.C56_balanced_collected", "SqlV.C56_balanced_collected_first", "SqlV.C56_collected_is_balanced"], "note": ""},
 {"property": "C57", "status": "proved", "theorems": ["SqlV.C57_stops_at_first_outer_keyword", "SqlV.C57_stops_at_first_outer_keyword_first", "SqlV.C57_takes_all_without_keyword", "SqlV.C57_returns_prefix", "SqlV.C57_first_token_case"], "note": "C57_first_token_case shows the one spelling dependency."},
 {"property": "C58", "status": "proved", "theorems": ["SqlV.C58_verdict_of_spellings"], "note": ""},
 {"property": "C59", "status": "partial", "theorems": ["SqlV.C59_formatting_keeps_verdict_partial", "SqlV.C59_not_all"], "note": "Proved for every tidy statement of the core grammar; false for names that are printed in capitals (C59_not_all)."},
 {"property": "C60", "status": "proved", "theorems": ["SqlV.C60_column_names"], "note": "for SELECT and a name; in other positions names are covered by C12 (tidy leaves out the thirteen words)"},
 {"property": "C61", "status": "proved", "theorems": ["SqlV.C61_unknown_columns", "SqlV.C61_any_text"], "note": "If is_valid raises, it does not answer; C34 says when it does not raise."},
 {"property": "C62", "status": "proved", "theorems": ["SqlV.C62_format_summary_faithful", "SqlV.C62_validation_summary_faithful", "SqlV.C62_check_last_line", "SqlV.C62_validate_last_line", "SqlV.C62_file_lines", "SqlV.C62_file_lines_faithful"], "note": ""},
 {"property": "C63", "status": "proved", "theorems": ["SqlV.C63_validate_files", "SqlV.C63_check_files"], "note": ""},
 {"property": "C64", "status": "proved", "theorems": ["SqlV.C64_formatting_never_raises", "SqlV.C64_empty_operand"], "note": "C64_empty_operand shows why empty parentheses next to AND and OR are excluded."},
 {"property": "C65", "status": "proved", "theorems": ["SqlV.C65_accepted_over_tables", "SqlV.C65_answer_over_tables", "SqlV.C65_validate_files_over_tables", "SqlV.C65_not_over_subqueries"], "note": "C65_not_over_subqueries shows why queries over sub-queries are excluded: there columns are checked, too (C21-C25)."},
 {"property": "C66", "status": "proved", "theorems": ["SqlV.C66_accepted", "SqlV.C66_answer", "SqlV.C66_validate_files", "SqlV.C66_not_mixed", "SqlV.C66_not_named"], "note": "C66_not_named shows that literals as aliases in a query in FROM raise TypeError. C66_not_mixed shows why columns of the same name must have the same type: otherwise the verdict depends on the iteration order of a Python set."},
 {"property": "C67", "status": "proved", "theorems": ["SqlV.C67_messages", "SqlV.C67_raises", "SqlV.C67_fits", "SqlV.C67_verbose_lines"], "note": "C67_fits relates the messages to C66."},
 {"property": "C68", "status": "proved", "theorems": ["SqlV.C68_equal_iff", "SqlV.C68_reflexive", "SqlV.C68_symmetric", "SqlV.C68_transitive", "SqlV.C68_raises", "SqlV.C68_answers", "SqlV.C68_exact", "SqlV.C68_hides"], "note": "An empty list of DISTINCT ON or PARTITION BY is read as None."},
 {"property": "C69", "status": "proved", "theorems": ["SqlV.C69_one_token", "SqlV.C69_all_distinct"], "note": ""},
 {"property": "C70", "status": "proved", "theorems": ["SqlV.C70_select", "SqlV.C70_call", "SqlV.C70_forgets"], "note": ""},
 {"property": "C71", "status": "proved", "theorems": ["SqlV.C71_from"], "note": ""},
 {"property": "C72", "status": "proved", "theorems": ["SqlV.C72_types"], "note": ""},
 {"property": "C73", "status": "proved", "theorems": ["SqlV.C73_prefix"], "note": ""},
 {"property": "C74", "status": "proved", "theorems": ["SqlV.C74_nothing_read_in", "SqlV.C74_words_are_tokens", "SqlV.C74_words_are_text", "SqlV.C74_invented_quote"], "note": "The last theorem is for the texts of C01.  Closing brackets are left out because the parser does not insist on them, opening quotes because after a raw literal one of them may be read twice."},
 {"property": "C75", "status": "proved", "theorems": ["SqlV.C75_layout_only", "SqlV.C75_format", "SqlV.C75_not_all"], "note": "whole leaves out LIMIT 0 in ARRAY_AGG, semicolons in sub-queries, several expressions in parentheses after WHERE, HAVING, ON, USING, WHEN, FROM, JOIN or next to AND and OR, and statements where str is called on them (C75_not_all); the trees of all statements of the test suite are whole."},
 {"property": "C76", "status": "proved", "theorems": ["SqlV.C76_text_only_if", "SqlV.C76_text_if", "SqlV.C76_format_exact", "SqlV.C76_exceptions", "SqlV.C76_cases"], "note": "Both directions for every tree; they differ only in empty parentheses as an operand of AND or OR, which are printed if the condition is short (C64_empty_operand)."},
 {"property": "C77", "status": "proved", "theorems": ["SqlV.C77_fine_only_if", "SqlV.C77_fine_if", "SqlV.C77_accepted_only_if", "SqlV.C77_accepted_if", "SqlV.C77_exceptions", "SqlV.C77_answer", "SqlV.C77_cases", "SqlV.C77_mixed"], "note": "Both directions for every tree; they differ only where columns of the same name have different types, when Python may take the type of any of them (C77_mixed)."},
 {"property": "C78", "status": "proved", "theorems": ["SqlV.C78_tree", "SqlV.C78_exceptions", "SqlV.C78_format", "SqlV.C78_is_valid", "SqlV.C78_messages", "SqlV.C78_not_built", "SqlV.C78_cases"], "note": "For every text.  The grammar is necessary, not sufficient: not every tree of it is read from some text."},
 {"property": "C79", "status": "proved", "theorems": ["SqlV.C79_messages", "SqlV.C79_only_list", "SqlV.C79_exact", "SqlV.C79_blames", "SqlV.C79_text", "SqlV.C79_cases", "SqlV.C79_two_lists"], "note": "For every tree and every text."},
 {"property": "C80", "status": "proved", "theorems": ["SqlV.C80_marks", "SqlV.C80_line_comment", "SqlV.C80_block_comment", "SqlV.C80_leading_comment", "SqlV.C80_comment_cuts", "SqlV.C80_comment_invalid", "SqlV.C80_comment_quote", "SqlV.C80_comment_raises"], "note": "The first four for all such texts; the last four are witnesses of what the comments do."},
 {"property": "C81", "status": "proved", "theorems": ["SqlV.C81_tokens", "SqlV.C81_raises_iff", "SqlV.C81_kinds", "SqlV.C81_same_quotes"], "note": "For every text."},
 {"property": "C82", "status": "proved", "theorems": ["SqlV.C82_accepts_iff", "SqlV.C82_asks_iff", "SqlV.C82_main", "SqlV.C82_split_inputs"], "note": "For every command line.  The parser of main.py is modelled after argparse of CPython 3.11; the characters that count as digits are a parameter."},
 {"property": "C83", "status": "proved", "theorems": ["SqlV.C83_represented", "SqlV.C83_exceptions", "SqlV.C83_text", "SqlV.C83_double_quotes", "SqlV.C83_plain_strings", "SqlV.C83_characters", "SqlV.C83_printable_kept", "SqlV.C83_strings", "SqlV.C83_strings_differ", "SqlV.C83_not_sql", "SqlV.C83_cases"], "note": "For every tree and every string.  Which characters beyond ASCII can be printed is a parameter.  Empty lists of DISTINCT ON and PARTITION BY are shown as None, see Verif/Repr.lean."},
 {"property": "C84", "status": "proved", "theorems": ["SqlV.C84_touched", "SqlV.C84_text", "SqlV.C84_text_kept", "SqlV.C37_gaps_places"], "note": "For every command line and every file system.  The Python tokeniser is a parameter; the ways in which tokens stand in a text are those of `Stands`."},
 {"property": "C85", "status": "proved", "theorems": ["SqlV.C85_formatted"], "note": "For every command line, every file system, and all statements of the core grammar that are tidy (both are defined in Verif/Spec/Core.lean and Layout.lean without the model).  The Python tokeniser is a parameter."},
 {"property": "C86", "status": "proved", "theorems": ["SqlV.C86_run"], "note": "For every command line and every file system whose files are `Plain` (Verif/Props/Reported.lean).  The texts of the lines are those of C62; what is to be said about a statement is `report` of Verif/Spec/Report.lean."}
]}
