{"claims": [
 {"property": "C01", "status": "partial", "theorems": ["SqlParse.C01_one", "SqlParse.C01_one_outcome", "SqlParse.C01_many_partial", "SqlParse.C01_many_text_partial", "SqlParse.C01_many_hangs_iff", "SqlParse.C01_violated"], "note": "proved in full for parse_statement, with a bound linear in the length; for parse_statements the property is false of the pinned code (C01_violated: the source DELIMITER), proved: it terminates with the same bound unless the last token of the source is the keyword DELIMITER, and it hangs exactly if it meets such a DELIMITER between two statements (C01_many_hangs_iff)"},
 {"property": "C03", "status": "proved", "theorems": ["SqlParse.C03_token_spans"], "note": "any number of next_token calls on any source"},
 {"property": "C04", "status": "proved", "theorems": ["SqlParse.C04_only_trivia_skipped"], "note": ""},
 {"property": "C05", "status": "proved", "theorems": ["SqlParse.C05_token_text"], "note": ""},
 {"property": "C06", "status": "proved", "theorems": ["SqlParse.C06_recognised_iff", "SqlParse.C06_not_a_keyword", "SqlParse.C06_own_name", "SqlParse.C06_word_token", "SqlParse.C06_case_insensitive"], "note": ""},
 {"property": "C02", "status": "proved", "theorems": ["SqlParse.C02_panics"], "note": "both entry points, both build modes; the listed situations are characterised lexically and shown reachable"},
 {"property": "C08", "status": "proved", "theorems": ["SqlParse.C08_issues_append_only"], "note": "both entry points"},
 {"property": "C09", "status": "proved", "theorems": ["SqlParse.C09_issue_segments"], "note": "Issues object created from the same source"},
 {"property": "C14", "status": "proved", "theorems": ["SqlParse.C14_warnings", "SqlParse.C14_same_ast", "SqlParse.C14_style"], "note": "both entry points"},
 {"property": "C15", "status": "proved", "theorems": ["SqlParse.C15_independent_of_earlier_issues"], "note": "both entry points, also for panics and unfinished runs"},
 {"property": "C10", "status": "proved", "theorems": ["SqlParse.C10_none_is_reported", "SqlParse.C27_listing", "SqlParse.C29_recovery"], "note": "parse_statement: C10_none_is_reported; parse_statements: a text that gives no statement is a failed or skipped round, and every round that is not clean adds an Error issue"},
 {"property": "C11", "status": "proved", "theorems": ["SqlParse.C11_no_placeholder"], "note": "both entry points"},
 {"property": "C12", "status": "proved", "theorems": ["SqlParse.C12_all_input_consumed"], "note": ""},
 {"property": "C13", "status": "proved", "theorems": ["SqlParse.C13_spans_valid"], "note": "both entry points, all stored spans and all computed spans"},
 {"property": "C16", "status": "proved", "theorems": ["SqlParse.C16_positional", "SqlParse.C16_order"], "note": "across all statements of a call"},
 {"property": "C17", "status": "proved", "theorems": ["SqlParse.C17_dollar"], "note": ""},
 {"property": "C18", "status": "proved", "theorems": ["SqlParse.C18_grouping", "SqlParse.C18_unique"], "note": "every successful run of parse_expression from any state that can occur; binary, prefix and postfix (IN, IS) operators; an operand is whatever is not made by an operator, or is in parentheses"},
 {"property": "C19", "status": "partial", "theorems": ["SqlParse.C19_restored_partial", "SqlParse.C19_without_trigger", "SqlParse.C19_violated"], "note": "the property is false of the pinned code (C19_violated); proved: the delimiter is always restored, and so is the mode, by successful and failing statements, unless it is switched on, an Error issue is added and the source has the keyword TRIGGER; in full for sources without the word TRIGGER"},
 {"property": "C20", "status": "partial", "theorems": ["SqlParse.C20_partial", "SqlParse.C20_without_trigger", "SqlParse.C20_violated", "SqlParse.C45_isolated"], "note": "the property is false of the pinned code (C20_violated); proved: the rest depends only on position, argument counter, delimiter (restored) and mode; in full for sources without the word TRIGGER"},
 {"property": "C21", "status": "proved", "theorems": ["SqlParse.C21_eq", "SqlParse.C21_cmp", "SqlParse.C21_order"], "note": ""},
 {"property": "C22", "status": "proved", "theorems": ["SqlParse.C22_join", "SqlParse.C22_laws", "SqlParse.C22_list", "SqlParse.C22_tuples", "SqlParse.C22_ast_list"], "note": ""},
 {"property": "C23", "status": "proved", "theorems": ["SqlParse.C23_display", "SqlParse.C23_displayable"], "note": "Display is total exactly when every fragment starts at a character boundary, which holds for every issue the parser reports"},
 {"property": "C24", "status": "proved", "theorems": ["SqlParse.C24_data", "SqlParse.C24_copy_data", "SqlParse.C24_data_unique"], "note": "COPY statements in the list of parse_statements, also when other tokens come before the delimiter"},
 {"property": "C25", "status": "proved", "theorems": ["SqlParse.C25_dialect"], "note": "all constructs the parser gates by dialect"},
 {"property": "C26", "status": "proved", "theorems": ["SqlParse.C26_identifiers"], "note": "both entry points"},
 {"property": "C27", "status": "proved", "theorems": ["SqlParse.C27_listing"], "note": ""},
 {"property": "C29", "status": "proved", "theorems": ["SqlParse.C29_recovery"], "note": ""},
 {"property": "C28", "status": "proved", "theorems": ["SqlParse.C28_integers"], "note": "integer literals of the AST"},
 {"property": "C30", "status": "proved", "theorems": ["SqlParse.C30_source_order"], "note": ""},
 {"property": "C34", "status": "proved", "theorems": ["SqlParse.C26_identifiers"], "note": "same theorem as C26"},
 {"property": "C35", "status": "proved", "theorems": ["SqlParse.C35_kind_one", "SqlParse.C35_kind_many"], "note": "both entry points"},
 {"property": "C36", "status": "proved", "theorems": ["SqlParse.C36_insert_shape"], "note": ""},
 {"property": "C37", "status": "proved", "theorems": ["SqlParse.C37_written_iff", "SqlParse.C37_every_source"], "note": ""},
 {"property": "C07", "status": "partial", "theorems": ["SqlParse.C07_single_quoted_partial", "SqlParse.C07_double_quoted_partial", "SqlParse.C07_single_quoted_iff", "SqlParse.C07_double_quoted_iff", "SqlParse.C07_violated"], "note": "the property is false of the pinned code (C07_violated); proved for texts without backslash (in double quotes: and without double quote), and that these are exactly the literals with the right value: the two iff theorems"},
 {"property": "C31", "status": "proved", "theorems": ["SqlParse.C31_qualified_name"], "note": "parts may be words, back quoted or (PostgreSQL) double quoted"},
 {"property": "C32", "status": "partial", "theorems": ["SqlParse.C32_least_cover_partial", "SqlParse.C32_covers_partial", "SqlParse.C32_violated"], "note": "the property is false of the pinned code (C32_violated); proved: the span is the least cover of all stored spans apart from the fields span() leaves out (five kinds of nodes), and covers everything in values without such nodes"},
 {"property": "C33", "status": "proved", "theorems": ["SqlParse.C33_drop_table"], "note": "with and without IF EXISTS"},
 {"property": "C38", "status": "proved", "theorems": ["SqlParse.C38_statement", "SqlParse.C38_script", "SqlParse.C38_statement_style", "SqlParse.C38_script_style"], "note": "grammar: Verif/Spec/Phrase.lean, Grammar.lean, GrammarStmt.lean, GrammarScript.lean; all statements the parser knows; scripts with DELIMITER changes; COPY FROM STDIN data, also inside of blocks"},
 {"property": "C39", "status": "proved", "theorems": ["SqlParse.C39_statement", "SqlParse.C39_script", "SqlParse.C39_statement_iff", "SqlParse.C39_script_iff"], "note": "for every source, every dialect, argument style and flag, with or without overflow checks; COPY data included, also inside of blocks"},
 {"property": "C40", "status": "proved", "theorems": ["SqlParse.C40_statement", "SqlParse.C40_script"], "note": ""},
 {"property": "C41", "status": "proved", "theorems": ["SqlParse.C41_rounds_iff"], "note": ""},
 {"property": "C42", "status": "proved", "theorems": ["SqlParse.C42_layout", "SqlParse.C42_noSpans"], "note": "all sources written token by token (C37) without the word COPY; also with errors, panics and the DELIMITER hang"},
 {"property": "C43", "status": "proved", "theorems": ["SqlParse.C43_texts", "SqlParse.C43_case", "SqlParse.C43_rename"], "note": "sources without the word COPY"},
 {"property": "C44", "status": "proved", "theorems": ["SqlParse.C44_compose", "SqlParse.C44_compose_back"], "note": "forward and backward; a without COPY and DELIMITER, b arbitrary"},
 {"property": "C45", "status": "proved", "theorems": ["SqlParse.C45_isolated", "SqlParse.C45_isolated_back"], "note": "a without compound statements (Flat), DELIMITER and COPY; any errors in a, b arbitrary"},
 {"property": "C46", "status": "proved", "theorems": ["SqlParse.C46_messages", "SqlParse.C46_default_violated"], "note": "both entry points, every message; the truth of each kind of message is Issue.Truth in Spec/Truth.lean, with the words and tokens that each text names (namedWords, namedTokens, Token.ofKind); the one text that the pinned code uses wrongly has the witness C46_default_violated"},
 {"property": "C47", "status": "partial", "theorems": ["SqlParse.C47_partial", "SqlParse.C47_violated"], "note": "the property is false of the pinned code (C47_violated); proved for words made of letters"},
 {"property": "C48", "status": "proved", "theorems": ["SqlParse.C48_unquoted"], "note": ""},
 {"property": "C49", "status": "proved", "theorems": ["SqlParse.C49_no_internal_error"], "note": ""},
 {"property": "C50", "status": "proved", "theorems": ["SqlParse.C50_agree", "SqlParse.C50_forward", "SqlParse.C50_back", "SqlParse.C50_style"], "note": ""},
 {"property": "C51", "status": "proved", "theorems": ["SqlParse.C51_statement", "SqlParse.C51_script", "SqlParse.C51_reported", "SqlParse.C51_dollars"], "note": "C51_dollars shows that the exception in the statement (PostgreSQL function texts) is needed."},
 {"property": "C52", "status": "proved", "theorems": ["SqlParse.C52_persist", "SqlParse.C52_viable"], "note": "for sources without COPY (its data is not made of tokens)"},
 {"property": "C53", "status": "proved", "theorems": ["SqlParse.C53_reports", "SqlParse.C53_later_stages", "SqlParse.C53_parser", "SqlParse.C53_macros"], "note": ""},
 {"property": "C54", "status": "proved", "theorems": ["SqlParse.C54_options", "SqlParse.C54_dialect", "SqlParse.C54_order"], "note": ""},
 {"property": "C55", "status": "partial", "theorems": ["SqlParse.C55_reserved_partial", "SqlParse.C55_first_partial", "SqlParse.C55_unchecked_missed", "SqlParse.C55_violated"], "note": "the property is false of the pinned code (C55_violated); proved, both entry points, no Error reported, MariaDB or SQLite, for every reserved keyword except a list of 49, each of which is shown to be missed (C55_unchecked_missed); and for the keyword that begins a statement in every call of parse_statement"},
 {"property": "C56", "status": "proved", "theorems": ["SqlParse.C56_dialects_agree", "SqlParse.C56_real"], "note": "all sources without COPY and without the words REAL, PRECISION, FUNCTION, CASCADE, IDENTITY, every pair of dialects, both entry points; C56_real shows that REAL really is an exception in the pinned code"},
 {"property": "C57", "status": "proved", "theorems": ["SqlParse.C57_unused_options"], "note": "all sources without COPY, also erroneous ones, both entry points, both directions"},
 {"property": "C58", "status": "proved", "theorems": ["SqlParse.C58_mistakes", "SqlParse.C58_mistakes_style", "SqlParse.C58_script", "SqlParse.C58_script_style"], "note": "sources without COPY data; the mistakes are those listed; Spec/Recover is the grammar with mistakes"},
 {"property": "C59", "status": "proved", "theorems": ["SqlParse.C59_reported_and_understood"], "note": "all sources without COPY and without the words REAL, PRECISION, FUNCTION, CASCADE, IDENTITY, every pair of dialects, both entry points; the list of messages is Spec/Dialects.lean"},
 {"property": "C60", "status": "proved", "theorems": ["SqlParse.C60_reads", "SqlParse.C60_every", "SqlParse.C60_determined", "SqlParse.C60_unambiguous"], "note": "trees without variables, arguments, subqueries, INTERVAL, CAST, EXTRACT, GROUP_CONCAT, TIMESTAMPADD/DIFF and window functions; the vocabulary is Spec/Trees.lean"},
 {"property": "C61", "status": "proved", "theorems": ["SqlParse.C61_reads", "SqlParse.C61_every", "SqlParse.C61_determined", "SqlParse.C61_unambiguous"], "note": "queries without subqueries, USING, index hints, WINDOW, locking clauses and UNION; LIMIT takes numbers; a RIGHT JOIN does not directly follow an ON condition; the vocabulary is Spec/Queries.lean over Spec/Trees.lean"},
 {"property": "C62", "status": "proved", "theorems": ["SqlParse.C62_reads", "SqlParse.C62_every", "SqlParse.C62_determined", "SqlParse.C62_unambiguous"], "note": "columns of the built-in types; not CONSTRAINT, PRIMARY KEY, INDEX and FOREIGN KEY definitions and PostgreSQL's named types; the value of DEFAULT is a literal, a function without arguments, or in parentheses, and is not directly followed by a property whose word the parser takes for a part of it (NULL, AUTO_INCREMENT, ..); CHARACTER SET and COLLATE of a column are one property, since the AST does not tell them apart; the vocabulary is Spec/Tables.lean over Spec/Trees.lean"},
 {"property": "C63", "status": "proved", "theorems": ["SqlParse.C63_reads", "SqlParse.C63_every", "SqlParse.C63_determined", "SqlParse.C63_unambiguous"], "note": "all of INSERT, REPLACE, UPDATE and DELETE, but INSERT .. SELECT not with ON or RETURNING, and no WITH in front; the vocabulary is Spec/Changes.lean over Spec/Queries.lean and Spec/Trees.lean"},
 {"property": "C64", "status": "proved", "theorems": ["SqlParse.C64_reads", "SqlParse.C64_every", "SqlParse.C64_determined", "SqlParse.C64_unambiguous"], "note": "TEMPORARY only with tables and views (elsewhere the parser accepts and forgets it); the vocabulary is Spec/Disposals.lean"},
 {"property": "C65", "status": "proved", "theorems": ["SqlParse.C65_reads", "SqlParse.C65_every", "SqlParse.C65_determined", "SqlParse.C65_unambiguous"], "note": "the column types and properties of C62; ADD COLUMN IF NOT EXISTS not in MariaDB; a CONSTRAINT before ADD COLUMN (which the parser accepts and forgets) is not covered; the kind of an added index is the one the AST has, which makes UNIQUE and SPATIAL indices FullText, and NO ACTION is SetNull; the optional names of indices and constraints are words or back quoted, not in PostgreSQL double quotes; the vocabulary is Spec/Alterations.lean over Spec/Tables.lean and Spec/Trees.lean"},
 {"property": "C66", "status": "proved", "theorems": ["SqlParse.C66_reads", "SqlParse.C66_every", "SqlParse.C66_determined", "SqlParse.C66_unambiguous"], "note": "the queries of C61; of the words before VIEW only OR REPLACE and TEMPORARY, not ALGORITHM, DEFINER and SQL SECURITY; the vocabulary is Spec/Views.lean over Spec/Queries.lean"}
]}
