#!/usr/bin/env python3
"""Writes MANIFEST.json from the table below."""
import json, os
T = [
 ("C01", "partial", ["C01_one", "C01_one_outcome", "C01_many_partial", "C01_many_text_partial", "C01_many_hangs_iff", "C01_violated"], "proved in full for parse_statement, with a bound linear in the length; for parse_statements the property is false of the pinned code (C01_violated: the source DELIMITER), proved: it terminates with the same bound unless the last token of the source is the keyword DELIMITER, and it hangs exactly if it meets such a DELIMITER between two statements (C01_many_hangs_iff)"),
 ("C03", "proved", ["C03_token_spans"], "any number of next_token calls on any source"),
 ("C04", "proved", ["C04_only_trivia_skipped"], ""),
 ("C05", "proved", ["C05_token_text"], ""),
 ("C06", "proved", ["C06_recognised_iff", "C06_not_a_keyword", "C06_own_name", "C06_word_token", "C06_case_insensitive"], ""),
 ("C02", "proved", ["C02_panics"], "both entry points, both build modes; the listed situations are characterised lexically and shown reachable"),
 ("C08", "proved", ["C08_issues_append_only"], "both entry points"),
 ("C09", "proved", ["C09_issue_segments"], "Issues object created from the same source"),
 ("C14", "proved", ["C14_warnings", "C14_same_ast", "C14_style"], "both entry points"),
 ("C15", "proved", ["C15_independent_of_earlier_issues"], "both entry points, also for panics and unfinished runs"),
 ("C10", "proved", ["C10_none_is_reported", "C27_listing", "C29_recovery"], "parse_statement: C10_none_is_reported; parse_statements: a text that gives no statement is a failed or skipped round, and every round that is not clean adds an Error issue"),
 ("C11", "proved", ["C11_no_placeholder"], "both entry points"),
 ("C12", "proved", ["C12_all_input_consumed"], ""),
 ("C13", "proved", ["C13_spans_valid"], "both entry points, all stored spans and all computed spans"),
 ("C16", "proved", ["C16_positional", "C16_order"], "across all statements of a call"),
 ("C17", "proved", ["C17_dollar"], ""),
 ("C18", "proved", ["C18_grouping", "C18_unique"], "every successful run of parse_expression from any state that can occur; binary, prefix and postfix (IN, IS) operators; an operand is whatever is not made by an operator, or is in parentheses"),
 ("C19", "partial", ["C19_restored_partial", "C19_without_trigger", "C19_violated"], "the property is false of the pinned code (C19_violated); proved: the delimiter is always restored, and so is the mode, by successful and failing statements, unless it is switched on, an Error issue is added and the source has the keyword TRIGGER; in full for sources without the word TRIGGER"),
 ("C20", "partial", ["C20_partial", "C20_without_trigger", "C20_violated", "C45_isolated"], "the property is false of the pinned code (C20_violated); proved: the rest depends only on position, argument counter, delimiter (restored) and mode; in full for sources without the word TRIGGER"),
 ("C21", "proved", ["C21_eq", "C21_cmp", "C21_order"], ""),
 ("C22", "proved", ["C22_join", "C22_laws", "C22_list", "C22_tuples", "C22_ast_list"], ""),
 ("C23", "proved", ["C23_display", "C23_displayable"], "Display is total exactly when every fragment starts at a character boundary, which holds for every issue the parser reports"),
 ("C24", "proved", ["C24_data", "C24_copy_data", "C24_data_unique"], "COPY statements in the list of parse_statements, also when other tokens come before the delimiter"),
 ("C25", "proved", ["C25_dialect"], "all constructs the parser gates by dialect"),
 ("C26", "proved", ["C26_identifiers"], "both entry points"),
 ("C27", "proved", ["C27_listing"], ""),
 ("C29", "proved", ["C29_recovery"], ""),
 ("C28", "proved", ["C28_integers"], "integer literals of the AST"),
 ("C30", "proved", ["C30_source_order"], ""),
 ("C34", "proved", ["C26_identifiers"], "same theorem as C26"),
 ("C35", "proved", ["C35_kind_one", "C35_kind_many"], "both entry points"),
 ("C36", "proved", ["C36_insert_shape"], ""),
 ("C37", "proved", ["C37_written_iff", "C37_every_source"], ""),
 ("C07", "partial", ["C07_single_quoted_partial", "C07_double_quoted_partial", "C07_single_quoted_iff", "C07_double_quoted_iff", "C07_violated"], "the property is false of the pinned code (C07_violated); proved for texts without backslash (in double quotes: and without double quote), and that these are exactly the literals with the right value: the two iff theorems"),
 ("C31", "proved", ["C31_qualified_name"], "parts may be words, back quoted or (PostgreSQL) double quoted"),
 ("C32", "partial", ["C32_least_cover_partial", "C32_covers_partial", "C32_violated"], "the property is false of the pinned code (C32_violated); proved: the span is the least cover of all stored spans apart from the fields span() leaves out (five kinds of nodes), and covers everything in values without such nodes"),
 ("C33", "proved", ["C33_drop_table"], "with and without IF EXISTS"),
 ("C38", "proved", ["C38_statement", "C38_script", "C38_statement_style", "C38_script_style"], "grammar: Verif/Spec/Phrase.lean, Grammar.lean, GrammarStmt.lean, GrammarScript.lean; all statements the parser knows; scripts with DELIMITER changes; COPY FROM STDIN data, also inside of blocks"),
 ("C39", "proved", ["C39_statement", "C39_script", "C39_statement_iff", "C39_script_iff"], "for every source, every dialect, argument style and flag, with or without overflow checks; COPY data included, also inside of blocks"),
 ("C40", "proved", ["C40_statement", "C40_script"], ""),
 ("C41", "proved", ["C41_rounds_iff"], ""),
 ("C42", "proved", ["C42_layout", "C42_noSpans"], "all sources written token by token (C37) without the word COPY; also with errors, panics and the DELIMITER hang"),
 ("C43", "proved", ["C43_texts", "C43_case", "C43_rename"], "sources without the word COPY"),
 ("C44", "proved", ["C44_compose", "C44_compose_back"], "forward and backward; a without COPY and DELIMITER, b arbitrary"),
 ("C45", "proved", ["C45_isolated", "C45_isolated_back"], "a without compound statements (Flat), DELIMITER and COPY; any errors in a, b arbitrary"),
 ("C46", "proved", ["C46_messages", "C46_default_violated"], "both entry points, every message; the truth of each kind of message is Issue.Truth in Spec/Truth.lean, with the words and tokens that each text names (namedWords, namedTokens, Token.ofKind); the one text that the pinned code uses wrongly has the witness C46_default_violated"),
 ("C47", "partial", ["C47_partial", "C47_violated"], "the property is false of the pinned code (C47_violated); proved for words made of letters"),
 ("C48", "proved", ["C48_unquoted"], ""),
 ("C49", "proved", ["C49_no_internal_error"], ""),
 ("C50", "proved", ["C50_agree", "C50_forward", "C50_back", "C50_style"], ""),
 ("C51", "proved", ["C51_statement", "C51_script", "C51_reported", "C51_dollars"], "C51_dollars shows that the exception in the statement (PostgreSQL function texts) is needed."),
 ("C52", "proved", ["C52_persist", "C52_viable"], "for sources without COPY (its data is not made of tokens)"),
 ("C53", "proved", ["C53_reports", "C53_later_stages", "C53_parser", "C53_macros"], ""),
 ("C54", "proved", ["C54_options", "C54_dialect", "C54_order"], ""),
 ("C55", "partial", ["C55_reserved_partial", "C55_first_partial", "C55_unchecked_missed", "C55_violated"], "the property is false of the pinned code (C55_violated); proved, both entry points, no Error reported, MariaDB or SQLite, for every reserved keyword except a list of 49, each of which is shown to be missed (C55_unchecked_missed); and for the keyword that begins a statement in every call of parse_statement"),
 ("C56", "proved", ["C56_dialects_agree", "C56_real"], "all sources without COPY and without the words REAL, PRECISION, FUNCTION, CASCADE, IDENTITY, every pair of dialects, both entry points; C56_real shows that REAL really is an exception in the pinned code"),
 ("C57", "proved", ["C57_unused_options"], "all sources without COPY, also erroneous ones, both entry points, both directions"),
 ("C58", "proved", ["C58_mistakes", "C58_mistakes_style", "C58_script", "C58_script_style"], "sources without COPY data; the mistakes are those listed; Spec/Recover is the grammar with mistakes"),
 ("C59", "proved", ["C59_reported_and_understood"], "all sources without COPY and without the words REAL, PRECISION, FUNCTION, CASCADE, IDENTITY, every pair of dialects, both entry points; the list of messages is Spec/Dialects.lean"),
 ("C60", "proved", ["C60_reads", "C60_every", "C60_determined", "C60_unambiguous"], "trees without variables, arguments, subqueries, INTERVAL, CAST, EXTRACT, GROUP_CONCAT, TIMESTAMPADD/DIFF and window functions; the vocabulary is Spec/Trees.lean"),
 ("C61", "proved", ["C61_reads", "C61_every", "C61_determined", "C61_unambiguous"], "queries without subqueries, USING, index hints, WINDOW, locking clauses and UNION; LIMIT takes numbers; a RIGHT JOIN does not directly follow an ON condition; the vocabulary is Spec/Queries.lean over Spec/Trees.lean"),
 ("C62", "proved", ["C62_reads", "C62_every", "C62_determined", "C62_unambiguous"], "columns of the built-in types; not CONSTRAINT, PRIMARY KEY, INDEX and FOREIGN KEY definitions and PostgreSQL's named types; the value of DEFAULT is a literal, a function without arguments, or in parentheses, and is not directly followed by a property whose word the parser takes for a part of it (NULL, AUTO_INCREMENT, ..); CHARACTER SET and COLLATE of a column are one property, since the AST does not tell them apart; the vocabulary is Spec/Tables.lean over Spec/Trees.lean"),
 ("C63", "proved", ["C63_reads", "C63_every", "C63_determined", "C63_unambiguous"], "all of INSERT, REPLACE, UPDATE and DELETE, but INSERT .. SELECT not with ON or RETURNING, and no WITH in front; the vocabulary is Spec/Changes.lean over Spec/Queries.lean and Spec/Trees.lean"),
 ("C64", "proved", ["C64_reads", "C64_every", "C64_determined", "C64_unambiguous"], "TEMPORARY only with tables and views (elsewhere the parser accepts and forgets it); the vocabulary is Spec/Disposals.lean"),
 ("C65", "proved", ["C65_reads", "C65_every", "C65_determined", "C65_unambiguous"], "the column types and properties of C62; ADD COLUMN IF NOT EXISTS not in MariaDB; a CONSTRAINT before ADD COLUMN (which the parser accepts and forgets) is not covered; the kind of an added index is the one the AST has, which makes UNIQUE and SPATIAL indices FullText, and NO ACTION is SetNull; the optional names of indices and constraints are words or back quoted, not in PostgreSQL double quotes; the vocabulary is Spec/Alterations.lean over Spec/Tables.lean and Spec/Trees.lean"),
 ("C66", "proved", ["C66_reads", "C66_every", "C66_determined", "C66_unambiguous"], "the queries of C61; of the words before VIEW only OR REPLACE and TEMPORARY, not ALGORITHM, DEFINER and SQL SECURITY; the vocabulary is Spec/Views.lean over Spec/Queries.lean"),
]
claims = [{"property": p, "status": s, "theorems": ["SqlParse." + t for t in ts], "note": n} for p, s, ts, n in T]
path = os.path.join(os.path.dirname(__file__), "..", "MANIFEST.json")
with open(path, "w") as f:
    f.write('{"claims": [\n' + ",\n".join(" " + json.dumps(c) for c in claims) + "\n]}\n")
