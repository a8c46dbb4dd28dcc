{"id": "C01", "title": "Parsing always terminates", "statement": "parse_statements and parse_statement return for every source text, option set and dialect; running time is bounded by a function of the source length.  (The pinned code violates this for a DELIMITER keyword that is the last token: it then spins forever.)", "quantifier": "every source string, option set and initial issue list", "why_tests_cant": "a hang shows only on the inputs that trigger it; termination is a claim about all inputs", "anchors": ["src/statement.rs:parse_statements", "src/parser.rs:Parser::recover", "src/lib.rs:parse_statement"]}
{"id": "C02", "title": "Parsing never panics outside three listed situations", "statement": "With an Issues object created from the same source, parse_statements/parse_statement never panic, except: a hex literal x'..' at token position (todo!), a $N argument that overflows usize, or a WITH query holding a statement that has no span (empty BEGIN/DO block).", "quantifier": "every source string, dialect, argument mode and flag", "why_tests_cant": "panics depend on rare combinations of byte offsets, nesting and recovery paths that sampling does not enumerate", "anchors": ["src/issue.rs:Issues::segment", "src/lexer.rs:Lexer::next_token", "src/span.rs", "src/with_query.rs:parse_with_query", "src/statement.rs:Statement::span"]}
{"id": "C03", "title": "Token spans are ordered, disjoint, non-empty, in bounds and on character boundaries", "statement": "Successive tokens of any source occupy successive, non-overlapping, non-empty byte ranges inside the source, each on UTF-8 character boundaries; the end-of-file token is the empty range at the end and repeats forever.", "quantifier": "every source string (any Unicode), every position in the token stream", "why_tests_cant": "multi-byte characters, unterminated literals and comments interact in unboundedly many ways", "anchors": ["src/lexer.rs:Lexer::next_token"]}
{"id": "C04", "title": "Only white space and comments are skipped", "statement": "Every byte of the source that is not inside a token is part of blank space (space, tab, CR, LF), a line comment (-- or // up to the end of the line) or a closed /* */ comment.", "quantifier": "every source string", "why_tests_cant": "silently dropped SQL is only visible on the inputs that drop it", "anchors": ["src/lexer.rs:Lexer::next_token"]}
{"id": "C05", "title": "Token text is exactly the source text", "statement": "Words, numbers, quoted identifiers and string literals carry exactly the source slice under their span (minus the quotes for quoted tokens).", "quantifier": "every token of every source", "why_tests_cant": "off-by-one slices appear only for particular neighbours or multi-byte characters", "anchors": ["src/lexer.rs:Lexer::s", "src/lexer.rs:Lexer::simple_literal"]}
{"id": "C06", "title": "Keywords are recognised exactly and case-insensitively", "statement": "A word is recognised as keyword K iff its ASCII upper-casing is K's name; changing the ASCII case of a word never changes the keyword; every listed keyword is recognised from its own name.", "quantifier": "every word and every case variant, every keyword", "why_tests_cant": "700+ keywords times exponentially many case variants", "anchors": ["src/keywords.rs", "src/lexer.rs:Lexer::simple_literal"]}
{"id": "C07", "title": "String literals denote their text with escaping removed", "statement": "The value of a string literal is its text with quote escaping removed: encoding any text by doubling quotes and parsing the literal gives back the text.  (Holds for single quoted literals without backslashes; the pinned code violates it for backslash escapes and for double quoted literals containing quotes.)", "quantifier": "every text", "why_tests_cant": "the space of texts is infinite; the failing ones need special characters", "anchors": ["src/parser.rs:decode_single_quoted_string", "src/parser.rs:decode_double_quoted_string", "src/parser.rs:Parser::consume_string", "src/lexer.rs:Lexer::next_token"]}
{"id": "C08", "title": "The issue list is append only", "statement": "Parsing only appends to the caller's issue list: everything already in it stays, unmodified and in order.", "quantifier": "every source, options and initial issue list", "why_tests_cant": "a history property over arbitrary previous contents", "anchors": ["src/issue.rs:Issues::err", "src/issue.rs:Issues::warn", "src/issue.rs:IssueHandle::frag"]}
{"id": "C09", "title": "Every issue points at real source text", "statement": "Every issue and fragment produced has a span inside the source, on character boundaries, and its sql_segment is exactly the source text under that span.", "quantifier": "every source and option set, every issue produced", "why_tests_cant": "spans are computed by joins on all the error paths", "anchors": ["src/issue.rs", "src/parser.rs:Parser::err"]}
{"id": "C10", "title": "Failure is always reported", "statement": "If parse_statement returns None, or parse_statements skips a statement, at least one Error level issue has been added: no statement is dropped silently.", "quantifier": "every source and option set", "why_tests_cant": "there are hundreds of error return paths, nested and recovered", "anchors": ["src/lib.rs:parse_statement", "src/parser.rs:Parser::recovered", "src/statement.rs:parse_statements"]}
{"id": "C11", "title": "No Error issue means no placeholder in the AST", "statement": "If parsing adds no Error level issue then the returned AST contains no Invalid expression, no Invalid statement, no Unknown function.", "quantifier": "every source and option set", "why_tests_cant": "placeholders are produced deep in recovery code", "anchors": ["src/expression.rs:Expression::Invalid", "src/statement.rs:Statement::Invalid", "src/parser.rs:Parser::recovered"]}
{"id": "C12", "title": "Error free parse_statement consumed all input", "statement": "If parse_statement adds no Error issue, then it returned a statement and the whole source was consumed up to end of file.", "quantifier": "every source and option set", "why_tests_cant": "trailing garbage accepted silently shows only on particular tails", "anchors": ["src/lib.rs:parse_statement"]}
{"id": "C13", "title": "All AST spans are valid", "statement": "Every span stored anywhere in a returned AST lies inside the source on character boundaries with start <= end, and so does the computed span of every node.", "quantifier": "every source, every node of the returned AST", "why_tests_cant": "spans are joined along every grammar path", "anchors": ["src/span.rs", "src/expression.rs:Expression::span", "src/statement.rs:Statement::span"]}
{"id": "C14", "title": "Warning flags never change the AST", "statement": "warn_unquoted_identifiers and warn_none_capital_keywords affect only the issue list: the returned AST is the same whatever their values, and switching them on only puts more issues, about style, into the list: the other issues stay, in the same order.", "quantifier": "every source, all other options, all pairs of flag settings", "why_tests_cant": "a relational property between two runs on every input", "anchors": ["src/parser.rs:Parser::consume_plain_identifier", "src/parser.rs:Parser::consume_keyword", "src/parser.rs:Parser::token_to_plain_identifier", "src/lib.rs:ParseOptions"]}
{"id": "C15", "title": "Result does not depend on earlier issues", "statement": "The AST and the newly added issues are the same whatever the issue list contained before.", "quantifier": "every source, options and pair of initial issue lists", "why_tests_cant": "a relational property over arbitrary histories", "anchors": ["src/issue.rs", "src/lib.rs:parse_statements"]}
{"id": "C16", "title": "Positional arguments are numbered in order without repetition", "statement": "With '?' (or '%s') arguments, the occurrence numbers of arguments and _LIST_ markers in the returned AST are pairwise distinct, start from 0 and every number is below the number of marker tokens in the source.", "quantifier": "every source with positional arguments, all statements of a parse_statements call", "why_tests_cant": "numbering is threaded through every expression context", "anchors": ["src/expression.rs:parse_expression", "src/parser.rs:Parser::arg"]}
{"id": "C17", "title": "Dollar arguments keep their number", "statement": "$n (1 <= n < 2^64) is parsed as argument n-1.", "quantifier": "every n and every surrounding text", "why_tests_cant": "the range of n is 2^64; overflow behaviour only shows at the edge", "anchors": ["src/lexer.rs:Lexer::next_token", "src/expression.rs:parse_expression"]}
{"id": "C18", "title": "Operators are grouped by the priority table", "statement": "For every sequence of operands, prefix and binary operators the parsed tree has exactly that in-order sequence and is the only tree respecting the operator priorities, with equal priorities grouping to the left.", "quantifier": "every operator/operand sequence of any length", "why_tests_cant": "trees of every shape and size", "anchors": ["src/expression.rs:Reducer", "src/expression.rs:Priority"]}
{"id": "C19", "title": "Delimiter and compound flag are restored", "statement": "Parsing a statement leaves the active delimiter as it was, also on errors; the permit-compound-statements mode is restored after every successful statement.  (The pinned code leaks the mode when a CREATE TRIGGER body fails.)", "quantifier": "every statement, every nesting and error path", "why_tests_cant": "the restore must happen on all error paths", "anchors": ["src/statement.rs:parse_statement_list", "src/create.rs:parse_create_trigger"]}
{"id": "C20", "title": "A failed statement does not influence later statements", "statement": "What parse_statements returns for the statements after an erroneous one does not depend on the erroneous one, other than through argument numbering.  (Violated: a failed CREATE TRIGGER changes how a later BEGIN is parsed.)", "quantifier": "every erroneous statement followed by any statements", "why_tests_cant": "needs all failing prefixes", "anchors": ["src/statement.rs:parse_statements", "src/create.rs:parse_create_trigger"]}
{"id": "C21", "title": "Identifiers compare by value only", "statement": "Identifier equality and ordering ignore spans, are consistent with each other and with the ordering of the underlying strings (so lookup through Borrow<str> is sound), and form a total order.", "quantifier": "every pair and triple of identifiers", "why_tests_cant": "order laws quantify over triples", "anchors": ["src/identifier.rs"]}
{"id": "C22", "title": "join_span is the least covering span", "statement": "The joined span contains both spans and is contained in every span containing both; joining is associative, commutative, idempotent; the span of a list is the least span covering its elements.", "quantifier": "every pair/list of spans", "why_tests_cant": "laws over all naturals and list lengths", "anchors": ["src/span.rs"]}
{"id": "C23", "title": "Displayed line numbers are right", "statement": "Displaying issues prints, for each issue and fragment in order, its level, message, source text and a line number equal to one plus the number of newlines before its span; an empty list prints No issues.", "quantifier": "every issue list over every source", "why_tests_cant": "all texts and offsets", "anchors": ["src/issue.rs:Display"]}
{"id": "C24", "title": "COPY FROM STDIN data is delimited correctly", "statement": "After COPY .. FROM STDIN; the data returned is the text from the next line up to and including the newline before the first line that is exactly \\. , or up to end of file if there is none, and parsing resumes after that line.", "quantifier": "every text following the statement", "why_tests_cant": "all data contents, including near-terminators", "anchors": ["src/lexer.rs:Lexer::read_from_stdin", "src/statement.rs:parse_statements"]}
{"id": "C25", "title": "Dialect restricted features are reported", "statement": "If no Error issue is added, the AST contains no construct the selected dialect does not support among those the parser gates: WITH and ON CONFLICT and UPDATE..RETURNING and CREATE TYPE outside PostgreSQL, index hints and ON DUPLICATE KEY outside MariaDB, NO KEY UPDATE/KEY SHARE locking outside PostgreSQL, DROP INDEX without ON in MariaDB or with ON in PostgreSQL, partial indexes in MariaDB.", "quantifier": "every source and dialect", "why_tests_cant": "the constructs can be nested anywhere", "anchors": ["src/with_query.rs", "src/insert_replace.rs", "src/select.rs", "src/update.rs", "src/create.rs", "src/drop.rs"]}
{"id": "C26", "title": "Reserved words are never accepted silently as plain identifiers", "statement": "Whenever a reserved keyword is used where a plain identifier is required, an Error issue is added.", "quantifier": "every source, every identifier position, every reserved keyword", "why_tests_cant": "all keywords times all positions", "anchors": ["src/parser.rs:Parser::consume_plain_identifier", "src/keywords.rs"]}
{"id": "C27", "title": "DELIMITER changes the statement terminator", "statement": "After DELIMITER $$ statements are terminated by $$ only, until the next DELIMITER; ; inside does not end the outer statement.", "quantifier": "every statement list", "why_tests_cant": "all lists of statements", "anchors": ["src/statement.rs:parse_statements"]}
{"id": "C28", "title": "Integer literals are exact or reported", "statement": "An integer literal denotes exactly its decimal value; if the value does not fit the target type an Error issue is added.", "quantifier": "every digit string", "why_tests_cant": "infinitely many digit strings, boundary at 2^64", "anchors": ["src/parser.rs:Parser::consume_int"]}
{"id": "C29", "title": "Error recovery resumes at the next delimiter", "statement": "After a statement that failed, parse_statements skips to the next delimiter token and parses what follows as if it were the start of the input (same lexical position).", "quantifier": "every source", "why_tests_cant": "all failing texts", "anchors": ["src/statement.rs:parse_statements"]}
{"id": "C30", "title": "Statements are returned in source order", "statement": "The spans stored in successive statements returned by parse_statements increase: nothing stored in a later statement starts before something stored in an earlier one ends.", "quantifier": "every source", "why_tests_cant": "all statement lists", "anchors": ["src/statement.rs:parse_statements"]}
{"id": "C31", "title": "Qualified names round-trip", "statement": "Parsing a dotted name of any length returns exactly its parts in order.", "quantifier": "every list of identifiers", "why_tests_cant": "all lengths and identifiers", "anchors": ["src/qualified_name.rs"]}
{"id": "C32", "title": "A node's span covers its children", "statement": "The span of an AST node covers the spans of everything stored in it.  (Violated by the pinned code for SELECT .. FOR UPDATE and DROP TABLE .. CASCADE; INSERT column lists, CREATE FUNCTION parameters and CREATE INDEX IF NOT EXISTS are also left out by span().)", "quantifier": "every AST", "why_tests_cant": "every node kind and nesting", "anchors": ["src/span.rs", "src/select.rs:Select::span", "src/drop.rs:DropTable::span", "src/insert_replace.rs:InsertReplace::span"]}
{"id": "C33", "title": "DROP TABLE statements round-trip", "statement": "For every list of dotted names, printing DROP TABLE [IF EXISTS] with those names and parsing gives back exactly those names with no issue.", "quantifier": "every list of names", "why_tests_cant": "all lengths", "anchors": ["src/drop.rs:parse_drop", "src/qualified_name.rs"]}
{"id": "C34", "title": "Identifiers carry exactly their source text", "statement": "If no Error issue is added, the value of every identifier in the AST is the source text under its span, with the surrounding back quotes (or PostgreSQL double quotes) removed.", "quantifier": "every source and option set, every identifier of the AST", "why_tests_cant": "identifiers are produced on dozens of grammar paths", "anchors": ["src/parser.rs:Parser::consume_plain_identifier", "src/parser.rs:Parser::token_to_plain_identifier", "src/identifier.rs"]}
{"id": "C35", "title": "The kind of a returned statement fits its first token", "statement": "A statement returned for a text that begins with a keyword is one of the statement kinds that keyword introduces (DROP gives a drop statement, SELECT a SELECT or UNION, and so on); a text starting with any other token gives no statement.", "quantifier": "every source and option set", "why_tests_cant": "all texts and nestings after the first token", "anchors": ["src/statement.rs:parse_statement"]}
{"id": "C36", "title": "INSERT has exactly one source of rows", "statement": "If no Error issue is added, every INSERT/REPLACE of the AST has exactly one of VALUES, SELECT and SET (SET without column list), and REPLACE has no HIGH_PRIORITY or IGNORE flag.", "quantifier": "every source and option set", "why_tests_cant": "clause combinations, at any nesting depth", "anchors": ["src/insert_replace.rs:parse_insert_replace"]}
{"id": "C37", "title": "Tokens written separately are read back", "statement": "A source written token by token (each token in one of its textual forms, not running into the next one, with blanks and comments anywhere between) is read as exactly these tokens followed by end of file; conversely every source that is read at all is of this form, where text that is not a token (a stray character, an unclosed string or comment, ...) counts as an invalid token; and every source without x' and without $ and a number too large is a token sequence in exactly one way.", "quantifier": "every sequence of tokens and every way to write it", "why_tests_cant": "all token sequences and neighbouring characters", "anchors": ["src/lexer.rs:Lexer::next_token"]}
{"id": "C38", "title": "Every sentence of the grammar is parsed to its AST without issues", "statement": "There is a grammar of statements, queries, expressions and data types, given independently of the parser: if a source is written token by token and the tokens are a statement of the grammar, parse_statement returns exactly the AST of that statement (every field and span) and adds no issue; parse_statements does the same for a script of such statements with delimiters, DELIMITER changes and COPY .. FROM STDIN data.", "quantifier": "every sentence of the grammar, in every dialect and argument style, at any nesting depth, with any blanks and comments", "why_tests_cant": "there are infinitely many sentences; tests only exercise a few combinations of optional clauses", "anchors": ["src/lib.rs:parse_statement", "src/lib.rs:parse_statements", "src/statement.rs", "src/expression.rs", "src/select.rs", "src/create.rs", "src/alter.rs", "src/data_type.rs"]}
{"id": "C39", "title": "Whatever is accepted without an issue is a sentence of the grammar", "statement": "If parse_statement adds no issue, it has returned a statement, and the source is, token by token, exactly one statement of the grammar of C38 with the returned AST: no token is skipped, dropped, guessed or read twice, and nothing outside the grammar is accepted silently; likewise for parse_statements and scripts.  Together with C38 this says that the parser accepts exactly the grammar.  COPY data, also inside of blocks, is part of the grammar.  The list hack and the argument styles are part of the grammar too.", "quantifier": "every source (also sources that cannot be divided into tokens), dialect, argument style and flag", "why_tests_cant": "that nothing else is accepted is a claim about all the sources that are not in the grammar", "anchors": ["src/lib.rs:parse_statement", "src/lib.rs:parse_statements", "src/statement.rs", "src/expression.rs", "src/select.rs", "src/create.rs", "src/alter.rs", "src/data_type.rs"]}
{"id": "C40", "title": "The grammar is unambiguous", "statement": "No source is two different statements of the grammar of C38, or two different scripts: the AST is determined by the text.", "quantifier": "every source and every pair of derivations", "why_tests_cant": "uniqueness is a claim about all pairs", "anchors": ["src/lib.rs:parse_statement", "src/lib.rs:parse_statements"]}
{"id": "C41", "title": "parse_statements is the iteration of rounds", "statement": "The list parse_statements returns, and the issues it adds, are exactly what a sequence of rounds from the beginning to the end of the source gives, where a round skips a delimiter, changes the delimiter, parses one statement and the delimiter (and COPY data) after it, or skips a text that is not a statement up to the next delimiter, and each round says which issue it adds of its own (delimiter expected, no statement, unknown delimiter, DELIMITER not in capitals); such a sequence determines the result and every result is one.", "quantifier": "every source, option set and initial issue list, every sequence of rounds", "why_tests_cant": "all interleavings of statements, garbage and delimiter changes", "anchors": ["src/statement.rs:parse_statements", "src/lib.rs:parse_statements"]}
{"id": "C42", "title": "Layout does not matter", "statement": "Two sources in which the same tokens are written, with any blanks, newlines and comments before, between and after them, are parsed alike by both entry points: both calls return, or both panic, or neither returns; the statements are equal except for spans, and every span goes from the start of the same first token to the end of the same last token in its own source; the same issues are reported, at corresponding places.", "quantifier": "every pair of sources with the same sequence of tokens (apart from COPY, whose data is not made of tokens), all options", "why_tests_cant": "a relation between two runs on all layouts of all token sequences, including erroneous ones", "anchors": ["src/lexer.rs:Lexer::next_token", "src/parser.rs", "src/lib.rs:parse_statement", "src/lib.rs:parse_statements"]}
{"id": "C43", "title": "Texts of identifiers and strings are opaque; keywords are case-insensitive", "statement": "Renaming identifiers, changing the contents of string literals, or changing the case of words (when the capitals warning is off) does not change what is accepted, the shape of the returned AST, or the issues: the results correspond one by one, with the corresponding names, values and positions.  Exceptions: the string after INTERVAL is looked into, and a delimiter set by DELIMITER is compared by its text.", "quantifier": "every pair of sources whose tokens correspond up to the texts of words and strings, all options", "why_tests_cant": "a relation between two runs, over all renamings", "anchors": ["src/parser.rs", "src/expression.rs", "src/keywords.rs", "src/lib.rs:parse_statements"]}
{"id": "C44", "title": "Scripts compose", "statement": "If a script a is parsed without an Error issue, ends in its last semicolon, and uses neither DELIMITER nor COPY, then parsing a, followed by any blanks and comments, followed by any other text b, gives the statements and issues of a followed by those that b gives on its own, with positions moved by the length of what is before b and positional arguments counted on; and it panics or hangs exactly if parsing b on its own does.", "quantifier": "every pair of sources a (as described) and b (any text, also with errors, DELIMITER or COPY), all options, every earlier issue list", "why_tests_cant": "a relation between three runs, over all pairs of texts", "anchors": ["src/statement.rs:parse_statements", "src/lib.rs:parse_statements", "src/lexer.rs:Lexer::next_token", "src/parser.rs:Parser"]}
{"id": "C45", "title": "Errors stay in their statement", "statement": "If a script a ends in its last semicolon and contains no compound statement, DELIMITER or COPY, then, whatever errors its statements have, parsing a followed by blanks, comments and any text b gives the statements and issues of a followed by those that b gives on its own, moved; and it panics or hangs exactly if b does.  In particular recovery from an error never swallows the semicolon and text of a later statement.", "quantifier": "every pair of sources a (as described; with any errors) and b (any text), all options, every earlier issue list", "why_tests_cant": "all possible wrong statements, at every place where the parser can fail, a relation between three runs", "anchors": ["src/statement.rs:parse_statements", "src/parser.rs:Parser::recovered", "src/parser.rs:Parser::consume", "src/create.rs", "src/alter.rs", "src/expression.rs"]}
{"id": "C46", "title": "Messages tell the truth", "statement": "What a reported issue says about the place it points to is true: 'Expected X here' never points to the keyword or token X itself, nor, when X is a text that names or lists several words, tokens or kinds of token (UPDATE or DELETE, integer, droppable), to one of those (the pinned code is an exception for the action of a foreign key, where it expects NULL or DEFAULT at a DEFAULT); a word called a reserved identifier is a reserved keyword; an identifier that should be quoted is not quoted and not reserved; a keyword that should be in ALL CAPS is a keyword; a message that something is (only, not) supported by a dialect is reported only if that dialect is not (is) the selected one.", "quantifier": "every source, option set and entry point, every issue reported", "why_tests_cant": "there are hundreds of places that report issues, reached on all malformed inputs", "anchors": ["src/parser.rs:Parser::expected_error", "src/parser.rs:Parser::consume_keyword", "src/parser.rs:Parser::consume_token", "src/parser.rs:Parser::consume_plain_identifier", "src/parser.rs:Parser::token_to_plain_identifier"]}
{"id": "C47", "title": "Only keywords that are not in capitals are reported as such", "statement": "With warn_none_capital_keywords, a keyword that is reported as one that should be in ALL CAPS is not in capitals.  (Violated by the pinned code for keywords with an underscore or a digit such as SQL_NO_CACHE; holds for words made of letters.)", "quantifier": "every source, every keyword", "why_tests_cant": "all keywords at all places", "anchors": ["src/parser.rs:Parser::consume_keyword"]}
{"id": "C48", "title": "Unquoted identifiers are all reported", "statement": "With warn_unquoted_identifiers, every identifier of the returned AST that is written without quotes is reported by an issue at exactly its span (as one that should be quoted, or as a reserved word).", "quantifier": "every source and every identifier of the AST", "why_tests_cant": "identifiers are read on dozens of grammar paths, some of which could bypass the check", "anchors": ["src/parser.rs:Parser::consume_plain_identifier", "src/parser.rs:Parser::token_to_plain_identifier"]}
{"id": "C49", "title": "The parser never reports an internal error", "statement": "No issue ever says 'Internal compiler error' (or 'ICE'): the places that would report one are unreachable.", "quantifier": "every source, option set and entry point", "why_tests_cant": "unreachability is a claim about all inputs", "anchors": ["src/parser.rs:Parser::ice", "src/expression.rs:Reducer", "src/expression.rs:parse_expression", "src/alter.rs:parse_add_alter_specification"]}
{"id": "C50", "title": "The two entry points agree", "statement": "If parse_statement accepts a source (adds no issue), parse_statements accepts the source followed by ';' on a new line and returns the same single statement, with the same spans; conversely, for a source without ';' and '$$', if parse_statements accepts the source followed by ';' as one statement then parse_statement accepts the source, with the same AST.  (COPY FROM STDIN, after which parse_statements reads data, is the exception.)", "quantifier": "every source and option set", "why_tests_cant": "a relation between two runs, over all sources, also those whose last token would run into the ';' or is a comment or a string that is not closed", "anchors": ["src/lib.rs:parse_statement", "src/lib.rs:parse_statements", "src/statement.rs:parse_statements"]}
{"id": "C51", "title": "What is not a token is reported", "statement": "If a call adds no issue then everything in the source is a token, a blank, a comment or COPY data: a stray character, a string, identifier or comment that is not closed, and the like are always reported, and never skipped silently.  (Exception: the text between $$ and $$ of a PostgreSQL function, which is not looked at.)", "quantifier": "every source and option set, both entry points", "why_tests_cant": "junk can stand at any place, inside any construct, including places the parser skips over", "anchors": ["src/lexer.rs:Lexer::next_token", "src/parser.rs:Parser::next", "src/lib.rs:parse_statement", "src/lib.rs:parse_statements"]}
{"id": "C52", "title": "Errors are found where they are, not earlier and not later undone", "statement": "What a call says was expected ('Expected X here', 'Expected expression', ...) at the beginning of a source does not depend on what follows: two sources that begin with the same tokens, at the same places, the last of which is p, get the same such issues before p.  In particular, if some continuation of the tokens up to p is accepted without issues, then whatever follows p instead, everything that is said to be expected is expected at p or later; and an error that was made before p is reported whatever follows.", "quantifier": "every pair of sources without COPY with a common beginning, every option set, both entry points", "why_tests_cant": "all pairs of continuations", "anchors": ["src/parser.rs:Parser::expected_error", "src/parser.rs:Parser::err_here", "src/parser.rs:Parser::next", "src/parser.rs:Parser::peek"]}
{"id": "C53", "title": "Issues can be added to and read back", "statement": "Whatever sequence of reports a caller (the parser, or a later stage working on the returned AST) makes on an Issues object with err/warn and the frag builder, the object afterwards holds the earlier issues unchanged followed by one issue per report, in order, with the given level, message and span, the text of the source at that span, and the fragments in order; a report panics exactly if one of its spans does not lie in the source on character boundaries, which never happens for spans that come from the returned AST (also joined ones).", "quantifier": "every sequence of reports, every span of every returned AST, every source", "why_tests_cant": "all sequences of calls, and all spans that any parse can return", "anchors": ["src/issue.rs:Issues", "src/issue.rs:IssueHandle", "src/lib.rs:issue_ice", "src/lib.rs:issue_todo"]}
{"id": "C54", "title": "Options are independent and the last setting counts", "statement": "After any sequence of builder calls on ParseOptions each option has the value of the last call that sets it, or its default if there is none; no builder call changes another option, so the order of calls for different options does not matter to any parse; exactly one of is_postgresql, is_maria and is_sqlite holds of a dialect.", "quantifier": "every sequence of builder calls, every source", "why_tests_cant": "all sequences of calls", "anchors": ["src/lib.rs:ParseOptions", "src/lib.rs:SQLDialect"]}
{"id": "C55", "title": "Keywords that are not in capitals are reported", "statement": "With warn_none_capital_keywords, every keyword of an accepted statement that is not in capitals is reported by a warning at its span.  (Violated by the pinned code, e.g. for insert, replace, or, asc, which are consumed without the check; holds for the keyword that begins a statement otherwise.)", "quantifier": "every source, every keyword", "why_tests_cant": "all keywords at all places of the grammar", "anchors": ["src/parser.rs:Parser::consume_keyword", "src/parser.rs:Parser::consume"]}
{"id": "C56", "title": "Dialects agree where they both accept", "statement": "If a source is parsed without an Error in two dialects then both calls return the same AST and the same warnings: switching the dialect may turn acceptance into an Error, but never silently changes the meaning.  (For sources without COPY and without the words PRECISION, FUNCTION, CASCADE, IDENTITY; the pinned code is an exception for REAL, which is another type in SQLite.)", "quantifier": "every source, every pair of dialects, all other options, both entry points", "why_tests_cant": "a relation between two runs on every input; the dialect is consulted in two dozen places, at any nesting depth", "anchors": ["src/lib.rs:SQLDialect", "src/parser.rs:Parser::consume_plain_identifier", "src/data_type.rs:parse_data_type", "src/create.rs", "src/drop.rs", "src/select.rs", "src/insert_replace.rs"]}
{"id": "C57", "title": "Options about markers that do not occur do not matter", "statement": "The argument style does not change anything about a source without $n, ? and %s, and the list hack option does not change anything about a source without _LIST_: both calls return the same AST and the same issues.", "quantifier": "every source (also with errors) without COPY, every pair of argument styles and list hack settings, all other options, both entry points", "why_tests_cant": "a relation between two runs on every input", "anchors": ["src/lib.rs:ParseOptions", "src/expression.rs:parse_expression"]}
{"id": "C58", "title": "Mistakes in lists are reported one by one and the rest is kept", "statement": "A CREATE TABLE some of whose definitions are wrong (no name, no type, or tokens after the definition that do not belong to it) or that has tokens after its options, and an INSERT or REPLACE with a missing or overlong column or value in its columns or rows, are still parsed: the call reports exactly one Error per mistake, in source order, at the token where the mistake is, and nothing else, and the returned statement has all other definitions, all rows, the options before the mistake and, of the columns and of each row, the items before its mistake (the rest up to the closing parenthesis is skipped); brackets are matched when the rest of a wrong item is skipped.  Tokens after the statement of a source for one statement are one more Error, and so is a source that does not begin with a statement. In a script such statements, and right ones, come in any order; a missing delimiter at the end, other tokens between a statement and its delimiter, and something that does not begin like a statement (skipped up to the next delimiter) are one Error each, and all other statements are returned.", "quantifier": "all token sequences that are such statements, or scripts of these and of right statements, with any number of mistakes (and arbitrary, bracketed tokens in the skipped parts), all options", "why_tests_cant": "A test has a few mistakes at a few places; this is about any number of mistakes of these kinds, with anything in the skipped parts.", "anchors": ["src/parser.rs: recover, recovered, expected_failure", "src/create.rs: parse_create_table, parse_create_definition", "src/insert_replace.rs: parse_insert_replace"]}
{"id": "C59", "title": "A feature of another dialect is reported and understood", "statement": "If the only Errors that two dialects report about a source are the ones that say that a feature is not one of the selected dialect (index hints, WITH, CREATE TYPE, operator classes, partial indexes, ON DUPLICATE KEY UPDATE, ON CONFLICT, RETURNING of UPDATE, FOR KEY SHARE, back quotes, ..), then both calls return the same AST, and the same issues apart from those Errors.  (For sources without COPY and the words of C56.)", "quantifier": "every source, every pair of dialects, all other options, both entry points", "why_tests_cant": "a relation between two runs on every input; the dialect is consulted in two dozen places, at any nesting depth", "anchors": ["src/lib.rs:SQLDialect", "src/update.rs:parse_update", "src/insert_replace.rs:parse_insert_replace", "src/create.rs:parse_create_index", "src/drop.rs:parse_drop", "src/parser.rs:consume_plain_identifier"]}
{"id": "C60", "title": "Every expression can be written and is read back", "statement": "An expression tree of literals, columns, prefix and infix operators, IS and IN tests, function calls, COUNT, CASE and parentheses, of any size, is read back from every source that spells it (SELECT followed by its tokens, with parentheses wherever the precedence of the operators needs them and anywhere else, strings in one or several pieces, any blanks and comments): parse_statement reports nothing and the only column of the returned SELECT is exactly that tree, with every operator, name, literal and argument at its place; every tree (whose names and literals can be written) has such a source; and an AST stands for only one tree, apart from parentheses, so no two different trees are ever confused.", "quantifier": "every expression tree, every way to write it, all dialects", "why_tests_cant": "there are infinitely many trees and nestings of operators; tests only read a few", "anchors": ["src/expression.rs:parse_expression", "src/expression.rs:Reducer", "src/expression.rs:parse_function", "src/select.rs:parse_select", "src/lib.rs:parse_statement"]}
{"id": "C61", "title": "Queries can be written and are read back", "statement": "A SELECT query, given as data without positions (flags such as DISTINCT, columns with their names, tables with dotted names and aliases, joins of every kind with their ON conditions, WHERE, GROUP BY, HAVING, ORDER BY with its directions, LIMIT with its offset, over the expression trees of C60), is read back from every source that spells it: parse_statement reports nothing, and the AST of the returned statement is exactly that query, every clause in its field, no table, join, condition, alias, direction or number lost, swapped or moved; every query whose names and numbers can be written has such a source; an AST stands for only one query, apart from parentheses in its expressions; so no source spells two different queries.", "quantifier": "every query of this form, of any size, every way to write it, all dialects", "why_tests_cant": "there are infinitely many combinations of clauses and nestings of joins; a test compares a few ASTs by eye and cannot exclude that two different queries get the same AST", "anchors": ["src/select.rs parse_select, parse_table_reference, OrderFlag, JoinType", "src/expression.rs parse_expression", "src/identifier.rs", "src/lib.rs parse_statement"]}
{"id": "C62", "title": "Tables can be declared and are read back", "statement": "A CREATE TABLE statement, given as data without positions (OR REPLACE and TEMPORARY, IF NOT EXISTS, a dotted name, columns with their names, types and properties, the options of the table, over the expression trees of C60), is read back from every source that spells it: parse_statement reports nothing, and the AST of the returned statement is exactly that declaration: no column, width, ENUM value, default, check, key, comment or option is lost, changed or moved to another column; every declaration whose names, numbers and strings can be written has such a source; an AST stands for only one declaration, apart from parentheses in its expressions; so no source declares two different tables.", "quantifier": "every declaration of this form, with any number of columns, properties and options, every way to write it, all dialects", "why_tests_cant": "there are infinitely many combinations of types, properties and options; a test compares a few ASTs by eye and cannot exclude that two different tables get the same AST", "anchors": ["src/create.rs parse_create_table, parse_create_definition, parse_table_options", "src/data_type.rs parse_data_type", "src/qualified_name.rs", "src/lib.rs parse_statement"]}
{"id": "C63", "title": "Changes of data can be written and are read back", "statement": "An INSERT, REPLACE, UPDATE or DELETE statement, given as data without positions (flags, target, columns, rows of values or a query or SET pairs, ON DUPLICATE KEY UPDATE or ON CONFLICT, tables with joins, assignments, WHERE, RETURNING, over the expression trees of C60 and the queries of C61), is read back from every source that spells it: parse_statement reports nothing, and the AST of the returned statement is exactly that change: no value is lost, moved to another row or column, or turned into another; every change whose names, numbers and strings can be written has such a source; an AST stands for only one change, apart from parentheses in its expressions; so no source means two different changes.", "quantifier": "every change of this form, with any number of rows, columns, assignments, tables and joins, every way to write it, all dialects", "why_tests_cant": "there are infinitely many combinations of sources of rows, targets and clauses; a test compares a few ASTs by eye and cannot exclude that two different changes get the same AST, or that a WHERE is lost in some combination", "anchors": ["src/insert_replace.rs parse_insert_replace", "src/update.rs parse_update", "src/delete.rs parse_delete", "src/qualified_name.rs", "src/lib.rs parse_statement"]}
{"id": "C64", "title": "Objects are dropped, renamed and truncated as written", "statement": "A RENAME TABLE, TRUNCATE TABLE or DROP statement (of tables, views, events, functions, procedures, triggers, servers, databases and indices), given as data without positions, is read back from every source that spells it: parse_statement reports nothing, and the returned AST names exactly these objects, in this order and with all parts of their names, and has TEMPORARY, IF EXISTS and CASCADE if and only if they are written; everything of this form whose names can be written has such a source; an AST stands for only one such statement; so no source means two.", "quantifier": "every such statement, with any number of objects and name parts, every way to write it, all dialects", "why_tests_cant": "a test compares a few ASTs by eye; that no object is lost, swapped or mistaken for one of another type is a statement about all lists of names and all statements", "anchors": ["src/drop.rs parse_drop", "src/rename.rs parse_rename_table", "src/truncate.rs parse_truncate_table", "src/qualified_name.rs", "src/lib.rs parse_statement"]}
{"id": "C65", "title": "Tables are altered as written", "statement": "An ALTER TABLE statement that adds columns, indices and foreign keys, modifies, alters or drops columns and changes the owner, given as data without positions, is read back from every source that spells it: parse_statement reports nothing, and the returned AST names the table and has exactly these changes, in this order, each with its names, types, properties, default expression, index columns and their lengths, options, referenced table and columns, and ON UPDATE/DELETE actions, and has ONLINE, IGNORE, IF EXISTS, IF NOT EXISTS and CASCADE if and only if they are written; everything of this form whose names and values can be written has such a source; an AST stands for only one such statement (up to redundant parentheses in expressions), so no source means two.", "quantifier": "every such statement, with any number of changes, columns, options and any depth of expressions, every way to write it, all dialects", "why_tests_cant": "a test compares a few ASTs by eye; that no change is lost, swapped or attached to another column is a statement about all lists of changes and all nested expressions", "anchors": ["src/alter.rs parse_alter_table", "src/alter.rs parse_add_alter_specification", "src/alter.rs parse_index_cols", "src/alter.rs parse_index_options", "src/data_type.rs parse_data_type", "src/expression.rs parse_expression", "src/lib.rs parse_statement"]}
{"id": "C66", "title": "Views are created as written", "statement": "A CREATE VIEW statement (OR REPLACE, TEMPORARY, IF NOT EXISTS, a dotted name and a query), given as data without positions, is read back from every source that spells it: parse_statement reports nothing, and the returned AST has exactly these words, this name and this query, with all columns, tables, joins, conditions and clauses of it; every view whose name and query can be written has such a source; an AST stands for only one view (up to redundant parentheses in expressions), so no source means two.", "quantifier": "every such view, with any query of C61, every way to write it, all dialects", "why_tests_cant": "a test compares a few ASTs by eye; that the view has the query that was written, all of it and nothing else, is a statement about all queries", "anchors": ["src/create.rs parse_create", "src/create.rs parse_create_view", "src/select.rs parse_select", "src/qualified_name.rs", "src/lib.rs parse_statement"]}
