# Formal model of antialize/sql-parse in Lean 4

## What is modelled

| Rust | Lean | notes |
|---|---|---|
| `&str`, byte offsets, `&s[a..b]` | `Verif/Text.lean` | text = list of Unicode scalar values; offsets via UTF-8 sizes; slicing panics are explicit (`none`) |
| keywords.rs | `Verif/Gen/Keywords.lean`, `Verif/Token.lean` | generated by `tools/gen_keywords.py` from the Rust source |
| lexer.rs | `Verif/Lexer.lean` | complete, including `todo!` and the `$N` overflow (both build modes) |
| issue.rs, parser.rs | `Verif/Prog.lean`, `Verif/Parser.lean` | parser state, issue list, recovery |
| expression.rs, data_type.rs, select.rs, statement.rs, create.rs, alter.rs, drop.rs, insert_replace.rs, update.rs, delete.rs, with_query.rs, rename.rs, truncate.rs, qualified_name.rs | `Verif/Model/*.lean` | every parsing function |
| lib.rs `parse_statement(s)` | `Verif/Api.lean` | |
| span.rs, `Spanned` impls | `Verif/Ast.lean` | table: which fields a node's `span()` joins |
| identifier.rs | `Verif/Model/Identifier.lean` | Eq, Ord, Hash-relevant comparison |
| span.rs `join_span`, `OptSpanned` | `Verif/Model/SpanOps.lean` | |
| issue.rs Display (line / column arithmetic) | `Verif/Model/Display.lean` | |
| issue.rs `Issues::{new,err,warn,get,into_vec}`, `IssueHandle::frag`, `issue_ice!`, `issue_todo!` | `Verif/Model/Display.lean` | as calls on an `Issues` object, apart from a parse |
| lib.rs `ParseOptions`, `SQLDialect` | `Verif/Model/Options.lean` | the builder |
| function names, AST kinds | `Verif/Gen/{Functions,Kinds}.lean` | generated tables |

About 250 definitions; each cites the file and lines it models.

### Layout
* `Verif/Spec/*.lean`: the specifications the theorems are stated with. They use types of the model
  (tokens, AST values, options) but none of its functions or tables: `Api` (what a call returns), `Ast` (parts of
  a value, order), `Lexical`, `Tokens`, `Written` (how a token is written; which texts are a writing of a token
  list), `Words` (the word lists of the grammar, values of literals), `Phrase`, `Grammar`, `GrammarStmt`,
  `GrammarScript` (the grammar: token lists related to AST values), `Precedence`, `PrecTree` (trees that respect a
  priority table), `Script` (rounds of `parse_statements`), `RoundTrip` (how to write names and strings).
* `Verif/Proofs/*.lean`: lemmas. `Meta` and `Sim` are inductions over all programs; `Safe*` one safety lemma per
  parser function; `Term*` termination; `Stream*` every phrase of the grammar is parsed (forward direction);
  `Lexer`, `LexFwd`, `Copy`, `Text`; `Prec*` the operator reducer.
* `Verif/Theorems/*.lean`: the theorems named in MANIFEST.json with examples that meet their hypotheses.

Parser functions are values of `Prog α` (a free-monad-like syntax of state accesses, `?`, loops, calls
of the recursive functions).  `runWith` is the interpreter, `runFn n` ties the recursive knot with fuel `n`
(fuel = call depth and loop rounds); `Out.oof` is "not finished", so nothing is proved about runs
that do not finish except by the termination theorem.

### Not modelled
* the call stack: a deeply nested source may overflow the stack of a real run (the model has unbounded recursion), f64 rounding of float literals (the text is kept), memory/performance, integers wider than the Rust type are rejected exactly as `parse::<T>()` does.
* AST values are uniform trees (`Ast.node kind fields`): one `Kind` per Rust struct / enum variant,
  fields in declaration order; `Statement::X(Box<X>)` wrappers are collapsed; `Box` is ignored.
* `usize` = 64 bit. The argument counter `parser.arg` cannot overflow (bounded by the number of tokens).
* The `Issues` object is assumed to have been created from the same source (`Issues::new(src)`), as
  in the crate documentation; otherwise slicing may panic.

## Check of the model against the crate's own tests
`Verif/Theorems/Upstream.lean` (generated by `tools/gen_upstream.py`) runs all unit tests and all documentation tests of the crate (40 sources
through `parse_statement(s)`, 85 through `parse_expression`) on the model, in the kernel.  These are tests that the model was written down
correctly, not proofs.

## Trusted base
Lean's kernel; axioms `propext`, `Classical.choice`, `Quot.sound` only (checked with `#print axioms`);
the reading of the Rust code recorded in the comments of the model; the keyword generator script.

## Plan per property
Techniques: **[meta]** induction over all programs `Prog`; **[trav]** compositional predicate proved for every
modelled parsing function (one lemma per function), lifted through fuel by induction; **[lex]** induction over
source text; **[pure]** ordinary theorem about a pure function; **[wit]** concrete counterexample
executed by the kernel.

* C01 [trav] every parser function finishes within fuel linear in the remaining input; [wit] for the hang after a final `DELIMITER`, for every fuel; the hanging sources are characterised exactly (forward: progress of rounds, backward: C41).
* C02 [trav] no `Out.panic` except the listed messages; [wit] each listed one is reachable.
* C03, C04, C05 [lex] induction on the token stream.
* C06 [lex] + table facts by `decide +kernel` over the whole keyword table.
* C07 [pure] decode after encode; [wit] for backslash and double quote; exactly which literals have the right value (iff).
* C08, C14, C15 [meta].
* C09 [meta] invariant on issue list (slice recorded = slice of source).
* C10, C11, C12, C13, C16, C17, C25, C26, C30 [trav] with a "prophecy" context that says whether an Error issue is emitted in the run.
* C18 [pure] the reducer, against an independent definition of well-formed precedence trees and their uniqueness; lifted to expressions.
* C19 [trav] frame predicate (the delimiter is restored; the mode too, or an Error was added and the source has TRIGGER); [wit] for the CREATE TRIGGER leak. C20 follows for sources without TRIGGER; [wit] violated in general.
* C21, C22, C23 [pure].
* C24 [lex]. C27, C29 theorems about the `parse_statements` loop. C28 [pure]+[trav]. C31, C33 round trips by induction over lists.
* C32 [pure]+[trav] the span is the least cover of the stored spans minus the omitted fields; [wit] for the fields left out.
* C34 [trav] (with C26). C35 [trav] first token decides the kind. C36 [trav] shape of INSERT values.
* C37 [lex] both directions between token lists and texts, invalid tokens included (`Junk` says which text is an invalid token, and how far
  it reaches); every source without `x'` and over-long `$N` is a token sequence in exactly one way.
* C38 [trav] forward: every sentence of an independent grammar (relations between token lists and AST values) is parsed
  to the AST the grammar gives, with no issue. One lemma per grammar relation.
  COPY data is not made of tokens: a source is a list of tokens and a function that gives the data after a token
  (`Laid`, Spec/GrammarScript.lean).
* C39 [trav] backward: a run that adds no issue has read a sentence of that grammar, and returned its AST. The data function
  of the derivation is the ghost field `dataLog` of the state, which records what was read as data and is never looked at by the program;
  likewise `argLog` says which of the marker tokens were taken as arguments (`_LIST_` can also be a name).
* C40 consequence of C38: the grammar is unambiguous.
* C41 soundness: a finished run is a sequence of rounds (Proofs/Script.lean); completeness: a round determines a round of the loop, whatever the issues so far (Theorems/Determined.lean).
* C42, C43 [meta]+[trav] a relational program logic (Proofs/Par.lean): two runs of the same program in corresponding states
  stay in corresponding states; one lemma per function (Proofs/Par*.lean), no case of the grammar left out. A span corresponds
  when both ends are ends of the same tokens. The messages of issues are modelled with their exact texts; some quote the text
  of an identifier or keyword, and for C43 (`TwinMsg`) the messages are the same up to corresponding quoted words.
* C44 the run on `a ++ u ++ b` is (1) the run on `a` up to its last `;`: as long as the run on `a` has not reached the end of `a`, it is the
  run on the longer source (Proofs/CutLex, Cut: a simulation for arbitrary programs; a lexeme that does not end at the end of
  `a` is lexed the same, and so is `;`), applied to each round (Proofs/Compose); (2) from there on the run on `b` with positions moved
  (Proofs/Shift: the lexer commutes with moving; the relational logic of C42/C43 with "moved by d" for positions and "counted on by k" for
  arguments, Proofs/ComposeRun). What is left of the state at the end of `a` (delimiter, mode, look-ahead) is back to its
  initial value because `a` has no Error, no DELIMITER and no COPY. Not claimed: DELIMITER, COPY in `a`; `b` is arbitrary; for `a` with errors see C45.
* C45 as C44, but `a` may have errors. [trav] `Sm` (Proofs/Semi*, one lemma per parser function): started at a place with a `;` ahead, no parser function
  runs past that `;`, also not when it fails and recovers; so every round of `parse_statements` ends behind the next `;`
  (Proofs/SemiRun), and at the end of `a` the parser is between two statements in its initial mode. Needed of `a`: no compound statement (`Flat`: no `$$`, no
  TRIGGER; no THEN, or no FUNCTION and no statement that begins with IF, CASE or WITH), because inside one a `;` does not end the statement, and
  (C20) a failing one may leak its mode.
* C46, C47, C49 [trav] the invariant of the safety logic says of every issue reported so far that its message is true
  (`Issue.Truth`, Spec/Truth.lean); each place that reports an issue has to show it. For C49 this means that the places are unreachable
  (alter.rs:544 because of the words that lead there, the ones of expression.rs because the stack of the reducer alternates).
  An "Expected '..' here" with a fixed text that names words, tokens or kinds of token (`namedWords`, `namedTokens`, `Token.ofKind`) is
  true if the token is none of those (`LitOK`, `EndOK` in Proofs/SafeParser, discharged by `lit`); fixed texts that name nothing
  (".. 'Statement' here") make no claim that is checked.
* C48 [trav] `Warned`, a conjunct of what is proved about every identifier that is put into the AST.
* C50 by induction over the grammar: a phrase that is followed by the end of the source is one if it is followed by `;`, and the other way round
  (Proofs/EndSwap, EndSwapStmt); the text of the source followed by a newline and `;` has the same tokens (Proofs/LaidApp, LaidCut); with C38 and C39.
* C51 by induction over the grammar: the tokens of a phrase are valid, except in the text of a function (Proofs/Clean, CleanStmt); with C39.
* C52 relationally: two runs do the same while they read the common tokens; all programs report what is expected only at the current token (an inductive predicate on programs, Proofs/Here, with one generated instance per parser function, Proofs/HereAll), and the current token only moves forward (Proofs/Prefix).  COPY is excluded as the data of COPY is not made of tokens.
* C53 the API of issue.rs is modelled on its own (Model/Display.lean: `Issues.add`, `Issues.frag`, `Issues.calls`); by induction over the reports. The issue
  the builder handle refers to is the last one of the list, as the handle borrows the list while it lives.
* C54 the builder of lib.rs (Model/Options.lean); by induction over the calls.
* C55: every branch of the dispatch reports the first keyword, and nothing removes issues (Proofs/FirstKw). All reserved keywords but 49: the invariant "the watched keywords
  before the current token have been reported, or an Error has been reported" (`Core`/`Past`, Proofs/Watch), carried through every parser function by the tactic `watch` (WatchExpr, WatchStmt);
  a failed attempt always reports an Error, so recovery needs no argument. For each of the 49 words a script is shown about which nothing is reported (`C55_unchecked_missed`), so
  the full statement is false of the pinned code.
* C56, C57: two runs on the same source with different options go in step (`D2`, Proofs/Opt): the states are equal but for the options, until data of COPY has been read or, if the
  dialects differ, an Error has been reported in one of them. Every place that looks at the dialect either reports an Error in one of the two, or is about one of the five words. An
  instance per function, generated by tools/gen_opt.py (Proofs/OptAll); by induction on the fuel for whole calls.
* C58: Spec/Recover is a grammar of statements with mistakes; `Nested` are the tokens that may be skipped. The forward simulation of C38 is extended by `PI` (succeeds and reports these
  mistakes) and `FI` (fails and reports these mistakes), Proofs/Recover; `recover` goes through nested brackets by induction on `Nested`, with its stack of brackets.
  Scripts (`ScrE`): `GoesI`, the rounds of `parse_statements` with mistakes, by induction on `ScrE`; the end of the source is never left (`next_at_eof`).
* C59: the same relation `D2`, with issue lists that agree apart from the Errors about the dialect (`IssRel`); a check of the dialect that only reports (`Says`) keeps the runs in step, so C56 follows from C59.
* C60: Spec/Trees has trees without positions (`Expr`), the tokens that spell a tree (`Spells`), when no parentheses are missing (`Grouped`, by the table of levels of C24) and the ASTs that stand for a tree
  (`Means`). By induction on the tree the tokens are a phrase of the grammar of C38 with such an AST (`spells_reads`, Proofs/Trees), so `C60_reads` follows from C38. For `C60_every` a tree is written
  with parentheses around all operands (`full`), one blank after each token. Not in `Expr`: variables, arguments, subqueries, INTERVAL, CAST, EXTRACT, GROUP_CONCAT, TIMESTAMPADD/DIFF, window functions.
  Operators without a token (`^`, DIV, MOD) cannot be written. A first token that is a non-reserved SELECT flag word is excluded, as it would be read as the flag.
* C61: Spec/Queries has queries without positions (`Query`, over `Expr`), the tokens that spell a query and the ASTs that stand for it. Each phrase is shown to be one of the grammar of C38 by induction on its
  list (`query_reads`, Proofs/Queries), so `C61_reads` follows from C38; `C61_every` writes the query with all expressions in parentheses. Not in `Query`: subqueries, USING, index hints, WINDOW, locking
  clauses, UNION, expressions in LIMIT; a RIGHT JOIN right after an ON condition (the parser reads RIGHT as a column there); a first table name in double quotes (PostgreSQL).
* C62: Spec/Tables has declarations of tables without positions (`TableDef`), the tokens that spell one and the ASTs that stand for it, as C61 does for queries; Proofs/Tables shows each part to be one of
  the grammar of C38 (`tableDef_reads`). Not in `TableDef`: CONSTRAINT, PRIMARY KEY, INDEX and FOREIGN KEY definitions, named types.
* C63: Spec/Changes has changes of data without positions (`Change`: INSERT/REPLACE with VALUES, a query or SET, with ON DUPLICATE KEY UPDATE and ON CONFLICT, UPDATE, DELETE), the tokens that spell one and the ASTs that stand for it, as C61 does for queries, whose tables, clauses and lemmas it uses; Proofs/Changes shows each part to be one of the parser's successful runs.
* C64: Spec/Disposals has RENAME, TRUNCATE and DROP statements without positions (`Disposal`), the tokens that spell one and the ASTs that stand for it; Proofs/Disposals shows each to be one of the parser's successful runs, as C61 does for queries.
* C65: Spec/Alterations has ALTER TABLE statements without positions (`Alteration`, a list of `AltStep`: columns, indices and foreign keys that are added, columns that are changed, modified or dropped, owners), over the columns and types of Spec/Tables, the tokens that spell one and the ASTs that stand for it; Proofs/Alterations shows each part to be one of the parser's successful runs, as C62 does for columns. What is not in `AltStep` is in the note of C65 in MANIFEST.json.
* C66: Spec/Views has CREATE VIEW statements without positions (`ViewDef`), over the queries of C61, the tokens that spell one and the ASTs that stand for it; Proofs/Views shows each to be one of the parser's successful runs. Not in `ViewDef`: ALGORITHM, DEFINER, SQL SECURITY, and queries that are not in C61.

## Findings in the pinned code

* `parse_statements("DELIMITER")` never returns: `parse_delimiter`-handling stores the end-of-file token as delimiter.
* `x'` panics (`todo!`), `$18446744073709551616` overflows (panic with overflow checks, wrap-around otherwise).
* Span of an empty BEGIN/DO block panics; `WITH a AS (DO $$ BEGIN EXCEPTION END $$) SELECT 1` reaches it.
* `'it\'s'`: backslash escapes are lexed but decoded wrongly; `"a""b"`: doubled double quotes are not undone.
* OR binds tighter than AND.
* In CREATE TABLE the name of a column must be a word token, so PostgreSQL names in double quotes (`"a" INT`) are rejected; in PostgreSQL any word, even a reserved one, is taken as the name of a type.
* A failing CREATE TRIGGER leaves `permit_compound_statements` on.
* Spans: SELECT omits locking, DROP TABLE omits CASCADE, INSERT omits the column list, CREATE FUNCTION omits parameters, CREATE INDEX omits IF NOT EXISTS.
* `DEFAULT 1 NULL`, `DEFAULT 1 AUTO_INCREMENT` in a data type are errors: words that can begin an operand are taken for a part of the
  value (`ColProp.afterDefault` in Spec/Tables).
* `ON DELETE NO ACTION` is returned as SET NULL; `ON DELETE SET DEFAULT` is never accepted; `COLLATE x` in a data type
  is returned as a charset; `ALTER TABLE ADD SPATIAL / UNIQUE INDEX` give FullText.
* `DROP TEMPORARY DATABASE / EVENT / ..` is accepted and TEMPORARY forgotten (drop.rs:373, a TODO); so is a CONSTRAINT in front of ADD COLUMN (alter.rs).
* `%`, `^`, `DIV`, `MOD` are never parsed as operators.
* The last statement of a script must be followed by a delimiter, otherwise an Error issue is added.
* Outside stored programs `END` after `;` is a statement, so `DO $$ BEGIN SELECT 1; END $$` is an error.
* In PostgreSQL mode `"a"` in an expression is a string and a back quoted column name is accepted.
* `RIGHT` may be a column name in expressions, so `... ON a = b RIGHT JOIN c` is an error.
* JOIN ... USING takes a comma list without parentheses (`USING a, b`); `USING (a, b)` is an error. A table name that begins with a PostgreSQL double quoted identifier is not accepted in FROM.
* With `list_hack`, `_LIST_` is also accepted as an ordinary identifier.
* In PostgreSQL the text between `AS $$` and `$$` of CREATE FUNCTION is skipped token by token: invalid tokens in it are not reported, and
  argument markers in it get no number (the grammar of C38/C39 says so: `ToDollars` allows any token).
* CREATE FUNCTION needs at least one parameter: `f()` is an error.
* Keywords that contain `_` or a digit always trigger the ALL-CAPS warning ("keyword SQL_NO_CACHE should be in ALL CAPS SQL_NO_CACHE", `C47_violated`); `warn_unquoted_identifiers` reports Error level for plain identifiers.
* `REAL` is `Type::Double` in SQLite and `Type::Float` otherwise, silently, without an Error; outside of sources with PRECISION, FUNCTION, CASCADE or IDENTITY it is the only such construct (`C56_real`).
* The ALL-CAPS warning is missed for keywords that are consumed with `consume()` instead of `consume_keyword`: 49 reserved words, INSERT, REPLACE, OR, AND, NOT, LIKE, ASC, IS NULL, VALUES, LIMIT .. OFFSET and others (`C55_unchecked_missed`).
* `Issues::new` with another text than the parsed one: slicing may panic.
* ON DELETE/UPDATE SET DEFAULT: alter.rs:472 looks for DELETE instead of DEFAULT, so that "Expected ''NULL' or 'DEFAULT'' here" is
  reported at the DEFAULT itself (`C46_default_violated`).
