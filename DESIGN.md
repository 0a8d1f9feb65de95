# Formal model of stenbror/PythonCoreRust in Lean 4

The code is a Python tokenizer and recursive-descent parser (about 6000 lines of Rust,
`/repo/src/parser`).  `/verif/lean` contains a Lean 4 model of *all* its non-test code except
`main.rs` (a demo that prints), and theorems about that model.

## 1. What is modelled, and how

| Rust | Lean module | notes |
|---|---|---|
| `source_buffer.rs`, `trivias.rs`, `tokens.rs` | `Verif/Model/Token.lean`, `Verif/Model/Source.lean` | characters are Lean `Char`s (both are Unicode scalar values), positions are `Nat` |
| `tokenizer.rs` `new`, `get_symbol`, `handle_string`, `get_position` | `Verif/Model/Lexer.lean` | loops take fuel; running out of fuel is a separate error value which is proved unreachable (C01) |
| `nodes.rs` | `Verif/Model/Tree.lean` | an `ASTNode` variant is a tag, its span and the list of its payload fields in declaration order |
| `parser.rs` | `Verif/Model/Parser.lean` | parser state = tokenizer, current symbol, except status |
| `expressions.rs`, `statements.rs`, `blocks.rs`, `functions.rs`, `patterns.rs` | `Verif/Model/Expr.lean`, `Stmt.lean`, `Block.lean`, `Run.lean` | one Lean function per Rust function, same control flow |

How the parser is written down: every Rust function `f` and every `while` loop inside one (together with the code
after the loop) is a constructor of the type `Fn`; `body f` is its code, a value of the free monad `Prog` whose
operations are: read the current symbol, read the position, advance, read and set the except status, call another
`Fn`, fail with an error, panic.  `run n f c` executes `body f` in state `c`, calls to depth `n`; its
result is `ok tree state`, `err`, `panic` or `diverge` (depth used up).  Loops become self calls, so that one
induction on `n` covers recursion and loops; a proof gives an invariant for every `Fn` and checks each body once
(`Proof/Wp.lean`).

Modelling decisions (simplifications):

* `u32`/`i32` are unbounded `Nat`/`Int`.  C04 proves the bounds under which the Rust counters
  cannot overflow (sources shorter than 2^30 characters).
* `char::is_alphabetic` / `is_alphanumeric` are the ASCII tables below U+0080 and arbitrary
  functions (a type class parameter `Uni`) above.  Every theorem holds for every choice.
* `&mut self` methods return the new state.  `?` and early `return Err(..)` are the error case of the
  parser monad.  `todo!()` is the explicit outcome `panic`.
* A Rust function that calls itself for ever is modelled by the depth `n`: "terminates" means some depth
  gives an outcome other than `diverge`; "diverges" means every depth gives `diverge`.  More depth never changes
  an outcome (`run_mono`).  The real stack size is not modelled.
* Boxing, cloning, memory allocation are not modelled.
* Error values carry the position and the message text of the Rust format string.
* `Display`, `main.rs` and the unit tests are not modelled as code.

The model was checked against the repository's own unit tests: `tools/conform.py` translates every `#[test]` of
`/repo/src/parser` (236 of them, and the demo text of `main.rs`) into a closed Lean statement about the model, in
`Verif/Tests/*.lean`, and all of them are proved by kernel evaluation.  These are tests of the model's faithfulness, not
proofs of properties; no property theorem depends on them.  Besides, every definition of the model was compared with the
cited lines of the Rust code a second time, line by line, after the model was complete; no difference was found.

## 2. Trusted base

* Lean 4.33.0's kernel; every theorem depends on at most the axioms `propext`, `Classical.choice`, `Quot.sound`.
  No axiom is added, nothing is left as `sorry`, `native_decide` and `bv_decide` are not used.
* That the model says what the Rust code says: each definition cites the lines it models.  The
  code was read, not executed; the unit tests above are the only link that was checked by machine.
* The specifications in `Verif/Spec/*.lean`, which do not refer to the model's code except for the types of its
  inputs and outputs (tokens, trees, states) and `getSymbol` / `run`.

## 3. Layout

* `Verif/Model` the model, `Verif/Spec` vocabulary for the statements, `Verif/Proof` lemmas, `Verif/Props` the
  property theorems, named `Cnn_...`, each with an `example` of a concrete case beside it, `Verif/Tests` unit tests.
* `MANIFEST.json` lists the theorems of each property; `seeded/LOG.jsonl` the mutation experiments. In that log
  `theorems_failed` are the property theorems that no longer have a proof, either because their own proof
  fails or because a lemma they rest on does (`failed_lemmas`); the build of an edited model may have been stopped as soon as
  the theorems of the claim had failed. A broken proof alone does not show that a statement is false of the
  edited program, so each edited model was also run beside the model on about 1800 texts: `witness` is a text
  on which symbols, acceptance, tree, spans or error position change. Rows without a witness are edits that no text of that
  collection tells apart, and they say so.

## 4. Plan per property

See `properties.jsonl` for the statements.

| id | how |
|---|---|
| C01 | induction on the remaining length for each loop; fuel error unreachable |
| C02 | measure `2*(len+1-index) + depth of indentation stack + |pending|` strictly decreases at every token except EOF |
| C03 | direct evaluation at the EOF state + induction on the number of calls |
| C04 | invariant over calls |
| C05 | invariant: `tokStart <= index`, every token ends at `index` |
| C06, C07, C13, C14, C21 | characterisation of each scanning loop by `takeWhile`/slices, against tables in `Spec` written independently |
| C08, C09 | refinement of the bracket stack to a Dyck-prefix check of the emitted tokens |
| C10 | counting invariant over the emitted tokens |
| C11, C12, C16, C17 | false: theorem for the negation, `_partial` theorem for what holds |
| C15 | trivia tile the gap: invariant of the skipping loop (partial: not at line start) |
| C18, C20 | direct |
| C19 | induction over the lexeme list |
| C22, C23, C24, C39, C41, C44 | soundness: one invariant per `Fn` relating consumed tokens, tree and grammar derivation |
| C25 | invariant per `Fn` about starts and ends of all nodes of the tree, relative to the consumed tokens |
| C26, C27 | shape invariant of trees |
| C28, C29 | completeness: induction over expressions (`Spec/Ast.lean`), evaluating each body on the words of the expression |
| C30, C31 | ranking of functions + token measure; negation theorems for `import` / `match`, and that these are the only causes |
| C32 | corollary of C22/C23 |
| C33-C37, C45 | theorems that the rule rejects every such input (negation), plus the accepted subset |
| C38 | negation witness + partial theorem |
| C40 | relational invariant (bisimulation up to the lookahead) |
| C42 | relational invariant between a tokenizer on a text and one on its suffix |
| C43 | evaluation of the rule on interactive lines, C23 for the converse |
| C46 | invariant over calls |
| C47, C48 | completeness for statements: mutual induction over `Spec/StmtAst.lean`; layout theorem for the text |
| C49 | analysis of the last token of sentences of the grammar, proved sound by rule induction; layout theorem |
| C50 | `Spec/Exact.lean` is the grammar. Completeness: induction on the height of derivations, one lemma per `Fn` that runs the body on any sentence with any next token that cannot continue it. Soundness: one invariant per `Fn`: the consumed tokens are a sentence |
| C51 | derivations of the grammar of C50 are stable under replacing tokens by tokens of the same kind |
| C52 | amortised analysis: a run with a counter (`Spec/Cost.lean`), constants per `Fn` for success and failure, checked path by path; depth from the measure of C30 |
| C53 | relational logic: two runs of every function side by side on symbols that agree up to a map `e` of tokens (`Proof/Alike.lean`); trees compared after `Tree.erase e` |
| C54 | unary logic over positions (`Proof/Position.lean`): every position a function puts in a node or an error is one it was given or one it read; final state of failing runs (`runStop`), positions are monotone along `advance` |
| C55 | lexical grammar `Spec/LexGrammar.lean` (relations `Enter`, `Skips`, `Number`, `Word`, `Next` on places); each relation is shown to be what the tokenizer step (`Proof/LexStep.lean`, `StepDet.lean`) does, in both directions (`Proof/LG*.lean`); composed with C50 |
| C56 | on the lexical grammar of C55: the symbols before the gap do not look beyond its first character (`Proof/LGInsert.lean`), the gap is skipped and from there on the tokenizers are at the same place (C42); composed with C53 |
| C57 | `Reads` (C24) is a function of the tree except for parameter lists and type lists; in these the parts are put in order by their positions, using C25 (`Proof/InjectPos.lean`), so the tree with positions determines the symbols. Up to positions it does for trees without these lists; with them it is false (`C57_parameter_lists`: `lambda a, /, b: c` and `lambda a, b, /: c`) |
| C58 | the exact grammar (C50) and the tokenizer's brackets (C08, C09): in every sentence there are at most as many opening as closing round and square brackets (a static bound on right hand sides, checked for each rule); in a text the tokenizer has matched they are equally many, so an arbitrary symbol inside a slice is no bracket and, since line structure symbols occur only outside brackets, no indent or dedent; hence indents and dedents balance |
| C59 | on the lexical grammar (C55): symbols before a line end do not depend on the text after it (`Proof/LGJoin.lean`); at the end of the first text the tokenizer is at the left margin with no bracket open (C58), in front of the second text (`Proof/LGConcat.lean`); on the exact grammar (C50): sentences of `file_input` can be appended since statements do not depend on the state for `except` clauses before them |
| C60 | `Spec/BlankLines.lean`: what a line without code is; on the lexical grammar (C55): symbols before a line do not depend on the text after it, and a step from the start of a line that is no indentation and no block end can also be taken with lines without code before it (`Proof/LGBlank.lean`); then C53 |
| C61 | `Spec/Canonical.lean`: the text written down from symbols (not code of the project: a specification device); on the lexical grammar (C55): a symbol can be read from its spelling before a gap, the symbols at the start of a line are block starts or ends and then a symbol that is no line end, induction over the symbols (`Proof/LGCanon.lean`); then C53 and C57 |
| C62 | `Spec/FileTree.lean`: the statements of a file's tree; two parsers run side by side, one that reaches the end of the text after k symbols and one that goes on there with a symbol that is none of elif, else, except, finally: each statement function gives alike trees in both (`Proof/Edge*.lean`); functions that do not use the except status do not depend on it (`Proof/ExcFree.lean`); the symbols of the joined text are those of C59 |
| C63 | `Spec/SameText.lean`: the relation of texts, by induction over characters; the tree determines the symbols (C57) and the symbols with their trivia and positions the text (C17, whole text): two readings of the same pieces are compared piece by piece, the position of the next piece fixes how many blanks stand before it; the differences and the lost characters are shown on concrete pairs |
| C64 | `Spec/Pieces.lean`: what a piece is; by induction over the list of pieces from C62, because pieces put together are a piece; the statement about edits is the case of three pieces, twice |
| C65 | from right to left C59; from left to right: the symbols of the whole are those of the first part and then those of the second (lexical grammar, C55), the whole has a derivation (C50), and the derivation can be cut between the two: by induction over derivations, after a line or block end at the level of a statement there comes, inside the statement, only an indent, a type comment, or one of the four keywords; that the second colon of a slice is no line structure symbol follows from the brackets (C58) |
| C66 | `Spec/Session.lean`: a session is a list of calls, and what it should return and what it does return; that a call starts afresh: executions from two parser states with the same tokenizer agree, because an entry point first moves to the next symbol; sessions by induction over the calls from C24 and C43; the desired statement is false (`C66_symbol_lost`: of `a⏎-b⏎` the second call returns the tree of `b`), because the first thing a call does is to drop the current symbol, which the call before has already taken from the next line |
| C67 | `Spec/TreeSize.lean`: the number of parts of a tree; by induction over the tree: for each variant a constant by which the number of parts may exceed eight per symbol, consistent with the table of fields of C44 (checked row by row by the kernel); number of symbols from C02 |
| C68 | `Spec/Replace.lean`: the symbols an expression can end with, the pairs of brackets; by induction over the derivation in the exact grammar of C50: each rule that can read a number there can read the bracketed expression (static check of the rules by the kernel), then through C50 and C51 to the parser; negations for the exceptions by evaluation |
| C69 | `Spec/Rename.lean`: what a name is, a token with the text of one name changed; the lexical grammar of C55 gives that replacing the text of one symbol leaves the symbols before it unchanged (`Proof/LGReplace.lean`) and C56 gives that the symbols after it depend only on the place reached; the parser is then related by C53; exceptions by evaluation |
| C70 | the version of C68 for texts: `Proof/LGBracket.lean` shows from the lexical grammar of C55 that a text that ends with a line feed has the same symbols inside brackets, except for the line ends; the symbols before and after the number are handled as in C69; then C68; the exception of the carriage return by evaluation |
| C71 | a relation between two runs of a tokenizer function on two texts (`Loc` in `Proof/LexLocal.lean`): equal results if the texts agree up to three characters after the place where the first run stops; proved function by function up to `get_symbol`, also for loops with different fuel; then by induction over the depth and the bodies of the parse functions |
| C72 | surgery on derivations of the exact grammar (`XS.block` in `Proof/Block.lean`): an Indent, a body that closes what it opens, and a Dedent can only be a block, and without `try` the body does not change the state; simulation of the lexical grammar on a text with blanks in front of every line (`Proof/LGIndent.lean`); both put together in `Props/Body.lean` |
| C73 | the run of `testlist` is followed step by step by a run of `testlist_star_expr` from the same state (induction on the steps), then through the statement rules; all outcomes (tree, error, panic) are given, so acceptance is decided (`Props/Modes.lean`) |
| C74 | two runs side by side, one per text, in three phases: before the number, at it, behind it. A relation between bodies (`RelQ`) is shown for every parse function in the first two phases (`Proof/PlugPre1.lean`, `PlugPre2.lean`, `PlugAt.lean`) and is sound by induction on the steps (`Proof/PlugSound.lean`); that a function which ends like an expression cannot end just before the number comes from the grammar (C50). The replaced tree is defined by `Tree.plug` (`Spec/Plug.lean`) |
| C75 | induction on the steps of the run: the consumed symbols are collected, and a second run is built from any state that sees them; functions for expressions never use the `except` status (`Proof/Clean.lean`, `Proof/ReadLike.lean`) |
| C76 | what each message says is listed in `Spec/Message.lean`, from its text alone. Every body of a parse function is executed symbolically, keeping the facts about the current symbol that the tests on the way have established (`Honest`, `Proof/Message.lean`, `Proof/MessageAll.lean`); soundness is an induction on the steps of a run. Five messages are wrong in the code; for each a text is given (`C76_misleading`) |
| C77 | like C75, with the `except` status in the state: a body is checked not to look at the status before it has set it (`Ins`, `Proof/Ins.lean`, for every function); then induction on the steps, with the invariant that the two states have the same status or have both kept their own (`Proof/ReadStmt.lean`) |
| C78 | a simulation of the two parsers: before the block they see the same symbols, at its line end both call `suite` (or `func_body_suite`), behind it they see the same again; every function body is checked to fit (`RelG`, `Proof/GraftBody*.lean`), then induction on the steps (`run_graft`). What the call at the block returns is got from the runs of the two bodies as files (`stmts_of_file`), with C62's `Off` for the end of the body and C77 for the `except` status. For texts (`C78_only_the_body_text`) the symbols of a body moved to the right are got from C72's lemmas, which now also say that a symbol on one line is not changed; a string over several lines is (`C78_string_moved`) |
| C79 | `Spec/Viable.lean`: what it means that symbols can be completed, and the three exceptions; a program logic for failing runs (`WF` in `Proof/Viable.lean`): every function, when it fails, has taken symbols that begin a sentence of its rule of the exact grammar (C50), checked function by function (`Proof/Viable*.lean`); every rule has sentences (a ranking of the rules, checked by the kernel), so that a begun rule can be finished; the exceptions by evaluation and by tests that are proved to find every sentence: no sentence starts with `{}` or `@`, nor with a try statement that has both kinds of handlers (`scanFor` in `Proof/Prefix.lean`); with C80, no text with the same symbols up to the place of the error is accepted |
| C80 | `Spec/Lookahead.lean`: two parsers that see the same current symbol and the same next `k` ones; by induction on bodies: a body stops `k` symbols further on, and a body that is related to it (the relation `RelP` of C53) has the same outcome in every state that sees the same symbols up to there (`Proof/Lookahead.lean`) |
| C81 | `Spec/Assemble.lean`: pieces and how they are put together; by induction on the list of pieces from C62; that a wrong piece is not repaired by the others (`C81_accepted_iff`) from C65, with the first symbol of the rest got from that of its first piece |
| C82 | the relation of C53 on bodies, with a relation on positions that is kept (`RelAt`, `Proof/PlaceAlike.lean`), checked for every function (`Proof/PlaceAlikeAll.lean`); then induction on the steps, with the invariant that both parsers are the same number of symbols from the start and that related positions are where the same symbol starts (`rat_exec`, `outAt_run`). That an error moves with its text (`C82_moved`, `C82_behind`): the tokenizer's start of the token moves as well (`Proof/ShiftAt.lean`, as for C42) |
| C83 | `Spec/Moved.lean`: a tree moved by a distance; a relation on bodies in which tokens, trees and positions are the moved ones (`RelMv`, `Proof/Moved.lean`), checked for every function (`Proof/MovedAll.lean`), then induction on the steps, with the tokenizers kept at the same distance by `getSymbol_shiftAt` (`Proof/ShiftAt.lean`); for any two `except` statuses by the functions setting the status before they look at it (`ExcFree`) |

## 5. Where the code does not do what a user expects

Each entry is a theorem for all inputs of the kind named, or a witness where only one is needed.

* **C11** (partial). proved for texts without blank and comment lines; false after a blank, comment or backslash line (C11_blank_line_hides_indentation).  Theorems: `C11_layout_partial`, `C11_blank_line_hides_dedent`, `C11_blank_line_hides_indentation`.
* **C12** (partial). false: never rejected (C12_never_rejected); C12_lenient_layout_partial says what happens instead.  Theorems: `C12_never_rejected`, `C12_inconsistent_dedent_accepted`, `C12_lenient_layout_partial`.
* **C14** (partial). exact for literals not starting with 0 and for 0x/0o/0b; false for other literals starting with 0 (C14_zero_swallows) and exponents without digits are accepted (C14_bad_exponent_accepted).  Theorems: `C14_number_partial`, `C14_number_text_partial`, `C14_zero_swallows`, `C14_zero_loses_newline`, `C14_bad_exponent_accepted`, `C14_classes`.
* **C15** (partial). trivia tile every gap inside a line; leading indentation of a line is in no trivia (C15_indentation_not_recorded).  Theorems: `C15_trivia_cover_partial`, `C15_trivia_tile`, `C15_indentation_not_recorded`.
* **C16** (partial). a line end CR LF reads the same as LF when the character after it is put back; otherwise it swallows that character (C16_crlf_differs).  Theorems: `C16_crlf_partial`, `C16_continuation`, `C16_crlf_differs`.
* **C17** (partial). holds for every text without CR LF, NUL and a 0 at its end, up to blanks at the start of a line (C17_whole_text_partial); false for CRLF line ends and a 0 ending the text.  Theorems: `C17_token_text_partial`, `C17_line_partial`, `C17_crlf_loses_character`, `C17_zero_invents_character`, `C17_whole_text_partial`.
* **C25** (partial). Nesting and node ends are proved for every node of every tree; node starts for every node except the entries of dictionary and set displays, which the code starts at the display instead (proved, with a concrete counterexample).  Theorems: `C25_node_span_partial`, `C25_node_end`, `C25_nested`, `C25_entry_starts_at_display`, `C25_entry_start_wrong`.
* **C30** (partial). The property fails: import_stmt at an import token calls itself for ever (C30_import_diverges, C30_import_os_diverges). Proved: that is the only cause of non-termination (C30_diverges_iff_import_partial), so every parse of a text without the word import terminates.  Theorems: `C30_diverges_iff_import_partial`, `C30_outcome_unique`, `C30_states`, `C30_terminates_partial`, `C30_import_diverges`, `C30_import_os_diverges`.
* **C31** (partial). The property fails: a statement starting with the name match panics (C31_match_panics, C31_match_assignment_panics). Proved: that is the only panic (C31_panics_iff_match_partial, C31_match_calls), so no parse of a text without the word match panics.  Theorems: `C31_panics_iff_match_partial`, `C31_match_calls`, `C31_no_panic_partial`, `C31_match_panics`, `C31_match_assignment_panics`.
* **C33** (partial). The property fails: the theorems prove, for all inputs, that a for statement or for clause with a plain target is never accepted, because the target rule reads 'x in y' as a comparison; accepted targets are starred or end in a comma or starred element. Every well formed for statement with a comma after its targets is accepted with the right tree (C33_for_accepted_partial).  Theorems: `C33_for_accepted_partial`, `C33_for_target`, `C33_clause_target`, `C33_plain_for_rejected`.
* **C34** (partial). The property fails in part: {} and dictionaries of three or more entries are proved to be rejected for all entries; sets of any size and dictionaries of one or two entries are proved to be accepted with the right tree.  Theorems: `C34_empty_dict_rejected`, `C34_third_entry_rejected`, `C34_dict_size`, `C34_displays_partial`.
* **C35** (partial). The property fails for a[i:j]: proved rejected for all parts; a[i:j:k], with any part missing, is proved accepted with the right tree; any token is proved to be accepted in place of the second colon.  Theorems: `C35_full_slice_partial`, `C35_short_slice_rejected`, `C35_any_token_as_colon`.
* **C36** (partial). The property fails: proved that every function definition with a non-empty parameter list is rejected, and that every accepted definition has no parameters. Every well formed definition without parameters is accepted with the right tree (C36_plain_def_accepted_partial).  Theorems: `C36_plain_def_accepted_partial`, `C36_params_rejected`, `C36_no_params`.
* **C37** (partial). The property fails: proved that no decorated definition and no async def is ever accepted; async with and async for are accepted when the statement after async is.  Theorems: `C37_decorated_rejected`, `C37_async_def_rejected`, `C37_async_partial`.
* **C38** (partial). Fails in the code when try statements are nested (C38_mixed_accepted, C38_uniform_rejected); proved for try statements whose clauses contain no try statement. Every try statement with clauses of one kind, also in its suites, is accepted with the right tree (C38_uniform_accepted_partial).  Theorems: `C38_uniform_accepted_partial`, `C38_uniform_partial`, `C38_mixed_accepted`, `C38_other_kind_rejected`, `C38_uniform_rejected`, `C38_status_kept`.
* **C43** (partial). Proved: an accepted input is exactly one simple statement line (or an empty line) and ends with its Newline; every well formed line of simple statements is accepted, from its tokens and from its text (C43_line_accepted_partial, C43_text_accepted_partial). Fails in the code: compound statements and an empty first line are never accepted (C43_compound_rejected, C43_empty_input_rejected).  Theorems: `C43_line_accepted_partial`, `C43_text_accepted_partial`, `C43_empty_line`, `C43_one_line`, `C43_empty_input_rejected`, `C43_simple_accepted_partial`, `C43_compound_rejected`, `C43_if_rejected`.
* **C45** (partial). The property fails for keyword and starred arguments (proved rejected for all of them); positional arguments are proved accepted with the right tree.  Theorems: `C45_keyword_argument_rejected`, `C45_starred_argument_rejected`, `C45_positional_partial`.
* **C49** (partial). The property fails: proved for all texts of lines that a file whose last line has no line end is never accepted, and that the last token before EOF of every accepted file is a Newline or Dedent. That texts with the final line end are accepted is C48.  Theorems: `C49_accepted_file_ends_with_line`, `C49_unfinished_line_rejected`, `C49_no_final_newline_rejected`, `C49_newline_matters`.
* **C66** (partial). Violated: every entry point first drops the current symbol, which after an earlier call is the first symbol of the next line (C66_symbol_lost). Proved: a call depends only on the tokenizer state; successive calls return successive stretches of the text, each up to a line end, with exactly one symbol lost between them (C66_session_lines_partial); after a whole file, reading again gives an empty file.  Theorems: `C66_call_starts_afresh`, `C66_session_lines_partial`, `C66_symbol_lost`, `C66_after_the_end`.
* **C76** (partial). Five of the 172 messages are wrong in the code: C76_misleading gives a text for each. All others are proved true for every run.  Theorems: `C76_messages_partial`, `C76_one_meaning`, `C76_misleading`.
* **C79** (partial). Violated in three places, with a witness for each (C79_empty_braces_read, C79_decorator_read, C79_mixed_handlers_read). Proved: in all other cases what was read can be completed to a sentence of the exact grammar of C50, at the level of symbols, and no text with the same symbols up to the place of the error is accepted (C79_first_mistake_partial). Not proved: that the completing symbols can be written as a text.  Theorems: `C79_first_mistake_partial`, `C79_prefix_completable_partial`, `C79_plain_text_partial`, `C79_stops_at_the_first_mistake_partial`, `C79_empty_braces_read`, `C79_decorator_read`, `C79_mixed_handlers_read`.

## 6. What is not claimed

* Running time is bounded in numbers of calls (C02, C52), stack use in the depth of nested calls (C52); nothing is claimed
  about memory or the size of stack frames.
* Message texts of errors are modelled but no property is stated about their wording.
* The accepted language is given exactly by C50; the grammar there is particular to this parser. In terms of Python's
  grammar the language is bounded from above (C23) and from below by the programs of C47.
