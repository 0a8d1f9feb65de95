{"id": "C01", "title": "get_symbol always returns", "statement": "Every call of Tokenizer::get_symbol terminates and returns either a token or an error string; none of its loops (indentation scan, blank/comment skipping, names, numbers, strings) can run forever and it never panics.", "quantifier": "every source text and every tokenizer state reachable from new() by any number of get_symbol calls", "why_tests_cant": "A non-terminating loop depends on an unbounded input; tests only show that the sampled inputs terminate.", "anchors": ["src/parser/tokenizer.rs: PythonCoreTokenizer, new, get_symbol, handle_string", "src/parser/source_buffer.rs: SourceBuffer"]}
{"id": "C02", "title": "The token stream ends after a bounded number of calls", "statement": "Calling get_symbol repeatedly yields EOF or an error after at most 2*len+2 calls (len = number of characters), however the text mixes indentation, blank lines and brackets: a client loop `until EOF or Err` always stops.", "quantifier": "every source text", "why_tests_cant": "Needs a global progress measure over a whole run, including zero-width Indent/Dedent tokens.", "anchors": ["src/parser/tokenizer.rs: get_symbol"]}
{"id": "C03", "title": "EOF is sticky", "statement": "Once get_symbol has returned EOF, every later call returns EOF again at the same position, without trivia, and the tokenizer position does not change.", "quantifier": "every source text, every history of calls that ended in EOF, and every number of further calls", "why_tests_cant": "Quantifies over all histories before and after the first EOF.", "anchors": ["src/parser/tokenizer.rs: get_symbol"]}
{"id": "C04", "title": "Positions stay in range and do not overflow", "statement": "The read position never moves more than one past the end of the source, the measured column is at most four times the source length, and the indentation stack is at most as deep as the source is long; so on sources shorter than 2^30 characters no u32/i32 counter of the tokenizer overflows.", "quantifier": "every source text and every history of get_symbol calls", "why_tests_cant": "Overflow needs inputs far larger than any test.", "anchors": ["src/parser/tokenizer.rs: get_symbol", "src/parser/source_buffer.rs: SourceBuffer, advance"]}
{"id": "C05", "title": "Token spans are ordered and do not overlap", "statement": "Every positioned token has start < end (EOF has one position), its span starts at get_position(), and it starts at or after the end of every token returned earlier; get_position() never decreases.", "quantifier": "every source text, every pair of tokens in the stream", "why_tests_cant": "Relates every pair of tokens of every stream.", "anchors": ["src/parser/tokenizer.rs: get_symbol, get_position"]}
{"id": "C06", "title": "Names and keywords are read maximally and exactly", "statement": "A word token covers a maximal run of identifier characters; it is a keyword token exactly when the run is one of the 35 Python keywords (and then the right one), a string prefix only when a quote follows one of the 14 prefixes, and otherwise a name whose text is exactly that run of the source.", "quantifier": "every source text and reachable tokenizer state whose next token starts with a letter or underscore", "why_tests_cant": "Ranges over every identifier, including every near-keyword, and everything that may follow it.", "anchors": ["src/parser/tokenizer.rs: get_symbol 539-648"]}
{"id": "C07", "title": "Operators use longest match", "statement": "When the next token starts with an operator character, the token returned is the one whose spelling is the longest operator spelling that is a prefix of the rest of the source, and exactly those characters are consumed.", "quantifier": "every source text and reachable tokenizer state positioned on an operator or delimiter", "why_tests_cant": "Depends on the order of about fifty match arms and on arbitrary following text.", "anchors": ["src/parser/tokenizer.rs: get_symbol 268-538"]}
{"id": "C08", "title": "Brackets are matched by the tokenizer", "statement": "The bracket tokens returned before the first error always form a prefix of a properly nested sequence: a closing bracket token is only ever returned when it matches the innermost open bracket, and an unmatched or mismatched closing bracket is always reported as an error.", "quantifier": "every source text and every prefix of its token stream", "why_tests_cant": "An invariant over whole histories of unbounded nesting depth.", "anchors": ["src/parser/tokenizer.rs: get_symbol 479-538"]}
{"id": "C09", "title": "No layout tokens inside brackets", "statement": "While at least one bracket is open no Newline, Indent or Dedent token is returned; line ends inside brackets become trivia.", "quantifier": "every source text and every point of its token stream", "why_tests_cant": "Invariant over all nesting histories.", "anchors": ["src/parser/tokenizer.rs: get_symbol 89-104, 183-236"]}
{"id": "C10", "title": "Indent and Dedent are balanced", "statement": "In every prefix of the token stream the number of Dedent tokens never exceeds the number of Indent tokens, and the difference equals the number of currently open indentation levels minus those still waiting to be reported; the open levels are strictly increasing columns above column 0.", "quantifier": "every source text and every prefix of its token stream", "why_tests_cant": "Global counting invariant over unbounded nesting.", "anchors": ["src/parser/tokenizer.rs: get_symbol 47-120"]}
{"id": "C11", "title": "Every line's indentation is reported", "statement": "At the first token of a logical line outside brackets, the indentation of that line has been compared with the enclosing block: deeper yields an Indent, shallower yields the Dedents closing every deeper block. Blank and comment lines before it make no difference.", "quantifier": "every source text and every logical line in it", "why_tests_cant": "Interacts with arbitrary runs of blank and comment lines; expected to FAIL after a blank line (the blank-line flag is never reset).", "anchors": ["src/parser/tokenizer.rs: get_symbol 45-107"]}
{"id": "C12", "title": "Inconsistent dedents are rejected", "statement": "A line whose column is not one of the enclosing block columns and is smaller than the innermost is reported as an indentation error.", "quantifier": "every source text", "why_tests_cant": "Needs all column combinations; expected to FAIL (the error branch is unreachable).", "anchors": ["src/parser/tokenizer.rs: get_symbol 95-103"]}
{"id": "C13", "title": "String literals are read exactly", "statement": "A string token's text is the source from the opening quote to the first matching closing quote (three quotes for triple quoted), a single-quoted literal never spans a line end, an unterminated literal is an error, and the prefix plus the text is exactly the source slice of the token's span.", "quantifier": "every source text and reachable state positioned on a string literal", "why_tests_cant": "Ranges over every content and every run of quotes.", "anchors": ["src/parser/tokenizer.rs: handle_string, get_symbol 616-644, 983-995"]}
{"id": "C14", "title": "Numbers are read exactly", "statement": "A number token's text is exactly the source slice of its span, follows Python's numeric literal shape (underscores only between digits, optional fraction, exponent and j), and is maximal; a character that cannot belong to a number is never consumed by it.", "quantifier": "every source text and reachable state positioned on a digit or on '.' followed by a digit", "why_tests_cant": "Numbers are unbounded; expected to FAIL for literals starting with 0 (next character is always swallowed) so only literals starting with 1-9 or '.' and the 0x/0o/0b forms can be proved.", "anchors": ["src/parser/tokenizer.rs: get_symbol 649-982"]}
{"id": "C15", "title": "Skipped text is recorded as trivia", "statement": "Everything the tokenizer skips between two tokens is recorded in the trivia of the second one: the trivia spans, in order, tile the gap between the end of the previous token and the start of the next.", "quantifier": "every source text and every pair of consecutive tokens", "why_tests_cant": "Relates all tokens, trivia and characters; expected to FAIL for leading indentation, so it is proved for tokens that do not follow a line start.", "anchors": ["src/parser/tokenizer.rs: get_symbol 122-259", "src/parser/trivias.rs: Trivia"]}
{"id": "C16", "title": "CRLF line ends behave like LF line ends", "statement": "Replacing every \\n line end by \\r\\n leaves the sequence of token kinds and texts unchanged.", "quantifier": "every source text", "why_tests_cant": "Quantifies over all texts; expected to FAIL (\\r\\n consumes one character too many).", "anchors": ["src/parser/tokenizer.rs: get_symbol 184-200"]}
{"id": "C17", "title": "No source character is lost", "statement": "Concatenating token texts and trivia in order reproduces the source: every character belongs to exactly one token or trivia span.", "quantifier": "every source text", "why_tests_cant": "Global tiling property; expected to FAIL for indentation.", "anchors": ["src/parser/tokenizer.rs: get_symbol"]}
{"id": "C18", "title": "Lexical errors are reported where they occur", "statement": "If the next character cannot start any token (for example $, ?, a lone !) get_symbol returns an error naming that position and character, consumes nothing of it, and every later call reports the same error: the tokenizer never skips bad input.", "quantifier": "every source text, every reachable state positioned on such a character, every number of later calls", "why_tests_cant": "Ranges over all characters of Unicode and all later histories.", "anchors": ["src/parser/tokenizer.rs: get_symbol 996-999"]}
{"id": "C19", "title": "Space separated lexemes are read back", "statement": "If a text consists of names, keywords and operators written one after another with single spaces between them, the tokenizer returns exactly these lexemes in order, then EOF.", "quantifier": "every finite sequence of such lexemes", "why_tests_cant": "Unbounded sequences; a round-trip law.", "anchors": ["src/parser/tokenizer.rs: get_symbol"]}
{"id": "C20", "title": "Line continuations join lines", "statement": "A backslash immediately followed by a line end is trivia and never produces a Newline token; a backslash followed by anything else is an error.", "quantifier": "every source text and reachable state positioned on a backslash outside strings and comments", "why_tests_cant": "All following texts.", "anchors": ["src/parser/tokenizer.rs: get_symbol 239-259"]}
{"id": "C21", "title": "Comments do not change tokens, type comments are kept", "statement": "A comment runs to the line end (or end of source) and its text is the exact source slice; it becomes a TypeComment token exactly when it starts with '# type:' and otherwise trivia.", "quantifier": "every source text and reachable state positioned on '#'", "why_tests_cant": "All comment texts.", "anchors": ["src/parser/tokenizer.rs: get_symbol 149-170"]}
{"id": "C22", "title": "A successful file parse used the whole input", "statement": "If parse_blocks_eval_input or parse_blocks_file_input succeeds, the tokenizer has delivered every token up to EOF without a lexical error, the parser consumed all of them, and the EOF token is in the tree; no suffix of the source is silently ignored.", "quantifier": "every source text", "why_tests_cant": "Quantifies over every accepted source.", "anchors": ["src/parser/blocks.rs: parse_blocks_eval_input, parse_blocks_file_input"]}
{"id": "C23", "title": "Accepted token sequences are in the grammar", "statement": "Whenever a parse_* function succeeds, the sequence of tokens it consumed is a sentence of that rule in a declarative grammar (written independently as EBNF).", "quantifier": "every source text, every parser state, every parse function", "why_tests_cant": "All inputs, unbounded nesting; mutual induction over about ninety functions.", "anchors": ["src/parser/expressions.rs: Expressions", "src/parser/statements.rs: Statements", "src/parser/blocks.rs: Blocks", "src/parser/functions.rs: Functions"]}
{"id": "C24", "title": "The tree contains exactly the consumed tokens", "statement": "The tokens stored in the tree returned by a successful parse are exactly the tokens consumed, each once: none is dropped, duplicated or invented.", "quantifier": "every source text, every parser state, every parse function", "why_tests_cant": "All trees of unbounded size.", "anchors": ["src/parser/expressions.rs: Expressions", "src/parser/statements.rs: Statements", "src/parser/blocks.rs: Blocks", "src/parser/functions.rs: Functions", "src/parser/nodes.rs: ASTNode"]}
{"id": "C25", "title": "Node spans are right and nest", "statement": "Every node starts at the position of its first token and ends at the position of the first token after it; the span of a child lies inside the span of its parent.", "quantifier": "every source text, every node of every tree returned", "why_tests_cant": "All nodes of all trees.", "anchors": ["src/parser/expressions.rs: Expressions", "src/parser/statements.rs: Statements", "src/parser/blocks.rs: Blocks"]}
{"id": "C26", "title": "Operator precedence", "statement": "In every expression tree an operand of an operator node is never a node of a looser operator, unless it is bracketed: the nesting follows Python's precedence table (lambda/if-else, or, and, not, comparisons, |, ^, &, shifts, + -, * / // % @, unary, **, await/trailers, atoms).", "quantifier": "every source text whose expression is accepted", "why_tests_cant": "All operator combinations at unbounded depth.", "anchors": ["src/parser/expressions.rs: parse_expressions_test .. parse_expressions_atom"]}
{"id": "C27", "title": "Associativity", "statement": "Binary operators of the same level nest to the left (a-b-c is (a-b)-c), ** and if-else nest to the right.", "quantifier": "every accepted expression, chains of any length", "why_tests_cant": "Chains of unbounded length.", "anchors": ["src/parser/expressions.rs: parse_expressions_term, parse_expressions_arith, parse_expressions_shift, parse_expressions_and_expr, parse_expressions_xor_expr, parse_expressions_expr, parse_expressions_comparison, parse_expressions_and_test, parse_expressions_or_test, parse_expressions_power, parse_expressions_test"]}
{"id": "C28", "title": "Every well formed operator expression is accepted", "statement": "Every token sequence that is the standard written form of an expression built from names, numbers, strings (also adjacent ones), constants, tuples, lists, sets, dicts of one or two entries, attribute access, calls, subscripts and slices, await, unary and binary operators, comparisons, boolean operators, conditional expressions, lambdas without parameters and := is accepted, and the tree returned is that expression.", "quantifier": "every expression of any size, and any token after it that cannot continue it", "why_tests_cant": "Completeness for unbounded expressions.", "anchors": ["src/parser/expressions.rs: parse_expressions_test .. parse_expressions_atom"]}
{"id": "C29", "title": "Unparsing an expression and parsing it again gives the same tree", "statement": "Writing an operator expression as characters and running tokenizer and parser (eval input) on it yields exactly the tree of that expression.", "quantifier": "every such expression of any size", "why_tests_cant": "End to end round trip over unbounded inputs.", "anchors": ["src/parser/blocks.rs: parse_blocks_eval_input", "src/parser/tokenizer.rs: get_symbol", "src/parser/expressions.rs: parse_expressions_test"]}
{"id": "C30", "title": "Parsing terminates", "statement": "Every parse_* function terminates on every source.", "quantifier": "every source text and parser state", "why_tests_cant": "Termination cannot be tested; expected to FAIL for a statement starting with `import` (the function calls itself without consuming anything); proved for every source in which no `import` token is reached.", "anchors": ["src/parser/statements.rs: parse_statements_import_stmt", "src/parser/expressions.rs: Expressions", "src/parser/blocks.rs: Blocks"]}
{"id": "C31", "title": "Parsing never panics", "statement": "No parse_* function panics: every malformed source is reported as Err.", "quantifier": "every source text and parser state", "why_tests_cant": "All inputs; expected to FAIL for a statement starting with the name `match` (todo!()); proved otherwise.", "anchors": ["src/parser/patterns.rs: parse_patterns_match", "src/parser/statements.rs: parse_statements_stmt", "src/parser/blocks.rs: Blocks"]}
{"id": "C32", "title": "Lexical errors fail the parse", "statement": "If the tokenizer reports an error before EOF, parsing the file or an expression that reaches that point returns Err and never a tree.", "quantifier": "every source text whose token stream contains an error", "why_tests_cant": "All error positions and parser contexts, including loops that treat an error as end of list.", "anchors": ["src/parser/expressions.rs: parse_expressions_atom, parse_expressions_atom_expr", "src/parser/blocks.rs: parse_blocks_file_input"]}
{"id": "C33", "title": "for loops and comprehensions are accepted", "statement": "`for x in y: ...` and `[a for x in y]` are accepted.", "quantifier": "every name x, every expression y, every body", "why_tests_cant": "Expected to FAIL: the target is parsed with a rule that already consumes `in`; the theorem says the rule rejects every single-target loop.", "anchors": ["src/parser/statements.rs: parse_statements_for_stmt", "src/parser/expressions.rs: parse_expressions_sync_comp_for, parse_expressions_exprlist"]}
{"id": "C34", "title": "Dictionary and set displays are accepted", "statement": "Dict and set displays of any number of entries are accepted.", "quantifier": "every number of entries, every entry", "why_tests_cant": "Expected to FAIL for the empty display and for more than two dict entries.", "anchors": ["src/parser/expressions.rs: parse_expressions_dictorset_maker, parse_expressions_atom"]}
{"id": "C35", "title": "Slices are accepted", "statement": "a[i:j] and a[i:j:k] are accepted and produce a Subscript node with the given bounds.", "quantifier": "every bounds expression", "why_tests_cant": "Expected to FAIL: after the first ':' a second token is always consumed as if it were ':'.", "anchors": ["src/parser/expressions.rs: parse_expressions_subscript"]}
{"id": "C36", "title": "Function definitions with parameters are accepted", "statement": "`def f(a, b): body` is accepted.", "quantifier": "every parameter list and body", "why_tests_cant": "Expected to FAIL: the parameter list rule consumes nothing, so only an empty list is ever accepted.", "anchors": ["src/parser/blocks.rs: parse_blocks_parameters, parse_blocks_func_def", "src/parser/blocks.rs: parse_blocks_typed_args_list"]}
{"id": "C37", "title": "Decorated and async functions are accepted", "statement": "A decorated class or function and `async def` are accepted.", "quantifier": "every decorator list and definition", "why_tests_cant": "Expected to FAIL for all inputs: the decorator rule leaves the Newline unread and async def calls the class rule.", "anchors": ["src/parser/blocks.rs: parse_blocks_decorated, parse_blocks_async_func_def", "src/parser/statements.rs: parse_statements_async_stmt"]}
{"id": "C38", "title": "except and except* are never mixed in one try statement", "statement": "A try statement that is accepted uses only `except` or only `except*` clauses, and a try statement that uses only one kind is not rejected for mixing.", "quantifier": "every try statement, with arbitrary nested statements in its blocks", "why_tests_cant": "Nesting of unbounded depth; expected to FAIL because the status is one global flag that nested try statements reset.", "anchors": ["src/parser/statements.rs: parse_statements_try_stmt, parse_statements_except_clause", "src/parser/parser.rs: ET, except_status"]}
{"id": "C39", "title": "List fields keep all elements in a fixed order", "statement": "Comma separated lists in the tree hold all elements and all separators; the stored order is source order for exprlist/testlist and reversed source order for the others, and there is one separator between neighbours.", "quantifier": "every accepted list of any length", "why_tests_cant": "Unbounded lists.", "anchors": ["src/parser/expressions.rs: parse_expressions_testlist_comp, parse_expressions_subscript_list, parse_expressions_exprlist, parse_expressions_testlist, parse_expressions_arglist", "src/parser/statements.rs: Statements", "src/parser/blocks.rs: Blocks"]}
{"id": "C40", "title": "A parse only depends on the tokens it reads", "statement": "The result of a parse function is determined by the tokens it consumes plus one lookahead token: what comes later in the source can neither change the tree nor turn success into failure.", "quantifier": "every pair of parser states whose token streams agree on the consumed tokens and the lookahead", "why_tests_cant": "A two-run (relational) property.", "anchors": ["src/parser/parser.rs: PythonCoreParser, advance", "src/parser/expressions.rs: Expressions"]}
{"id": "C41", "title": "Blocks need indentation and are closed by a dedent", "statement": "A suite that does not start on the same line is accepted only as Newline, Indent, one or more statements, Dedent; every accepted simple statement ends with a Newline token.", "quantifier": "every accepted program, any nesting of blocks", "why_tests_cant": "All programs.", "anchors": ["src/parser/statements.rs: parse_statements_suite, parse_statements_simple_stmt"]}
{"id": "C42", "title": "Tokens depend only on the text that follows", "statement": "Kind and text of the next token depend only on the remaining characters (plus bracket/indentation state), not on the absolute position: shifting a text shifts all spans and changes nothing else.", "quantifier": "every source text, every prefix put in front of it", "why_tests_cant": "Relational property over all texts.", "anchors": ["src/parser/tokenizer.rs: get_symbol"]}
{"id": "C43", "title": "Interactive input stops after one statement", "statement": "single_input reads exactly one simple statement line, one compound statement with the Newline after it, or an empty line, and consumes nothing after it.", "quantifier": "every source text", "why_tests_cant": "Expected to FAIL for compound statements: the block's Dedent hides the Newline that the rule asks for.", "anchors": ["src/parser/blocks.rs: parse_blocks_single_input"]}
{"id": "C44", "title": "Trees are well typed", "statement": "Every node of a returned tree has the number and kinds of fields that its variant promises: operator fields hold that operator's token, optional fields are present together, sub-trees are of the variants that the grammar allows there, and each parse function returns only its own variants.", "quantifier": "every source text, every parse function, every node of every tree", "why_tests_cant": "All trees of unbounded depth; the node type itself allows any tree in any field.", "anchors": ["src/parser/nodes.rs: ASTNode", "src/parser/expressions.rs: Expressions", "src/parser/statements.rs: Statements", "src/parser/blocks.rs: Blocks"]}
{"id": "C45", "title": "Calls accept every kind of argument", "statement": "f(a, b), f(x=1), f(*a) and f(**k) are accepted as calls.", "quantifier": "every function expression, every list of arguments, every source text around them", "why_tests_cant": "Argument lists of unbounded length over unbounded expressions; a test shows single calls.", "anchors": ["src/parser/expressions.rs: parse_expressions_trailer", "src/parser/expressions.rs: parse_expressions_subscript_list", "src/parser/expressions.rs: parse_expressions_argument"]}
{"id": "C46", "title": "Blank lines produce no symbols", "statement": "The tokenizer never returns two Newline symbols in a row, nor a Newline directly after a Dedent, nor a Newline as the first symbol: however many blank, blank-filled or comment lines a text has, each Newline ends a line that has symbols on it.", "quantifier": "every source text, every state reached by any number of calls", "why_tests_cant": "Quantifies over all texts and all histories of calls, including calls after errors.", "anchors": ["src/parser/tokenizer.rs: get_symbol"]}
{"id": "C47", "title": "Every well formed statement and program is accepted", "statement": "Any sequence of tokens that spells a well formed statement or a well formed program - expression, assignment, augmented and annotated assignment, del, pass, break, continue, return, raise, yield, from-import, global, nonlocal and assert statements, if, while, for, try, with, def and class statements with inline or indented suites, nested to any depth - is accepted, with the tree of exactly those statements, and the parser stops behind it.", "quantifier": "every statement and every program of any size and nesting depth (apart from the statements that the code rejects or that are shown not to work: import, decorators, parameters, for with a plain target, match)", "why_tests_cant": "Programs of unbounded length and nesting depth.", "anchors": ["src/parser/blocks.rs: parse_blocks_file_input, Blocks", "src/parser/statements.rs: Statements", "src/parser/expressions.rs: Expressions"]}
{"id": "C48", "title": "Writing a program out and parsing it again gives the same tree", "statement": "A program written as text - its words separated by spaces, one line per statement line, every block indented by any non-empty run of blanks and tabs - is tokenized and parsed by file_input to the tree of that program; no other result is ever returned for it.", "quantifier": "every program of C47, every indentation unit, every spelling of its names, numbers and strings", "why_tests_cant": "Goes through tokenizer, layout and parser for programs of unbounded size.", "anchors": ["src/parser/tokenizer.rs: get_symbol", "src/parser/blocks.rs: parse_blocks_file_input", "src/parser/parser.rs: PythonCoreParser"]}
{"id": "C49", "title": "The last line of a file needs no line end", "statement": "Whether or not the last line of a source text ends with a line end, file_input accepts the same programs: a text without the final newline is accepted when the text with it is.", "quantifier": "every text made of any number of lines, the last one without its line end", "why_tests_cant": "All texts of any length; a test shows single texts, and the existing ones all end with a newline. Expected to FAIL: the tokenizer adds neither a Newline nor the missing Dedents at the end of the text.", "anchors": ["src/parser/tokenizer.rs: get_symbol", "src/parser/blocks.rs: parse_blocks_file_input", "src/parser/statements.rs: parse_statements_simple_stmt"]}
{"id": "C50", "title": "Exactly the sentences of one grammar are accepted", "statement": "There is one written down grammar (EBNF, with a comment at every place where it differs from Python's) such that each entry point - file_input, eval_input, single_input, func_type_input - accepts a text if and only if the tokens of the text are a sentence of its start symbol. Nothing else is accepted and no sentence is rejected, fails with an error, panics or runs for ever.", "quantifier": "every source text, every entry point, sentences of any length and nesting depth", "why_tests_cant": "Both directions quantify over infinitely many texts: no finite set of accepted and rejected examples determines the language of a recursive descent parser, in particular one without backtracking.", "anchors": ["src/parser/blocks.rs: Blocks", "src/parser/statements.rs: Statements", "src/parser/expressions.rs: Expressions", "src/parser/parser.rs: PythonCoreParser", "src/parser/tokenizer.rs: get_symbol"]}
{"id": "C51", "title": "Acceptance depends only on the kinds of the tokens", "statement": "Two texts whose tokens have the same kinds in the same order are both accepted or both rejected by each entry point: names, numbers, the contents of strings and comments, blanks, line ends and positions do not matter. The one exception is the name `match`, which must be at the same places in both.", "quantifier": "all pairs of source texts, every entry point", "why_tests_cant": "A relation between the outcomes for all pairs of texts of any length.", "anchors": ["src/parser/blocks.rs: Blocks", "src/parser/statements.rs: Statements", "src/parser/expressions.rs: Expressions", "src/parser/tokenizer.rs: get_symbol"]}
{"id": "C52", "title": "Parsing takes linear work and linear stack", "statement": "A parse of a text of n characters that comes to an end makes at most 200 n + 40 calls of parse functions and of advance (300 n + 200 from any intermediate state), and its calls are nested at most 300 n + 400 deep: there is no exponential blow-up from nesting or from alternatives. The depth does grow with the nesting of the text, so no fixed stack is enough for all texts.", "quantifier": "every source text, every parse function, every reachable parser state", "why_tests_cant": "A bound on the number of steps for all texts of all lengths; tests measure single texts.", "anchors": ["src/parser/blocks.rs: Blocks", "src/parser/statements.rs: Statements", "src/parser/expressions.rs: Expressions", "src/parser/parser.rs: PythonCoreParser"]}
{"id": "C53", "title": "The tree does not depend on the layout of the text", "statement": "Two texts whose tokens have the same kinds and texts, however they are laid out (blanks, comments, blank lines, continuations, width of indentation, form of line ends), give the same tree up to positions and trivia, or an error with the same message, or both panic, or both do not end. Two texts whose tokens only have the same kinds (and the name match at the same places) give trees of the same form or the same error message. This holds for every parse function and from every pair of parser states that see the same symbols.", "quantifier": "every pair of source texts with matching tokens, every parse function, every pair of parser states, every number of steps", "why_tests_cant": "A relation between the outcomes for two texts, over all pairs of texts; tests compare single outcomes.", "anchors": ["src/parser/blocks.rs: Blocks", "src/parser/statements.rs: Statements", "src/parser/expressions.rs: Expressions", "src/parser/parser.rs: PythonCoreParser"]}
{"id": "C54", "title": "Syntax errors point at a symbol that was read", "statement": "When a parse function reports an error, the position in it is where some symbol starts: the current symbol of the call or a later one, never one after the symbol at which the parser stopped, and never outside of the text.", "quantifier": "every source text, every parse function, every reachable parser state, every error", "why_tests_cant": "There are over a hundred places that report errors, each reachable from infinitely many texts; a position that is off shows only for particular ones.", "anchors": ["src/parser/blocks.rs: Blocks", "src/parser/statements.rs: Statements", "src/parser/expressions.rs: Expressions", "src/parser/parser.rs: PythonCoreParser", "src/parser/tokenizer.rs: get_position"]}
{"id": "C55", "title": "Exactly the texts of a lexical grammar and a grammar are accepted", "statement": "A lexical grammar written down as a relation between places in a text (line starts, indentation, line ends, gaps, numbers, strings, words, operators) describes the tokenizer completely: at every point that can be reached, a call returns the symbol w and leaves the tokenizer at the place q if and only if the lexical grammar has w as a next symbol with q after it, and it returns an error if and only if there is no next symbol. Therefore a text is accepted as a file, an expression, a function type or an interactive input if and only if its symbols, as read by the lexical grammar, are a sentence of the grammar of C50.", "quantifier": "all texts, all tokenizer states that are reached on them, all symbols and places", "why_tests_cant": "The language of a parser is an infinite set; tests only sample members and non-members.", "anchors": ["src/parser/tokenizer.rs: get_symbol", "src/parser/source_buffer.rs: get_char, peek_three_chars, advance", "src/parser/blocks.rs: Blocks"]}
{"id": "C56", "title": "The gap between two symbols does not matter", "statement": "If the text a g b is read up to the end of a symbol (a name, keyword, number, string or operator) that ends where g begins, and g and g' are gaps in front of b (blanks, comments, backslash continuations and, inside brackets, line ends; g' not empty, g may be), then a g' b has the same symbols up to positions and trivia, and every entry point gives the same tree up to positions and trivia, or the same error message, for both texts. The exception is a number at the very end of the text, where a following blank becomes part of a 0.", "quantifier": "all texts, all places between two symbols, all gaps, all entry points and recursion depths", "why_tests_cant": "Whitespace can be inserted at infinitely many places and in infinitely many forms; a lookahead mistake shows only for particular neighbours.", "anchors": ["src/parser/tokenizer.rs: get_symbol", "src/parser/blocks.rs: Blocks", "src/parser/statements.rs: Statements", "src/parser/expressions.rs: Expressions"]}
{"id": "C57", "title": "Different programs have different trees", "statement": "If two accepted texts (files, expressions, function types) have the same tree, then they have the same symbols, with the same positions, texts and trivia: no symbol is dropped from the tree and no order is forgotten. For trees without parameter lists of lambdas and classes and without type lists this also holds up to positions and trivia, so that (with C53) two such texts have the same tree up to layout exactly if they have the same symbols up to layout. The nodes of these lists record the places of / and * by their positions only.", "quantifier": "all pairs of accepted texts", "why_tests_cant": "Injectivity is about all pairs of texts; tests compare one text with one expected tree.", "anchors": ["src/parser/blocks.rs: parse_blocks_file_input, parse_blocks_eval_input, parse_blocks_func_type_input", "src/parser/statements.rs: Statements", "src/parser/expressions.rs: parse_expressions_var_args_list"]}
{"id": "C58", "title": "Accepted files close their blocks and brackets", "statement": "In the symbols of an accepted file, up to the end of the text, every bracket is closed by a matching one, there are as many dedents as indents, and the tokenizer is back at the left margin. A file that ends inside a bracket or inside a block (as after a blank last line, which keeps the block before it open) is rejected.", "quantifier": "all texts accepted as a file", "why_tests_cant": "The parser does not count brackets or blocks, and takes any symbol for the second colon of a slice; that this cannot break the balance follows only from an argument over all sentences of the grammar.", "anchors": ["src/parser/tokenizer.rs: get_symbol", "src/parser/blocks.rs: parse_blocks_file_input", "src/parser/statements.rs: parse_statements_suite", "src/parser/expressions.rs: parse_expressions_subscript"]}
{"id": "C59", "title": "Files can be put one after the other", "statement": "If two texts are accepted as files, the first ends with a line feed (not preceded by a carriage return) and has no NUL character, and the second starts with a symbol at the left margin, then the first text followed by the second is accepted as a file, and its symbols are those of the first and then those of the second. (Without the conditions this fails: a blank line at the start of the second keeps the last block of the first open, and the character after CR LF is lost.)", "quantifier": "all pairs of accepted files", "why_tests_cant": "The tokenizer and the parser carry state (blocks, brackets, the kind of except clauses) from one statement to the next; that none of it leaks from one file into the next is about all pairs of texts.", "anchors": ["src/parser/tokenizer.rs: get_symbol", "src/parser/blocks.rs: parse_blocks_file_input", "src/parser/statements.rs: parse_statements_try_stmt"]}
{"id": "C60", "title": "Lines without code can be put in between statements", "statement": "At the start of a line whose first symbol is neither an indentation nor the end of a block, one or more blank lines or lines with only a comment (other than a type comment) can be put in: every entry point gives the same tree up to positions and trivia, or an error with the same message. (Before a line that starts or ends a block this fails: the indentation after a line without code is ignored.)", "quantifier": "all texts, all starts of lines in them, and all lines without code", "why_tests_cant": "The tokenizer treats the start of a line, blank lines and comments in one loop with several flags; that the flags set by a line without code do not affect the line after it is about all texts.", "anchors": ["src/parser/tokenizer.rs: get_symbol"]}
{"id": "C61", "title": "Every text can be written in one layout", "statement": "Let a text be read to its end without an error of the tokenizer. Write its symbols down again with one blank between symbols, one line feed at the end of a line and one blank of indentation per open block (the canonical text). The canonical text has the same symbols, so every entry point gives the same tree up to positions and trivia, or an error with the same message; the canonical text of a canonical text is that text itself; two texts have the same canonical text exactly if they have the same symbols, and (without parameter lists, see C57) exactly if they have the same tree.", "quantifier": "all texts and all entry points", "why_tests_cant": "A formatter rests on this round trip for all programs: no symbol may change its meaning when the layout around it changes, for every kind of symbol, every nesting of blocks and brackets and every way to end a text.", "anchors": ["src/parser/tokenizer.rs: get_symbol", "src/parser/parser.rs: PythonCoreParser"]}
{"id": "C62", "title": "The statements of two files put one after the other are the statements of both, in order", "statement": "Let two texts be accepted as files, the first ending with a line feed (not after a carriage return) and without a NUL character, the second starting with a symbol at the left margin. Then the first text followed by the second is accepted, and the statements in its tree are the statements of the first tree followed by those of the second, up to positions and trivia. So the last statement of the first file is not changed by what follows, and nothing left over from the first file changes the reading of the second.", "quantifier": "all pairs of texts accepted as files that meet the conditions on their ends", "why_tests_cant": "Tools that put generated code, headers or notebook cells together rely on this for every pair of files: every kind of compound statement can stand at the end of the first, where the parser looks for elif, else, except or finally, and state left over from the first file (open blocks, the status of except clauses) could change the reading of the second.", "anchors": ["src/parser/blocks.rs: parse_blocks_file_input", "src/parser/parser.rs: Parser", "src/parser/tokenizer.rs: get_symbol"]}
{"id": "C63", "title": "The tree determines the text", "statement": "If two texts that contain no carriage return followed by a line feed and no NUL character and do not end with the digit 0 are given the same tree, with its positions and trivia, as an expression, a file or a function type, then the texts are the same, apart from exactly three things: which blank characters (space or tab) stand at the start of a line, which character (line feed or carriage return) ends a line, and <> written for !=. These three differences do occur, and without the conditions on the texts more is lost.", "quantifier": "all pairs of texts accepted with the same tree, for the three entry points that read the whole text", "why_tests_cant": "A tool that edits a program through its tree must be able to write all of the text back. A test can compare some texts; that no two different texts share a tree is a statement about all pairs.", "anchors": ["src/parser/tokenizer.rs: get_symbol", "src/parser/blocks.rs: Blocks", "src/parser/nodes.rs: ASTNode", "src/parser/trivias.rs: Trivia"]}
{"id": "C64", "title": "An edit in one place leaves the other statements alone", "statement": "Let a file be put together from pieces, each of which is accepted as a file on its own, starts with a symbol at the left margin, ends with a line feed that does not follow a carriage return, and contains no NUL character. Then the file is accepted, and its statements are those of the pieces, in order, apart from positions and trivia. So if some lines in the middle of a file are replaced by others, the statements before and after them keep their trees.", "quantifier": "all lists of pieces of any number and length; all texts before, inside and after the edit", "why_tests_cant": "Incremental tools parse again only the lines that changed. A test edits one file in one place; that no earlier or later statement can be influenced by an edit is a statement about all texts around it.", "anchors": ["src/parser/tokenizer.rs: get_symbol", "src/parser/blocks.rs: parse_blocks_file_input"]}
{"id": "C65", "title": "A file is accepted if and only if its parts are", "statement": "Let a be a text that ends with a line feed (not after a carriage return), has no NUL character, is read by the tokenizer without an error and closes all its brackets and blocks, and let b start at the left margin with a symbol other than elif, else, except and finally. Then a followed by b is accepted as a file if and only if a and b are both accepted as files, and the statements of the whole are those of a and then those of b. The exception for elif, else, except and finally is needed.", "quantifier": "all pairs of texts that meet the conditions, of any length", "why_tests_cant": "A file can be checked part by part only if no part can repair or spoil another. A test joins some parts; that rejection of one part always means rejection of the whole is a statement about all parts.", "anchors": ["src/parser/tokenizer.rs: get_symbol", "src/parser/blocks.rs: parse_blocks_file_input"]}
{"id": "C66", "title": "One parser can be called again and again", "statement": "Repeated calls for interactive input on one parser return the lines of the text one after the other: the symbols of the first tree, of the second tree and so on are the symbols of the text, with none left out. What a call returns depends only on the state of the tokenizer, not on what the parser was used for before. After a whole file was read, reading again gives a file without statements.", "quantifier": "all texts, all numbers of calls, all states of the parser", "why_tests_cant": "An interactive loop keeps one parser for a whole session. A test makes one call on a new parser; that no symbol is lost between two calls, and that nothing is carried over from an earlier call, are statements about all histories of calls.", "anchors": ["src/parser/blocks.rs: parse_blocks_single_input, parse_blocks_file_input, parse_blocks_eval_input, parse_blocks_func_type_input", "src/parser/parser.rs: PythonCoreParser", "src/parser/tokenizer.rs: get_symbol"]}
{"id": "C67", "title": "The tree is not larger than the text allows", "statement": "The tree that a parse returns has at most eight parts (nodes, tokens, empty options and lists all count) for each symbol in it, and eight more. The tree of a text of n characters has at most 16 n + 8 parts. So the memory that a tree needs is linear in the length of the text.", "quantifier": "all texts, all entry points; for the bound per symbol all parse functions and all states", "why_tests_cant": "Memory is planned for by the size of the input. A test looks at the tree of one text; that no nesting or combination of constructs makes the tree grow faster than the text is a statement about all of them.", "anchors": ["src/parser/nodes.rs: ASTNode", "src/parser/expressions.rs: Expressions", "src/parser/statements.rs: Statements", "src/parser/blocks.rs: Blocks"]}
{"id": "C68", "title": "A number can be replaced by an expression in brackets", "statement": "If a text is accepted, and one of its numbers does not directly follow a symbol that ends an expression or the word `with`, then the text in which that number is replaced by any accepted expression in (), [] or {} is accepted too, whatever the construct the number stands in, provided the expression does not end with a comma. The three exceptions are needed: for each there is an accepted text that is rejected after the replacement.", "quantifier": "all texts and expressions, all numbers in them, all entry points, the three kinds of brackets", "why_tests_cant": "Programs that generate or rewrite Python code rely on brackets making any expression an operand. A test can try one expression at one place; the places and the expressions are both unbounded.", "anchors": ["src/parser/expressions.rs: parse_expressions_atom", "src/parser/expressions.rs: parse_expressions_expr", "src/parser/statements.rs: Statements", "src/parser/blocks.rs: Blocks"]}
{"id": "C69", "title": "A name can be renamed without changing anything else", "statement": "If a name in a text is replaced by another name, every entry point ends in the same way as before, and if it returns a tree, the tree is the same up to positions and layout and without telling the old and the new name apart; the symbols are the same except for the text of this one name. In particular acceptance does not depend on the name. Exceptions: the new name is a string prefix such as `r` and a quote follows directly, the name directly follows a number, or one of the two names is `match`. For each exception there is a text where renaming changes the outcome.", "quantifier": "all texts, all names in them, all new names, all entry points, all amounts of fuel", "why_tests_cant": "Rename refactorings rely on this. A test can rename one name in one text; texts, places and names are unbounded, and the tokenizer decides character by character where a name ends and whether it is a keyword or a prefix.", "anchors": ["src/parser/tokenizer.rs: get_symbol", "src/parser/expressions.rs: parse_expressions_atom"]}
{"id": "C70", "title": "In a text a number can be replaced by an expression in parentheses", "statement": "If a text is accepted, and one of its numbers does not directly follow a symbol that ends an expression or the word `with`, then the text in which the characters of that number are replaced by `(`, the characters of any accepted expression, a line feed and `)` is accepted too. The expression may end with a comment, may contain line ends inside its own brackets and may be preceded by blank or comment lines; it does not end with a comma or a carriage return and contains no NUL. The symbols of the new text are those of the expression inside the two parentheses, with all other symbols as before.", "quantifier": "all texts, all numbers in them, all expressions, all entry points", "why_tests_cant": "Code generators paste expressions into templates as text. Whether the pasted characters stay separate symbols, and whether line ends inside them are ignored, depends on all characters of both texts.", "anchors": ["src/parser/tokenizer.rs: get_symbol", "src/parser/expressions.rs: parse_expressions_atom", "src/parser/expressions.rs: parse_expressions_expr"]}
{"id": "C71", "title": "Text that was not read does not matter", "statement": "Let a parse function stop, with a tree or with an error, when the tokenizer has consumed s characters. On every text that has the same first s + 3 characters the same parse function ends with the same tree, or the same error message at the same place. In particular the text after the accepted part of an interactive input is irrelevant, and an error found at least three characters before the end of a text cannot be repaired by adding text.", "quantifier": "all pairs of texts, all parse functions, all outcomes", "why_tests_cant": "It compares all continuations of a text. A tokenizer that looks further ahead, for example for the end of a line or for a closing quote, behaves the same on most examples.", "anchors": ["src/parser/tokenizer.rs: get_symbol", "src/parser/source_buffer.rs: peek_three_chars", "src/parser/expressions.rs: parse_expressions_expr", "src/parser/blocks.rs: parse_blocks_single_input"]}
{"id": "C72", "title": "The body of a block can be replaced by the statements of a file", "statement": "Take a text with a block whose body is a text F moved k columns to the right, where F and another text G are accepted as files, start with a symbol at the left margin, end with the line end of a line that has code, and contain no try. The whole text is accepted as a file with the body F if and only if it is accepted with the body G, also moved k columns to the right. In particular a block with pass as its body can have the statements of any such file instead. (With a try in the body, a blank last line, or tabs at columns that are no multiples of 4 this is false of this parser; each is shown by an example.)", "quantifier": "all texts before and after the block, all pairs of bodies, all columns", "why_tests_cant": "It speaks of every statement in every block of every program, at every column. A block that is closed one Dedent early, or a statement that is not accepted inside a block, is missed by every example that does not have that nesting.", "anchors": ["src/parser/tokenizer.rs: get_symbol", "src/parser/statements.rs: parse_statements_suite", "src/parser/blocks.rs: parse_blocks_func_body_suite", "src/parser/statements.rs: parse_statements_stmt"]}
{"id": "C73", "title": "The entry points agree on the same text", "statement": "If a text is accepted as an expression and its line has an end, then it is accepted as a file and as interactive input, and both trees hold one statement: the expression, with the same tree, positions and symbols (a list of expressions without brackets is stored under another name, last element first). Without the end of the line the file and the interactive input are rejected, with an error at the start of the expression. If a file is accepted and its first statement is a simple one, the same text is accepted as interactive input and gives that statement, with the same tree. (If the expression starts with the name match, the parser panics instead; this is shown, too.)", "quantifier": "all texts that are accepted as an expression; all texts that are accepted as a file", "why_tests_cant": "The rules for expressions by themselves and for expression statements are two separate pieces of code (testlist and testlist_star_expr) with their own loops and their own lists of symbols that may follow a comma. That they agree has to hold for every expression.", "anchors": ["src/parser/blocks.rs: parse_blocks_eval_input", "src/parser/blocks.rs: parse_blocks_file_input", "src/parser/blocks.rs: parse_blocks_single_input", "src/parser/expressions.rs: parse_expressions_testlist", "src/parser/expressions.rs: parse_expressions_testlist_star_expr", "src/parser/statements.rs: parse_statements_expr_stmt"]}
{"id": "C74", "title": "A number that is replaced by an expression is replaced in the tree, and nothing else is", "statement": "Take an accepted text with a number in it that does not follow the end of an expression or the word with, and an expression that, in parentheses, is read as a whole. If the number is replaced by the expression in parentheses, the new text is accepted, and its tree is, up to positions and trivia, the tree of the old text with the tree of the expression in parentheses in the place of the leaf of that number. No other part of the tree changes, however deeply the number is nested and whatever is around it, and equal numbers elsewhere stay as they are.", "quantifier": "all texts, all entry points, all numbers in them, all expressions", "why_tests_cant": "It compares the trees of all programs before and after all replacements at all places. A function that looks at the kind of symbol an operand starts with, binds operators differently after a parenthesis, or stores a child in another place for some operands passes every example that does not have that operand at that place.", "anchors": ["src/parser/expressions.rs: parse_expressions_atom", "src/parser/expressions.rs: parse_expressions_atom_expr", "src/parser/statements.rs: parse_statements_expr_stmt", "src/parser/blocks.rs: parse_blocks_file_input", "src/parser/tokenizer.rs: get_symbol"]}
{"id": "C75", "title": "An expression is read in the same way wherever it is", "statement": "What a parse function for expressions returns is decided by the kinds and the texts of the symbols it consumes and of the one symbol after them. Wherever a parser, of any text and in any state, sees these symbols, the function succeeds, returns the same tree up to positions and trivia, and has consumed the same number of symbols. If only the kinds are the same, the tree has the same form.", "quantifier": "all parse functions for expressions, all reachable states of a parser in which they succeed, all states of all parsers that see the same symbols", "why_tests_cant": "It rules out every dependence on what was read before, on the nesting of statements, on the except status and on more than one symbol of look-ahead; a test fixes one context.", "anchors": ["src/parser/expressions.rs: parse_expressions_test", "src/parser/expressions.rs: parse_expressions_named_expression", "src/parser/expressions.rs: parse_expressions_testlist_star_expr", "src/parser/expressions.rs: parse_expressions_var_args_list"]}
{"id": "C76", "title": "The messages of syntax errors are true", "statement": "When a parse function fails, it stops at a symbol. If the message says that symbols of some kind were expected, the symbol at which the parser stopped is none of them; if it says that a symbol must not be there, the symbol is there; if it is the message for a missing symbol, the next symbol could not be read.", "quantifier": "all parse functions, all states of a parser in which they fail, all messages", "why_tests_cant": "There are over 170 messages, and each can be reached through many functions and inputs; a test looks at one message for one input, and most tests only check that there is an error. A copied message or a swapped branch is found only by relating the text of the message to the symbol for every way to reach it.", "anchors": ["src/parser/expressions.rs: parse_expressions_atom", "src/parser/statements.rs: parse_statements_except_stmt", "src/parser/blocks.rs: parse_blocks_func_type_input", "src/parser/functions.rs: parse_functions_func_type"]}
{"id": "C77", "title": "A statement is read in the same way wherever it is", "statement": "What a parse function for statements returns, for simple statements, compound statements, blocks, functions and classes, is decided by the kinds and the texts of the symbols it consumes and of the one symbol after them. Wherever a parser, of any text and in any state, sees these symbols, the function succeeds, returns the same tree up to positions and trivia, and consumes the same symbols. This includes statements with try: what was read in try statements before does not matter. Only an except clause on its own also depends on the clauses before it in the same parser.", "quantifier": "all parse functions for statements, all reachable states of a parser in which they succeed, all states of all parsers that see the same symbols", "why_tests_cant": "The parser keeps a status about except clauses between calls; that it never leaks into another statement, and that nothing else of the past is used, holds for all pairs of contexts or not at all. A test fixes one context.", "anchors": ["src/parser/statements.rs: parse_statements_stmt", "src/parser/statements.rs: parse_statements_try_stmt", "src/parser/statements.rs: parse_statements_except_clause", "src/parser/statements.rs: parse_statements_suite", "src/parser/blocks.rs: parse_blocks_func_def", "src/parser/blocks.rs: parse_blocks_class_def"]}
{"id": "C78", "title": "When the body of a block is replaced, only that body changes in the tree", "statement": "Take a text that is accepted as a file and a block in it whose body is, taken by itself, a file without try. Put in the place of that body the statements of another file without try, so that the symbols of the new text are the symbols of the old one with those of the body exchanged. Then the new text is accepted, and its tree is the tree of the old text in which that one block has the statements of the new body, in the same stored order as in the tree of a file. Every other node, field and token is the same, apart from positions and trivia. In particular this holds when the new text is made by moving the lines of the new body to the right by the column of the block and putting them in the place of the old lines, if no string in the bodies goes over the end of a line (moving would change it).", "quantifier": "all texts accepted as files, all blocks in them at any depth (of if, while, for, with, class, def and the other compound statements), all bodies that are files without try, all texts with the resulting symbols", "why_tests_cant": "An editor that replaces a body relies on the rest of the tree being untouched wherever the block is and whatever is in it. The claim is about all pairs of texts and all depths; a test compares two trees.", "anchors": ["src/parser/statements.rs: parse_statements_suite", "src/parser/blocks.rs: parse_blocks_func_body_suite", "src/parser/statements.rs: parse_statements_stmt", "src/parser/blocks.rs: parse_blocks_file_input", "src/parser/tokenizer.rs: get_symbol"]}
{"id": "C79", "title": "A syntax error is found at the first symbol that makes the text wrong", "statement": "When parsing a file, an expression, a line or a function type ends with an error, the symbols that the parser has taken before the one at which it stopped are the beginning of a sentence of the grammar of the parser: what was read so far could still have been completed, and only the symbol at which the parser stopped makes the text wrong. (That nothing after it can repair the error is C71.) There are three places where the parser goes on too far: it takes the right brace of {}, it takes the star of an except* clause after an except clause of the same try statement, and it reads a decorator up to its end or to the first mistake in it, although no sentence has a decorator.", "quantifier": "all texts, all four entry points, all errors, whatever was read before", "why_tests_cant": "An editor that underlines the place of the error, and an interactive reader that asks for more input, rely on the parser neither stopping late nor at a place where the text was already wrong. The claim is about the existence of a completion for each prefix of each wrong text; a test compares one error position.", "anchors": ["src/parser/blocks.rs: parse_blocks_file_input", "src/parser/blocks.rs: parse_blocks_eval_input", "src/parser/expressions.rs: parse_expressions_atom", "src/parser/statements.rs: parse_statements_stmt", "src/parser/statements.rs: parse_statements_except_clause", "src/parser/blocks.rs: parse_blocks_decorated"]}
{"id": "C80", "title": "The parser looks one symbol ahead, and not further", "statement": "The outcome of parsing a file, an expression, a line or a function type is determined by the symbols up to and including the one at which the parser stops. If two texts have the same symbols (kind and text) up to there, the outcome is the same for both: the same tree up to positions, with the parser at the same symbol, or the same error message, whatever the layout of the texts is and whatever follows, even if it is no symbol at all. For the form of the tree, and for the error message, it is enough that the symbols have the same kinds. In particular an error is final: no text with the same kinds of symbols up to the one at which the parser stopped is accepted.", "quantifier": "all texts, all pairs of texts with the same first symbols, all four entry points and every parse function in every state of the parser, all outcomes", "why_tests_cant": "An editor that parses again after a change behind the current place, and everyone who feeds a text piece by piece, rely on it. It compares every text with every other text that starts with the same symbols; a hidden look ahead would show only on texts with a special continuation.", "anchors": ["src/parser/blocks.rs: parse_blocks_file_input", "src/parser/blocks.rs: parse_blocks_eval_input", "src/parser/parser.rs: advance", "src/parser/tokenizer.rs: get_symbol", "src/parser/expressions.rs: parse_expressions_atom", "src/parser/statements.rs: parse_statements_stmt"]}
{"id": "C81", "title": "A program can be put together from pieces, in any order", "statement": "Take any number of texts, each of which is accepted as a file when a line end is put behind it, starts with a symbol at the left margin, has no NUL character and does not end with a carriage return. Written one after the other, each with a line end behind it, they are accepted as one file, and its statements are those of the pieces in order, apart from positions and trivia. So the pieces can be put in another order, with the same statements in another order, and pieces can be left out or repeated. A wrong piece spoils the program wherever it is: if the pieces close their brackets and blocks and none starts with elif, else, except or finally, the program is accepted only if every piece is.", "quantifier": "all lists of pieces of any length, all permutations and sublists of them", "why_tests_cant": "Tools that generate, reorder, split or merge programs rely on it; it is a claim about lists of unbounded length and all their permutations, and a state that survives from one statement to the next (as the kind of the last except clause does) would break it only for some orders.", "anchors": ["src/parser/blocks.rs: parse_blocks_file_input", "src/parser/statements.rs: parse_statements_stmt", "src/parser/tokenizer.rs: get_symbol"]}
{"id": "C82", "title": "A syntax error is reported at the same symbol, however the text is laid out", "statement": "If two texts have tokens of the same kinds (and the name match at the same places), and parsing the first as a file, an expression, a line or a function type ends with a syntax error, then parsing the second ends with the same message, and the two errors point at the same token: the position in the first error is where the i-th token of the first text starts, and the position in the second error is where the i-th token of the second text starts. So blanks, comments, line ends inside brackets, continuation lines, the width of the indentation and the choice of names, numbers and strings move the reported place only as far as they move the token. The same holds for every parse function in every state of the parser. If the same wrong text stands k characters further on (behind another text that closes its brackets and blocks), the construct that is parsed there fails with the same message, at a position that is larger by exactly k.", "quantifier": "all pairs of texts with tokens of the same kinds, all four entry points, every parse function in every pair of reachable states that see the same kinds of symbols, all errors", "why_tests_cant": "Reformatting a wrong program must not send its author to another place. It relates every wrong text to every other layout of it, through every place where one of about a hundred functions raises an error; a test compares one position with one expected number.", "anchors": ["src/parser/parser.rs: advance", "src/parser/tokenizer.rs: get_symbol, get_position", "src/parser/expressions.rs: parse_expressions_atom", "src/parser/statements.rs: parse_statements_stmt", "src/parser/blocks.rs: parse_blocks_file_input"]}
{"id": "C83", "title": "The tree of a text further on is the same tree, moved", "statement": "If two parsers have the same text ahead, with the same open brackets and blocks, and the second one is k characters further on in its text, then every parse function does the same for both (the two for except clauses if also the kind of except clause read before is the same; for all others whatever was read before makes no difference): it returns the same tree with k added to every position in it (of nodes, tokens, comments and blanks) and nothing else changed, and leaves the parsers k characters apart; or it fails with the same message at a position larger by k; or it panics or does not end in both. In particular a statement that stands behind a text which has closed its brackets and blocks has the tree it has on its own, moved by the length of that text; and so has a whole text that is parsed by one of the four entry points in a session that has read other lines before.", "quantifier": "all pairs of texts and of reachable parser states with the same text ahead, all distances, every parse function, all outcomes", "why_tests_cant": "Incremental parsing and caching of trees rely on it: a tree can be kept and its positions adjusted when text is inserted before it. It compares every text with itself behind every other text, in every field of the tree; a position that is taken from the wrong place shows only at distances and nestings a test does not have.", "anchors": ["src/parser/parser.rs: advance", "src/parser/tokenizer.rs: get_symbol, get_position", "src/parser/statements.rs: parse_statements_stmt", "src/parser/expressions.rs: parse_expressions_atom"]}
