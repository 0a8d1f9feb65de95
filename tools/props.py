# Writes ../properties.jsonl.  Kept in the repository so that the list is easy to review.
import json, os
P = []
def p(id, title, statement, quantifier, why, anchors):
    P.append(dict(id=id, title=title, statement=statement, quantifier=quantifier,
                  why_tests_cant=why, anchors=anchors))
T = "src/parser/tokenizer.rs"; E = "src/parser/expressions.rs"; S = "src/parser/statements.rs"
B = "src/parser/blocks.rs"; F = "src/parser/functions.rs"; SB = "src/parser/source_buffer.rs"; PA = "src/parser/parser.rs"

p("C01", "get_symbol always returns",
  "Every call of Tokenizer::get_symbol terminates and returns either a token or an error string; none of its loops (indentation scan, blank/comment skipping, names, numbers, strings) can run forever and it never panics.",
  "every source text and every tokenizer state reachable from new() by any number of get_symbol calls",
  "A non-terminating loop depends on an unbounded input; tests only show that the sampled inputs terminate.",
  [T+": PythonCoreTokenizer, new, get_symbol, handle_string", SB+": SourceBuffer"])
p("C02", "The token stream ends after a bounded number of calls",
  "Calling get_symbol repeatedly yields EOF or an error after at most 2*len+2 calls (len = number of characters), however the text mixes indentation, blank lines and brackets: a client loop `until EOF or Err` always stops.",
  "every source text",
  "Needs a global progress measure over a whole run, including zero-width Indent/Dedent tokens.",
  [T+": get_symbol"])
p("C03", "EOF is sticky",
  "Once get_symbol has returned EOF, every later call returns EOF again at the same position, without trivia, and the tokenizer position does not change.",
  "every source text, every history of calls that ended in EOF, and every number of further calls",
  "Quantifies over all histories before and after the first EOF.",
  [T+": get_symbol"])
p("C04", "Positions stay in range and do not overflow",
  "The read position never moves more than one past the end of the source, the measured column is at most four times the source length, and the indentation stack is at most as deep as the source is long; so on sources shorter than 2^30 characters no u32/i32 counter of the tokenizer overflows.",
  "every source text and every history of get_symbol calls",
  "Overflow needs inputs far larger than any test.",
  [T+": get_symbol", SB+": SourceBuffer, advance"])
p("C05", "Token spans are ordered and do not overlap",
  "Every positioned token has start < end (EOF has one position), its span starts at get_position(), and it starts at or after the end of every token returned earlier; get_position() never decreases.",
  "every source text, every pair of tokens in the stream",
  "Relates every pair of tokens of every stream.",
  [T+": get_symbol, get_position"])
p("C06", "Names and keywords are read maximally and exactly",
  "A word token covers a maximal run of identifier characters; it is a keyword token exactly when the run is one of the 35 Python keywords (and then the right one), a string prefix only when a quote follows one of the 14 prefixes, and otherwise a name whose text is exactly that run of the source.",
  "every source text and reachable tokenizer state whose next token starts with a letter or underscore",
  "Ranges over every identifier, including every near-keyword, and everything that may follow it.",
  [T+": get_symbol 539-648"])
p("C07", "Operators use longest match",
  "When the next token starts with an operator character, the token returned is the one whose spelling is the longest operator spelling that is a prefix of the rest of the source, and exactly those characters are consumed.",
  "every source text and reachable tokenizer state positioned on an operator or delimiter",
  "Depends on the order of about fifty match arms and on arbitrary following text.",
  [T+": get_symbol 268-538"])
p("C08", "Brackets are matched by the tokenizer",
  "The bracket tokens returned before the first error always form a prefix of a properly nested sequence: a closing bracket token is only ever returned when it matches the innermost open bracket, and an unmatched or mismatched closing bracket is always reported as an error.",
  "every source text and every prefix of its token stream",
  "An invariant over whole histories of unbounded nesting depth.",
  [T+": get_symbol 479-538"])
p("C09", "No layout tokens inside brackets",
  "While at least one bracket is open no Newline, Indent or Dedent token is returned; line ends inside brackets become trivia.",
  "every source text and every point of its token stream",
  "Invariant over all nesting histories.",
  [T+": get_symbol 89-104, 183-236"])
p("C10", "Indent and Dedent are balanced",
  "In every prefix of the token stream the number of Dedent tokens never exceeds the number of Indent tokens, and the difference equals the number of currently open indentation levels minus those still waiting to be reported; the open levels are strictly increasing columns above column 0.",
  "every source text and every prefix of its token stream",
  "Global counting invariant over unbounded nesting.",
  [T+": get_symbol 47-120"])
p("C11", "Every line's indentation is reported",
  "At the first token of a logical line outside brackets, the indentation of that line has been compared with the enclosing block: deeper yields an Indent, shallower yields the Dedents closing every deeper block. Blank and comment lines before it make no difference.",
  "every source text and every logical line in it",
  "Interacts with arbitrary runs of blank and comment lines; expected to FAIL after a blank line (the blank-line flag is never reset).",
  [T+": get_symbol 45-107"])
p("C12", "Inconsistent dedents are rejected",
  "A line whose column is not one of the enclosing block columns and is smaller than the innermost is reported as an indentation error.",
  "every source text",
  "Needs all column combinations; expected to FAIL (the error branch is unreachable).",
  [T+": get_symbol 95-103"])
p("C13", "String literals are read exactly",
  "A string token's text is the source from the opening quote to the first matching closing quote (three quotes for triple quoted), a single-quoted literal never spans a line end, an unterminated literal is an error, and the prefix plus the text is exactly the source slice of the token's span.",
  "every source text and reachable state positioned on a string literal",
  "Ranges over every content and every run of quotes.",
  [T+": handle_string, get_symbol 616-644, 983-995"])
p("C14", "Numbers are read exactly",
  "A number token's text is exactly the source slice of its span, follows Python's numeric literal shape (underscores only between digits, optional fraction, exponent and j), and is maximal; a character that cannot belong to a number is never consumed by it.",
  "every source text and reachable state positioned on a digit or on '.' followed by a digit",
  "Numbers are unbounded; expected to FAIL for literals starting with 0 (next character is always swallowed) so only literals starting with 1-9 or '.' and the 0x/0o/0b forms can be proved.",
  [T+": get_symbol 649-982"])
p("C15", "Skipped text is recorded as trivia",
  "Everything the tokenizer skips between two tokens is recorded in the trivia of the second one: the trivia spans, in order, tile the gap between the end of the previous token and the start of the next.",
  "every source text and every pair of consecutive tokens",
  "Relates all tokens, trivia and characters; expected to FAIL for leading indentation, so it is proved for tokens that do not follow a line start.",
  [T+": get_symbol 122-259", "src/parser/trivias.rs: Trivia"])
p("C16", "CRLF line ends behave like LF line ends",
  "Replacing every \\n line end by \\r\\n leaves the sequence of token kinds and texts unchanged.",
  "every source text",
  "Quantifies over all texts; expected to FAIL (\\r\\n consumes one character too many).",
  [T+": get_symbol 184-200"])
p("C17", "No source character is lost",
  "Concatenating token texts and trivia in order reproduces the source: every character belongs to exactly one token or trivia span.",
  "every source text",
  "Global tiling property; expected to FAIL for indentation.",
  [T+": get_symbol"])
p("C18", "Lexical errors are reported where they occur",
  "If the next character cannot start any token (for example $, ?, a lone !) get_symbol returns an error naming that position and character, consumes nothing of it, and every later call reports the same error: the tokenizer never skips bad input.",
  "every source text, every reachable state positioned on such a character, every number of later calls",
  "Ranges over all characters of Unicode and all later histories.",
  [T+": get_symbol 996-999"])
p("C19", "Space separated lexemes are read back",
  "If a text consists of names, keywords and operators written one after another with single spaces between them, the tokenizer returns exactly these lexemes in order, then EOF.",
  "every finite sequence of such lexemes",
  "Unbounded sequences; a round-trip law.",
  [T+": get_symbol"])
p("C20", "Line continuations join lines",
  "A backslash immediately followed by a line end is trivia and never produces a Newline token; a backslash followed by anything else is an error.",
  "every source text and reachable state positioned on a backslash outside strings and comments",
  "All following texts.",
  [T+": get_symbol 239-259"])
p("C21", "Comments do not change tokens, type comments are kept",
  "A comment runs to the line end (or end of source) and its text is the exact source slice; it becomes a TypeComment token exactly when it starts with '# type:' and otherwise trivia.",
  "every source text and reachable state positioned on '#'",
  "All comment texts.",
  [T+": get_symbol 149-170"])
p("C22", "A successful file parse used the whole input",
  "If parse_blocks_eval_input or parse_blocks_file_input succeeds, the tokenizer has delivered every token up to EOF without a lexical error, the parser consumed all of them, and the EOF token is in the tree; no suffix of the source is silently ignored.",
  "every source text",
  "Quantifies over every accepted source.",
  [B+": parse_blocks_eval_input, parse_blocks_file_input"])
p("C23", "Accepted token sequences are in the grammar",
  "Whenever a parse_* function succeeds, the sequence of tokens it consumed is a sentence of that rule in a declarative grammar (written independently as EBNF).",
  "every source text, every parser state, every parse function",
  "All inputs, unbounded nesting; mutual induction over about ninety functions.",
  [E+": Expressions", S+": Statements", B+": Blocks", F+": Functions"])
p("C24", "The tree contains exactly the consumed tokens",
  "The tokens stored in the tree returned by a successful parse are exactly the tokens consumed, each once: none is dropped, duplicated or invented.",
  "every source text, every parser state, every parse function",
  "All trees of unbounded size.",
  [E+": Expressions", S+": Statements", B+": Blocks", F+": Functions", "src/parser/nodes.rs: ASTNode"])
p("C25", "Node spans are right and nest",
  "Every node starts at the position of its first token and ends at the position of the first token after it; the span of a child lies inside the span of its parent.",
  "every source text, every node of every tree returned",
  "All nodes of all trees.",
  [E+": Expressions", S+": Statements", B+": Blocks"])
p("C26", "Operator precedence",
  "In every expression tree an operand of an operator node is never a node of a looser operator, unless it is bracketed: the nesting follows Python's precedence table (lambda/if-else, or, and, not, comparisons, |, ^, &, shifts, + -, * / // % @, unary, **, await/trailers, atoms).",
  "every source text whose expression is accepted",
  "All operator combinations at unbounded depth.",
  [E+": parse_expressions_test .. parse_expressions_atom"])
p("C27", "Associativity",
  "Binary operators of the same level nest to the left (a-b-c is (a-b)-c), ** and if-else nest to the right.",
  "every accepted expression, chains of any length",
  "Chains of unbounded length.",
  [E+": parse_expressions_term, parse_expressions_arith, parse_expressions_shift, parse_expressions_and_expr, parse_expressions_xor_expr, parse_expressions_expr, parse_expressions_comparison, parse_expressions_and_test, parse_expressions_or_test, parse_expressions_power, parse_expressions_test"])
p("C28", "Every well formed operator expression is accepted",
  "Every token sequence that is the standard written form of an expression built from names, numbers, strings (also adjacent ones), constants, tuples, lists, sets, dicts of one or two entries, attribute access, calls, subscripts and slices, await, unary and binary operators, comparisons, boolean operators, conditional expressions, lambdas without parameters and := is accepted, and the tree returned is that expression.",
  "every expression of any size, and any token after it that cannot continue it",
  "Completeness for unbounded expressions.",
  [E+": parse_expressions_test .. parse_expressions_atom"])
p("C29", "Unparsing an expression and parsing it again gives the same tree",
  "Writing an operator expression as characters and running tokenizer and parser (eval input) on it yields exactly the tree of that expression.",
  "every such expression of any size",
  "End to end round trip over unbounded inputs.",
  [B+": parse_blocks_eval_input", T+": get_symbol", E+": parse_expressions_test"])
p("C30", "Parsing terminates",
  "Every parse_* function terminates on every source.",
  "every source text and parser state",
  "Termination cannot be tested; expected to FAIL for a statement starting with `import` (the function calls itself without consuming anything); proved for every source in which no `import` token is reached.",
  [S+": parse_statements_import_stmt", E+": Expressions", B+": Blocks"])
p("C31", "Parsing never panics",
  "No parse_* function panics: every malformed source is reported as Err.",
  "every source text and parser state",
  "All inputs; expected to FAIL for a statement starting with the name `match` (todo!()); proved otherwise.",
  ["src/parser/patterns.rs: parse_patterns_match", S+": parse_statements_stmt", B+": Blocks"])
p("C32", "Lexical errors fail the parse",
  "If the tokenizer reports an error before EOF, parsing the file or an expression that reaches that point returns Err and never a tree.",
  "every source text whose token stream contains an error",
  "All error positions and parser contexts, including loops that treat an error as end of list.",
  [E+": parse_expressions_atom, parse_expressions_atom_expr", B+": parse_blocks_file_input"])
p("C33", "for loops and comprehensions are accepted",
  "`for x in y: ...` and `[a for x in y]` are accepted.",
  "every name x, every expression y, every body",
  "Expected to FAIL: the target is parsed with a rule that already consumes `in`; the theorem says the rule rejects every single-target loop.",
  [S+": parse_statements_for_stmt", E+": parse_expressions_sync_comp_for, parse_expressions_exprlist"])
p("C34", "Dictionary and set displays are accepted",
  "Dict and set displays of any number of entries are accepted.",
  "every number of entries, every entry",
  "Expected to FAIL for the empty display and for more than two dict entries.",
  [E+": parse_expressions_dictorset_maker, parse_expressions_atom"])
p("C35", "Slices are accepted",
  "a[i:j] and a[i:j:k] are accepted and produce a Subscript node with the given bounds.",
  "every bounds expression",
  "Expected to FAIL: after the first ':' a second token is always consumed as if it were ':'.",
  [E+": parse_expressions_subscript"])
p("C36", "Function definitions with parameters are accepted",
  "`def f(a, b): body` is accepted.",
  "every parameter list and body",
  "Expected to FAIL: the parameter list rule consumes nothing, so only an empty list is ever accepted.",
  [B+": parse_blocks_parameters, parse_blocks_func_def", B+": parse_blocks_typed_args_list"])
p("C37", "Decorated and async functions are accepted",
  "A decorated class or function and `async def` are accepted.",
  "every decorator list and definition",
  "Expected to FAIL for all inputs: the decorator rule leaves the Newline unread and async def calls the class rule.",
  [B+": parse_blocks_decorated, parse_blocks_async_func_def", S+": parse_statements_async_stmt"])
p("C38", "except and except* are never mixed in one try statement",
  "A try statement that is accepted uses only `except` or only `except*` clauses, and a try statement that uses only one kind is not rejected for mixing.",
  "every try statement, with arbitrary nested statements in its blocks",
  "Nesting of unbounded depth; expected to FAIL because the status is one global flag that nested try statements reset.",
  [S+": parse_statements_try_stmt, parse_statements_except_clause", PA+": ET, except_status"])
p("C39", "List fields keep all elements in a fixed order",
  "Comma separated lists in the tree hold all elements and all separators; the stored order is source order for exprlist/testlist and reversed source order for the others, and there is one separator between neighbours.",
  "every accepted list of any length",
  "Unbounded lists.",
  [E+": parse_expressions_testlist_comp, parse_expressions_subscript_list, parse_expressions_exprlist, parse_expressions_testlist, parse_expressions_arglist", S+": Statements", B+": Blocks"])
p("C40", "A parse only depends on the tokens it reads",
  "The result of a parse function is determined by the tokens it consumes plus one lookahead token: what comes later in the source can neither change the tree nor turn success into failure.",
  "every pair of parser states whose token streams agree on the consumed tokens and the lookahead",
  "A two-run (relational) property.",
  [PA+": PythonCoreParser, advance", E+": Expressions"])
p("C41", "Blocks need indentation and are closed by a dedent",
  "A suite that does not start on the same line is accepted only as Newline, Indent, one or more statements, Dedent; every accepted simple statement ends with a Newline token.",
  "every accepted program, any nesting of blocks",
  "All programs.",
  [S+": parse_statements_suite, parse_statements_simple_stmt"])
p("C42", "Tokens depend only on the text that follows",
  "Kind and text of the next token depend only on the remaining characters (plus bracket/indentation state), not on the absolute position: shifting a text shifts all spans and changes nothing else.",
  "every source text, every prefix put in front of it",
  "Relational property over all texts.",
  [T+": get_symbol"])
p("C43", "Interactive input stops after one statement",
  "single_input reads exactly one simple statement line, one compound statement with the Newline after it, or an empty line, and consumes nothing after it.",
  "every source text",
  "Expected to FAIL for compound statements: the block's Dedent hides the Newline that the rule asks for.",
  [B+": parse_blocks_single_input"])
p("C44", "Trees are well typed",
  "Every node of a returned tree has the number and kinds of fields that its variant promises: operator fields hold that operator's token, optional fields are present together, sub-trees are of the variants that the grammar allows there, and each parse function returns only its own variants.",
  "every source text, every parse function, every node of every tree",
  "All trees of unbounded depth; the node type itself allows any tree in any field.",
  ["src/parser/nodes.rs: ASTNode", E+": Expressions", S+": Statements", B+": Blocks"])
p("C45", "Calls accept every kind of argument",
  "f(a, b), f(x=1), f(*a) and f(**k) are accepted as calls.",
  "every function expression, every list of arguments, every source text around them",
  "Argument lists of unbounded length over unbounded expressions; a test shows single calls.",
  [E+": parse_expressions_trailer", E+": parse_expressions_subscript_list", E+": parse_expressions_argument"])
p("C46", "Blank lines produce no symbols",
  "The tokenizer never returns two Newline symbols in a row, nor a Newline directly after a Dedent, nor a Newline as the first symbol: however many blank, blank-filled or comment lines a text has, each Newline ends a line that has symbols on it.",
  "every source text, every state reached by any number of calls",
  "Quantifies over all texts and all histories of calls, including calls after errors.",
  [T+": get_symbol"])
p("C47", "Every well formed statement and program is accepted",
  "Any sequence of tokens that spells a well formed statement or a well formed program - expression, assignment, augmented and annotated assignment, del, pass, break, continue, return, raise, yield, from-import, global, nonlocal and assert statements, if, while, for, try, with, def and class statements with inline or indented suites, nested to any depth - is accepted, with the tree of exactly those statements, and the parser stops behind it.",
  "every statement and every program of any size and nesting depth (apart from the statements that the code rejects or that are shown not to work: import, decorators, parameters, for with a plain target, match)",
  "Programs of unbounded length and nesting depth.",
  [B+": parse_blocks_file_input, Blocks", S+": Statements", E+": Expressions"])
p("C48", "Writing a program out and parsing it again gives the same tree",
  "A program written as text - its words separated by spaces, one line per statement line, every block indented by any non-empty run of blanks and tabs - is tokenized and parsed by file_input to the tree of that program; no other result is ever returned for it.",
  "every program of C47, every indentation unit, every spelling of its names, numbers and strings",
  "Goes through tokenizer, layout and parser for programs of unbounded size.",
  [T+": get_symbol", B+": parse_blocks_file_input", PA+": PythonCoreParser"])
p("C49", "The last line of a file needs no line end",
  "Whether or not the last line of a source text ends with a line end, file_input accepts the same programs: a text without the final newline is accepted when the text with it is.",
  "every text made of any number of lines, the last one without its line end",
  "All texts of any length; a test shows single texts, and the existing ones all end with a newline. Expected to FAIL: the tokenizer adds neither a Newline nor the missing Dedents at the end of the text.",
  [T+": get_symbol", B+": parse_blocks_file_input", S+": parse_statements_simple_stmt"])
p("C50", "Exactly the sentences of one grammar are accepted",
  "There is one written down grammar (EBNF, with a comment at every place where it differs from Python's) such that each entry point - file_input, eval_input, single_input, func_type_input - accepts a text if and only if the tokens of the text are a sentence of its start symbol. Nothing else is accepted and no sentence is rejected, fails with an error, panics or runs for ever.",
  "every source text, every entry point, sentences of any length and nesting depth",
  "Both directions quantify over infinitely many texts: no finite set of accepted and rejected examples determines the language of a recursive descent parser, in particular one without backtracking.",
  [B+": Blocks", S+": Statements", E+": Expressions", PA+": PythonCoreParser", T+": get_symbol"])
p("C51", "Acceptance depends only on the kinds of the tokens",
  "Two texts whose tokens have the same kinds in the same order are both accepted or both rejected by each entry point: names, numbers, the contents of strings and comments, blanks, line ends and positions do not matter. The one exception is the name `match`, which must be at the same places in both.",
  "all pairs of source texts, every entry point",
  "A relation between the outcomes for all pairs of texts of any length.",
  [B+": Blocks", S+": Statements", E+": Expressions", T+": get_symbol"])
p("C52", "Parsing takes linear work and linear stack",
  "A parse of a text of n characters that comes to an end makes at most 200 n + 40 calls of parse functions and of advance (300 n + 200 from any intermediate state), and its calls are nested at most 300 n + 400 deep: there is no exponential blow-up from nesting or from alternatives. The depth does grow with the nesting of the text, so no fixed stack is enough for all texts.",
  "every source text, every parse function, every reachable parser state",
  "A bound on the number of steps for all texts of all lengths; tests measure single texts.",
  [B+": Blocks", S+": Statements", E+": Expressions", PA+": PythonCoreParser"])
p("C53", "The tree does not depend on the layout of the text",
  "Two texts whose tokens have the same kinds and texts, however they are laid out (blanks, comments, blank lines, continuations, width of indentation, form of line ends), give the same tree up to positions and trivia, or an error with the same message, or both panic, or both do not end. Two texts whose tokens only have the same kinds (and the name match at the same places) give trees of the same form or the same error message. This holds for every parse function and from every pair of parser states that see the same symbols.",
  "every pair of source texts with matching tokens, every parse function, every pair of parser states, every number of steps",
  "A relation between the outcomes for two texts, over all pairs of texts; tests compare single outcomes.",
  [B+": Blocks", S+": Statements", E+": Expressions", PA+": PythonCoreParser"])
p("C54", "Syntax errors point at a symbol that was read",
  "When a parse function reports an error, the position in it is where some symbol starts: the current symbol of the call or a later one, never one after the symbol at which the parser stopped, and never outside of the text.",
  "every source text, every parse function, every reachable parser state, every error",
  "There are over a hundred places that report errors, each reachable from infinitely many texts; a position that is off shows only for particular ones.",
  [B+": Blocks", S+": Statements", E+": Expressions", PA+": PythonCoreParser", T+": get_position"])
p("C55", "Exactly the texts of a lexical grammar and a grammar are accepted",
  "A lexical grammar written down as a relation between places in a text (line starts, indentation, line ends, gaps, numbers, strings, words, operators) describes the tokenizer completely: at every point that can be reached, a call returns the symbol w and leaves the tokenizer at the place q if and only if the lexical grammar has w as a next symbol with q after it, and it returns an error if and only if there is no next symbol. Therefore a text is accepted as a file, an expression, a function type or an interactive input if and only if its symbols, as read by the lexical grammar, are a sentence of the grammar of C50.",
  "all texts, all tokenizer states that are reached on them, all symbols and places",
  "The language of a parser is an infinite set; tests only sample members and non-members.",
  [T+": get_symbol", SB+": get_char, peek_three_chars, advance", B+": Blocks"])

p("C56", "The gap between two symbols does not matter",
  "If the text a g b is read up to the end of a symbol (a name, keyword, number, string or operator) that ends where g begins, and g and g' are gaps in front of b (blanks, comments, backslash continuations and, inside brackets, line ends; g' not empty, g may be), then a g' b has the same symbols up to positions and trivia, and every entry point gives the same tree up to positions and trivia, or the same error message, for both texts. The exception is a number at the very end of the text, where a following blank becomes part of a 0.",
  "all texts, all places between two symbols, all gaps, all entry points and recursion depths",
  "Whitespace can be inserted at infinitely many places and in infinitely many forms; a lookahead mistake shows only for particular neighbours.",
  [T+": get_symbol", B+": Blocks", S+": Statements", E+": Expressions"])

p("C57", "Different programs have different trees",
  "If two accepted texts (files, expressions, function types) have the same tree, then they have the same symbols, with the same positions, texts and trivia: no symbol is dropped from the tree and no order is forgotten. For trees without parameter lists of lambdas and classes and without type lists this also holds up to positions and trivia, so that (with C53) two such texts have the same tree up to layout exactly if they have the same symbols up to layout. The nodes of these lists record the places of / and * by their positions only.",
  "all pairs of accepted texts",
  "Injectivity is about all pairs of texts; tests compare one text with one expected tree.",
  [B+": parse_blocks_file_input, parse_blocks_eval_input, parse_blocks_func_type_input", S+": Statements", E+": parse_expressions_var_args_list"])

p("C58", "Accepted files close their blocks and brackets",
  "In the symbols of an accepted file, up to the end of the text, every bracket is closed by a matching one, there are as many dedents as indents, and the tokenizer is back at the left margin. A file that ends inside a bracket or inside a block (as after a blank last line, which keeps the block before it open) is rejected.",
  "all texts accepted as a file",
  "The parser does not count brackets or blocks, and takes any symbol for the second colon of a slice; that this cannot break the balance follows only from an argument over all sentences of the grammar.",
  [T+": get_symbol", B+": parse_blocks_file_input", S+": parse_statements_suite", E+": parse_expressions_subscript"])

p("C59", "Files can be put one after the other",
  "If two texts are accepted as files, the first ends with a line feed (not preceded by a carriage return) and has no NUL character, and the second starts with a symbol at the left margin, then the first text followed by the second is accepted as a file, and its symbols are those of the first and then those of the second. (Without the conditions this fails: a blank line at the start of the second keeps the last block of the first open, and the character after CR LF is lost.)",
  "all pairs of accepted files",
  "The tokenizer and the parser carry state (blocks, brackets, the kind of except clauses) from one statement to the next; that none of it leaks from one file into the next is about all pairs of texts.",
  [T+": get_symbol", B+": parse_blocks_file_input", S+": parse_statements_try_stmt"])

p("C60", "Lines without code can be put in between statements",
  "At the start of a line whose first symbol is neither an indentation nor the end of a block, one or more blank lines or lines with only a comment (other than a type comment) can be put in: every entry point gives the same tree up to positions and trivia, or an error with the same message. (Before a line that starts or ends a block this fails: the indentation after a line without code is ignored.)",
  "all texts, all starts of lines in them, and all lines without code",
  "The tokenizer treats the start of a line, blank lines and comments in one loop with several flags; that the flags set by a line without code do not affect the line after it is about all texts.",
  [T+": get_symbol"])

p("C61", "Every text can be written in one layout",
  "Let a text be read to its end without an error of the tokenizer. Write its symbols down again with one blank between symbols, one line feed at the end of a line and one blank of indentation per open block (the canonical text). The canonical text has the same symbols, so every entry point gives the same tree up to positions and trivia, or an error with the same message; the canonical text of a canonical text is that text itself; two texts have the same canonical text exactly if they have the same symbols, and (without parameter lists, see C57) exactly if they have the same tree.",
  "all texts and all entry points",
  "A formatter rests on this round trip for all programs: no symbol may change its meaning when the layout around it changes, for every kind of symbol, every nesting of blocks and brackets and every way to end a text.",
  [T+": get_symbol", PA+": PythonCoreParser"])

p("C62", "The statements of two files put one after the other are the statements of both, in order",
  "Let two texts be accepted as files, the first ending with a line feed (not after a carriage return) and without a NUL character, the second starting with a symbol at the left margin. Then the first text followed by the second is accepted, and the statements in its tree are the statements of the first tree followed by those of the second, up to positions and trivia. So the last statement of the first file is not changed by what follows, and nothing left over from the first file changes the reading of the second.",
  "all pairs of texts accepted as files that meet the conditions on their ends",
  "Tools that put generated code, headers or notebook cells together rely on this for every pair of files: every kind of compound statement can stand at the end of the first, where the parser looks for elif, else, except or finally, and state left over from the first file (open blocks, the status of except clauses) could change the reading of the second.",
  [B+": parse_blocks_file_input", PA+": Parser", T+": get_symbol"])

p("C63", "The tree determines the text",
  "If two texts that contain no carriage return followed by a line feed and no NUL character and do not end with the digit 0 are given the same tree, with its positions and trivia, as an expression, a file or a function type, then the texts are the same, apart from exactly three things: which blank characters (space or tab) stand at the start of a line, which character (line feed or carriage return) ends a line, and <> written for !=. These three differences do occur, and without the conditions on the texts more is lost.",
  "all pairs of texts accepted with the same tree, for the three entry points that read the whole text",
  "A tool that edits a program through its tree must be able to write all of the text back. A test can compare some texts; that no two different texts share a tree is a statement about all pairs.",
  [T+": get_symbol", B+": Blocks", "src/parser/nodes.rs: ASTNode", "src/parser/trivias.rs: Trivia"])

p("C64", "An edit in one place leaves the other statements alone",
  "Let a file be put together from pieces, each of which is accepted as a file on its own, starts with a symbol at the left margin, ends with a line feed that does not follow a carriage return, and contains no NUL character. Then the file is accepted, and its statements are those of the pieces, in order, apart from positions and trivia. So if some lines in the middle of a file are replaced by others, the statements before and after them keep their trees.",
  "all lists of pieces of any number and length; all texts before, inside and after the edit",
  "Incremental tools parse again only the lines that changed. A test edits one file in one place; that no earlier or later statement can be influenced by an edit is a statement about all texts around it.",
  [T+": get_symbol", B+": parse_blocks_file_input"])

p("C65", "A file is accepted if and only if its parts are",
  "Let a be a text that ends with a line feed (not after a carriage return), has no NUL character, is read by the tokenizer without an error and closes all its brackets and blocks, and let b start at the left margin with a symbol other than elif, else, except and finally. Then a followed by b is accepted as a file if and only if a and b are both accepted as files, and the statements of the whole are those of a and then those of b. The exception for elif, else, except and finally is needed.",
  "all pairs of texts that meet the conditions, of any length",
  "A file can be checked part by part only if no part can repair or spoil another. A test joins some parts; that rejection of one part always means rejection of the whole is a statement about all parts.",
  [T+": get_symbol", B+": parse_blocks_file_input"])

p("C66", "One parser can be called again and again",
  "Repeated calls for interactive input on one parser return the lines of the text one after the other: the symbols of the first tree, of the second tree and so on are the symbols of the text, with none left out. What a call returns depends only on the state of the tokenizer, not on what the parser was used for before. After a whole file was read, reading again gives a file without statements.",
  "all texts, all numbers of calls, all states of the parser",
  "An interactive loop keeps one parser for a whole session. A test makes one call on a new parser; that no symbol is lost between two calls, and that nothing is carried over from an earlier call, are statements about all histories of calls.",
  [B+": parse_blocks_single_input, parse_blocks_file_input, parse_blocks_eval_input, parse_blocks_func_type_input", PA+": PythonCoreParser", T+": get_symbol"])

p("C67", "The tree is not larger than the text allows",
  "The tree that a parse returns has at most eight parts (nodes, tokens, empty options and lists all count) for each symbol in it, and eight more. The tree of a text of n characters has at most 16 n + 8 parts. So the memory that a tree needs is linear in the length of the text.",
  "all texts, all entry points; for the bound per symbol all parse functions and all states",
  "Memory is planned for by the size of the input. A test looks at the tree of one text; that no nesting or combination of constructs makes the tree grow faster than the text is a statement about all of them.",
  ["src/parser/nodes.rs: ASTNode", E+": Expressions", S+": Statements", B+": Blocks"])

p("C68", "A number can be replaced by an expression in brackets",
  "If a text is accepted, and one of its numbers does not directly follow a symbol that ends an expression or the word `with`, then the text in which that number is replaced by any accepted expression in (), [] or {} is accepted too, whatever the construct the number stands in, provided the expression does not end with a comma. The three exceptions are needed: for each there is an accepted text that is rejected after the replacement.",
  "all texts and expressions, all numbers in them, all entry points, the three kinds of brackets",
  "Programs that generate or rewrite Python code rely on brackets making any expression an operand. A test can try one expression at one place; the places and the expressions are both unbounded.",
  [E+": parse_expressions_atom", E+": parse_expressions_expr", S+": Statements", B+": Blocks"])

p("C69", "A name can be renamed without changing anything else",
  "If a name in a text is replaced by another name, every entry point ends in the same way as before, and if it returns a tree, the tree is the same up to positions and layout and without telling the old and the new name apart; the symbols are the same except for the text of this one name. In particular acceptance does not depend on the name. Exceptions: the new name is a string prefix such as `r` and a quote follows directly, the name directly follows a number, or one of the two names is `match`. For each exception there is a text where renaming changes the outcome.",
  "all texts, all names in them, all new names, all entry points, all amounts of fuel",
  "Rename refactorings rely on this. A test can rename one name in one text; texts, places and names are unbounded, and the tokenizer decides character by character where a name ends and whether it is a keyword or a prefix.",
  [T+": get_symbol", E+": parse_expressions_atom"])

p("C70", "In a text a number can be replaced by an expression in parentheses",
  "If a text is accepted, and one of its numbers does not directly follow a symbol that ends an expression or the word `with`, then the text in which the characters of that number are replaced by `(`, the characters of any accepted expression, a line feed and `)` is accepted too. The expression may end with a comment, may contain line ends inside its own brackets and may be preceded by blank or comment lines; it does not end with a comma or a carriage return and contains no NUL. The symbols of the new text are those of the expression inside the two parentheses, with all other symbols as before.",
  "all texts, all numbers in them, all expressions, all entry points",
  "Code generators paste expressions into templates as text. Whether the pasted characters stay separate symbols, and whether line ends inside them are ignored, depends on all characters of both texts.",
  [T+": get_symbol", E+": parse_expressions_atom", E+": parse_expressions_expr"])

p("C71", "Text that was not read does not matter",
  "Let a parse function stop, with a tree or with an error, when the tokenizer has consumed s characters. On every text that has the same first s + 3 characters the same parse function ends with the same tree, or the same error message at the same place. In particular the text after the accepted part of an interactive input is irrelevant, and an error found at least three characters before the end of a text cannot be repaired by adding text.",
  "all pairs of texts, all parse functions, all outcomes",
  "It compares all continuations of a text. A tokenizer that looks further ahead, for example for the end of a line or for a closing quote, behaves the same on most examples.",
  [T+": get_symbol", SB+": peek_three_chars", E+": parse_expressions_expr", B+": parse_blocks_single_input"])

p("C72", "The body of a block can be replaced by the statements of a file",
  "Take a text with a block whose body is a text F moved k columns to the right, where F and another text G are accepted as files, start with a symbol at the left margin, end with the line end of a line that has code, and contain no try. The whole text is accepted as a file with the body F if and only if it is accepted with the body G, also moved k columns to the right. In particular a block with pass as its body can have the statements of any such file instead. (With a try in the body, a blank last line, or tabs at columns that are no multiples of 4 this is false of this parser; each is shown by an example.)",
  "all texts before and after the block, all pairs of bodies, all columns",
  "It speaks of every statement in every block of every program, at every column. A block that is closed one Dedent early, or a statement that is not accepted inside a block, is missed by every example that does not have that nesting.",
  [T+": get_symbol", S+": parse_statements_suite", B+": parse_blocks_func_body_suite", S+": parse_statements_stmt"])

p("C73", "The entry points agree on the same text",
  "If a text is accepted as an expression and its line has an end, then it is accepted as a file and as interactive input, and both trees hold one statement: the expression, with the same tree, positions and symbols (a list of expressions without brackets is stored under another name, last element first). Without the end of the line the file and the interactive input are rejected, with an error at the start of the expression. If a file is accepted and its first statement is a simple one, the same text is accepted as interactive input and gives that statement, with the same tree. (If the expression starts with the name match, the parser panics instead; this is shown, too.)",
  "all texts that are accepted as an expression; all texts that are accepted as a file",
  "The rules for expressions by themselves and for expression statements are two separate pieces of code (testlist and testlist_star_expr) with their own loops and their own lists of symbols that may follow a comma. That they agree has to hold for every expression.",
  [B+": parse_blocks_eval_input", B+": parse_blocks_file_input", B+": parse_blocks_single_input", E+": parse_expressions_testlist", E+": parse_expressions_testlist_star_expr", S+": parse_statements_expr_stmt"])

p("C74", "A number that is replaced by an expression is replaced in the tree, and nothing else is",
  "Take an accepted text with a number in it that does not follow the end of an expression or the word with, and an expression that, in parentheses, is read as a whole. If the number is replaced by the expression in parentheses, the new text is accepted, and its tree is, up to positions and trivia, the tree of the old text with the tree of the expression in parentheses in the place of the leaf of that number. No other part of the tree changes, however deeply the number is nested and whatever is around it, and equal numbers elsewhere stay as they are.",
  "all texts, all entry points, all numbers in them, all expressions",
  "It compares the trees of all programs before and after all replacements at all places. A function that looks at the kind of symbol an operand starts with, binds operators differently after a parenthesis, or stores a child in another place for some operands passes every example that does not have that operand at that place.",
  [E+": parse_expressions_atom", E+": parse_expressions_atom_expr", S+": parse_statements_expr_stmt", B+": parse_blocks_file_input", T+": get_symbol"])

p("C75", "An expression is read in the same way wherever it is",
  "What a parse function for expressions returns is decided by the kinds and the texts of the symbols it consumes and of the one symbol after them. Wherever a parser, of any text and in any state, sees these symbols, the function succeeds, returns the same tree up to positions and trivia, and has consumed the same number of symbols. If only the kinds are the same, the tree has the same form.",
  "all parse functions for expressions, all reachable states of a parser in which they succeed, all states of all parsers that see the same symbols",
  "It rules out every dependence on what was read before, on the nesting of statements, on the except status and on more than one symbol of look-ahead; a test fixes one context.",
  [E+": parse_expressions_test", E+": parse_expressions_named_expression", E+": parse_expressions_testlist_star_expr", E+": parse_expressions_var_args_list"])

p("C76", "The messages of syntax errors are true",
  "When a parse function fails, it stops at a symbol. If the message says that symbols of some kind were expected, the symbol at which the parser stopped is none of them; if it says that a symbol must not be there, the symbol is there; if it is the message for a missing symbol, the next symbol could not be read.",
  "all parse functions, all states of a parser in which they fail, all messages",
  "There are over 170 messages, and each can be reached through many functions and inputs; a test looks at one message for one input, and most tests only check that there is an error. A copied message or a swapped branch is found only by relating the text of the message to the symbol for every way to reach it.",
  [E+": parse_expressions_atom", S+": parse_statements_except_stmt", B+": parse_blocks_func_type_input", F+": parse_functions_func_type"])

p("C77", "A statement is read in the same way wherever it is",
  "What a parse function for statements returns, for simple statements, compound statements, blocks, functions and classes, is decided by the kinds and the texts of the symbols it consumes and of the one symbol after them. Wherever a parser, of any text and in any state, sees these symbols, the function succeeds, returns the same tree up to positions and trivia, and consumes the same symbols. This includes statements with try: what was read in try statements before does not matter. Only an except clause on its own also depends on the clauses before it in the same parser.",
  "all parse functions for statements, all reachable states of a parser in which they succeed, all states of all parsers that see the same symbols",
  "The parser keeps a status about except clauses between calls; that it never leaks into another statement, and that nothing else of the past is used, holds for all pairs of contexts or not at all. A test fixes one context.",
  [S+": parse_statements_stmt", S+": parse_statements_try_stmt", S+": parse_statements_except_clause", S+": parse_statements_suite", B+": parse_blocks_func_def", B+": parse_blocks_class_def"])

p("C78", "When the body of a block is replaced, only that body changes in the tree",
  "Take a text that is accepted as a file and a block in it whose body is, taken by itself, a file without try. Put in the place of that body the statements of another file without try, so that the symbols of the new text are the symbols of the old one with those of the body exchanged. Then the new text is accepted, and its tree is the tree of the old text in which that one block has the statements of the new body, in the same stored order as in the tree of a file. Every other node, field and token is the same, apart from positions and trivia. In particular this holds when the new text is made by moving the lines of the new body to the right by the column of the block and putting them in the place of the old lines, if no string in the bodies goes over the end of a line (moving would change it).",
  "all texts accepted as files, all blocks in them at any depth (of if, while, for, with, class, def and the other compound statements), all bodies that are files without try, all texts with the resulting symbols",
  "An editor that replaces a body relies on the rest of the tree being untouched wherever the block is and whatever is in it. The claim is about all pairs of texts and all depths; a test compares two trees.",
  [S+": parse_statements_suite", B+": parse_blocks_func_body_suite", S+": parse_statements_stmt", B+": parse_blocks_file_input", T+": get_symbol"])

p("C79", "A syntax error is found at the first symbol that makes the text wrong",
  "When parsing a file, an expression, a line or a function type ends with an error, the symbols that the parser has taken before the one at which it stopped are the beginning of a sentence of the grammar of the parser: what was read so far could still have been completed, and only the symbol at which the parser stopped makes the text wrong. (That nothing after it can repair the error is C71.) There are three places where the parser goes on too far: it takes the right brace of {}, it takes the star of an except* clause after an except clause of the same try statement, and it reads a decorator up to its end or to the first mistake in it, although no sentence has a decorator.",
  "all texts, all four entry points, all errors, whatever was read before",
  "An editor that underlines the place of the error, and an interactive reader that asks for more input, rely on the parser neither stopping late nor at a place where the text was already wrong. The claim is about the existence of a completion for each prefix of each wrong text; a test compares one error position.",
  [B+": parse_blocks_file_input", B+": parse_blocks_eval_input", E+": parse_expressions_atom", S+": parse_statements_stmt", S+": parse_statements_except_clause", B+": parse_blocks_decorated"])

p("C80", "The parser looks one symbol ahead, and not further",
  "The outcome of parsing a file, an expression, a line or a function type is determined by the symbols up to and including the one at which the parser stops. If two texts have the same symbols (kind and text) up to there, the outcome is the same for both: the same tree up to positions, with the parser at the same symbol, or the same error message, whatever the layout of the texts is and whatever follows, even if it is no symbol at all. For the form of the tree, and for the error message, it is enough that the symbols have the same kinds. In particular an error is final: no text with the same kinds of symbols up to the one at which the parser stopped is accepted.",
  "all texts, all pairs of texts with the same first symbols, all four entry points and every parse function in every state of the parser, all outcomes",
  "An editor that parses again after a change behind the current place, and everyone who feeds a text piece by piece, rely on it. It compares every text with every other text that starts with the same symbols; a hidden look ahead would show only on texts with a special continuation.",
  [B+": parse_blocks_file_input", B+": parse_blocks_eval_input", PA+": advance", T+": get_symbol", E+": parse_expressions_atom", S+": parse_statements_stmt"])

p("C81", "A program can be put together from pieces, in any order",
  "Take any number of texts, each of which is accepted as a file when a line end is put behind it, starts with a symbol at the left margin, has no NUL character and does not end with a carriage return. Written one after the other, each with a line end behind it, they are accepted as one file, and its statements are those of the pieces in order, apart from positions and trivia. So the pieces can be put in another order, with the same statements in another order, and pieces can be left out or repeated. A wrong piece spoils the program wherever it is: if the pieces close their brackets and blocks and none starts with elif, else, except or finally, the program is accepted only if every piece is.",
  "all lists of pieces of any length, all permutations and sublists of them",
  "Tools that generate, reorder, split or merge programs rely on it; it is a claim about lists of unbounded length and all their permutations, and a state that survives from one statement to the next (as the kind of the last except clause does) would break it only for some orders.",
  [B+": parse_blocks_file_input", S+": parse_statements_stmt", T+": get_symbol"])

p("C82", "A syntax error is reported at the same symbol, however the text is laid out",
  "If two texts have tokens of the same kinds (and the name match at the same places), and parsing the first as a file, an expression, a line or a function type ends with a syntax error, then parsing the second ends with the same message, and the two errors point at the same token: the position in the first error is where the i-th token of the first text starts, and the position in the second error is where the i-th token of the second text starts. So blanks, comments, line ends inside brackets, continuation lines, the width of the indentation and the choice of names, numbers and strings move the reported place only as far as they move the token. The same holds for every parse function in every state of the parser. If the same wrong text stands k characters further on (behind another text that closes its brackets and blocks), the construct that is parsed there fails with the same message, at a position that is larger by exactly k.",
  "all pairs of texts with tokens of the same kinds, all four entry points, every parse function in every pair of reachable states that see the same kinds of symbols, all errors",
  "Reformatting a wrong program must not send its author to another place. It relates every wrong text to every other layout of it, through every place where one of about a hundred functions raises an error; a test compares one position with one expected number.",
  [PA+": advance", T+": get_symbol, get_position", E+": parse_expressions_atom", S+": parse_statements_stmt", B+": parse_blocks_file_input"])

p("C83", "The tree of a text further on is the same tree, moved",
  "If two parsers have the same text ahead, with the same open brackets and blocks, and the second one is k characters further on in its text, then every parse function does the same for both (the two for except clauses if also the kind of except clause read before is the same; for all others whatever was read before makes no difference): it returns the same tree with k added to every position in it (of nodes, tokens, comments and blanks) and nothing else changed, and leaves the parsers k characters apart; or it fails with the same message at a position larger by k; or it panics or does not end in both. In particular a statement that stands behind a text which has closed its brackets and blocks has the tree it has on its own, moved by the length of that text; and so has a whole text that is parsed by one of the four entry points in a session that has read other lines before.",
  "all pairs of texts and of reachable parser states with the same text ahead, all distances, every parse function, all outcomes",
  "Incremental parsing and caching of trees rely on it: a tree can be kept and its positions adjusted when text is inserted before it. It compares every text with itself behind every other text, in every field of the tree; a position that is taken from the wrong place shows only at distances and nestings a test does not have.",
  [PA+": advance", T+": get_symbol, get_position", S+": parse_statements_stmt", E+": parse_expressions_atom"])

with open(os.path.join(os.path.dirname(__file__), "..", "properties.jsonl"), "w") as f:
    for x in P: f.write(json.dumps(x, ensure_ascii=False) + "\n")
print(len(P))
