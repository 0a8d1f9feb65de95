{
"C01": {
"status": "proved",
"note": "every reachable tokenizer state"
},
"C02": {
"status": "proved",
"note": ""
},
"C03": {
"status": "proved",
"note": ""
},
"C04": {
"status": "proved",
"note": ""
},
"C05": {
"status": "proved",
"note": ""
},
"C06": {
"status": "proved",
"note": ""
},
"C07": {
"status": "proved",
"note": ""
},
"C08": {
"status": "proved",
"note": "nesting of returned brackets; a mismatched closing bracket is an error"
},
"C09": {
"status": "proved",
"note": ""
},
"C10": {
"status": "proved",
"note": ""
},
"C11": {
"status": "partial",
"note": "proved for texts without blank and comment lines; false after a blank, comment or backslash line (C11_blank_line_hides_indentation)"
},
"C12": {
"status": "partial",
"note": "false: never rejected (C12_never_rejected); C12_lenient_layout_partial says what happens instead"
},
"C13": {
"status": "proved",
"note": "no b prefixes and no backslash escapes: that is what the code supports"
},
"C14": {
"status": "partial",
"note": "exact for literals not starting with 0 and for 0x/0o/0b; false for other literals starting with 0 (C14_zero_swallows) and exponents without digits are accepted (C14_bad_exponent_accepted)"
},
"C15": {
"status": "partial",
"note": "trivia tile every gap inside a line; leading indentation of a line is in no trivia (C15_indentation_not_recorded)"
},
"C16": {
"status": "partial",
"note": "a line end CR LF reads the same as LF when the character after it is put back; otherwise it swallows that character (C16_crlf_differs)"
},
"C17": {
"status": "partial",
"note": "holds for every text without CR LF, NUL and a 0 at its end, up to blanks at the start of a line (C17_whole_text_partial); false for CRLF line ends and a 0 ending the text"
},
"C18": {
"status": "proved",
"note": ""
},
"C19": {
"status": "proved",
"note": "also numbers and strings; kinds, texts and positions"
},
"C20": {
"status": "proved",
"note": ""
},
"C21": {
"status": "proved",
"note": ""
},
"C22": {
"status": "proved",
"note": "up to a NUL character, which the tokenizer takes for the end of the text"
},
"C23": {
"status": "proved",
"note": "Grammar.lean states CPython 3.8's grammar; eight rules (listed in wider) accept more than Python, with witnesses in C23_accepts_more. Decorator and entry points have their own theorems because they leave their last token as current symbol."
},
"C24": {
"status": "proved",
"note": "exact statement per group of parse functions: EOF (input rules) and the Newline after decorators and interactive compound statements are stored without being consumed"
},
"C25": {
"status": "partial",
"note": "Nesting and node ends are proved for every node of every tree; node starts for every node except the entries of dictionary and set displays, which the code starts at the display instead (proved, with a concrete counterexample)."
},
"C26": {
"status": "proved",
"note": ""
},
"C27": {
"status": "proved",
"note": ""
},
"C28": {
"status": "proved",
"note": ""
},
"C29": {
"status": "proved",
"note": ""
},
"C30": {
"status": "partial",
"note": "The property fails: import_stmt at an import token calls itself for ever (C30_import_diverges, C30_import_os_diverges). Proved: that is the only cause of non-termination (C30_diverges_iff_import_partial), so every parse of a text without the word import terminates."
},
"C31": {
"status": "partial",
"note": "The property fails: a statement starting with the name match panics (C31_match_panics, C31_match_assignment_panics). Proved: that is the only panic (C31_panics_iff_match_partial, C31_match_calls), so no parse of a text without the word match panics."
},
"C32": {
"status": "proved",
"note": "for the input rules that run to the end of the text"
},
"C33": {
"status": "partial",
"note": "The property fails: the theorems prove, for all inputs, that a for statement or for clause with a plain target is never accepted, because the target rule reads 'x in y' as a comparison; accepted targets are starred or end in a comma or starred element. Every well formed for statement with a comma after its targets is accepted with the right tree (C33_for_accepted_partial)."
},
"C34": {
"status": "partial",
"note": "The property fails in part: {} and dictionaries of three or more entries are proved to be rejected for all entries; sets of any size and dictionaries of one or two entries are proved to be accepted with the right tree."
},
"C35": {
"status": "partial",
"note": "The property fails for a[i:j]: proved rejected for all parts; a[i:j:k], with any part missing, is proved accepted with the right tree; any token is proved to be accepted in place of the second colon."
},
"C36": {
"status": "partial",
"note": "The property fails: proved that every function definition with a non-empty parameter list is rejected, and that every accepted definition has no parameters. Every well formed definition without parameters is accepted with the right tree (C36_plain_def_accepted_partial)."
},
"C37": {
"status": "partial",
"note": "The property fails: proved that no decorated definition and no async def is ever accepted; async with and async for are accepted when the statement after async is."
},
"C38": {
"status": "partial",
"note": "Fails in the code when try statements are nested (C38_mixed_accepted, C38_uniform_rejected); proved for try statements whose clauses contain no try statement. Every try statement with clauses of one kind, also in its suites, is accepted with the right tree (C38_uniform_accepted_partial)."
},
"C39": {
"status": "proved",
"note": ""
},
"C40": {
"status": "proved",
"note": "Success: same tree for every state that sees the consumed tokens and the symbol after them. Failure: the same error for every state that sees the symbols looked at."
},
"C41": {
"status": "proved",
"note": "Both parts follow from C23."
},
"C42": {
"status": "proved",
"note": ""
},
"C43": {
"status": "partial",
"note": "Proved: an accepted input is exactly one simple statement line (or an empty line) and ends with its Newline; every well formed line of simple statements is accepted, from its tokens and from its text (C43_line_accepted_partial, C43_text_accepted_partial). Fails in the code: compound statements and an empty first line are never accepted (C43_compound_rejected, C43_empty_input_rejected)."
},
"C44": {
"status": "proved",
"note": ""
},
"C45": {
"status": "partial",
"note": "The property fails for keyword and starred arguments (proved rejected for all of them); positional arguments are proved accepted with the right tree."
},
"C46": {
"status": "proved",
"note": ""
},
"C47": {
"status": "proved",
"note": "For the statements listed in Spec/StmtAst; import, decorators, parameters, class bases, plain for targets and match are excluded because the code rejects them or does not return (C30, C31, C33, C36, C37)."
},
"C48": {
"status": "proved",
"note": "For the programs of C47."
},
"C49": {
"status": "partial",
"note": "The property fails: proved for all texts of lines that a file whose last line has no line end is never accepted, and that the last token before EOF of every accepted file is a Newline or Dedent. That texts with the final line end are accepted is C48."
},
"C50": {
"status": "proved",
"note": "Soundness and completeness for all four entry points; C50_accepted_iff_sentence is the form for texts that the tokenizer reads to the end. The grammar Spec/Exact.lean was written for this parser; its relation to Python's grammar is C23 and C41."
},
"C51": {
"status": "proved",
"note": "Follows from C50. C51_match_differs shows that the exception for the name match is needed."
},
"C52": {
"status": "proved",
"note": "Calls that never end because of an import token (C30) are excluded by the hypothesis that the run ends. In the model an iteration of a loop counts as a call."
},
"C53": {
"status": "proved",
"note": ""
},
"C54": {
"status": "proved",
"note": ""
},
"C55": {
"status": "proved",
"note": ""
},
"C56": {
"status": "proved",
"note": ""
},
"C57": {
"status": "proved",
"note": "C57_same_tree_same_symbols is the property in full. The version up to positions and trivia is proved for trees without parameter lists and type lists, as the property states; C57_parameter_lists shows that it fails with them."
},
"C58": {
"status": "proved",
"note": ""
},
"C59": {
"status": "proved",
"note": ""
},
"C60": {
"status": "proved",
"note": ""
},
"C61": {
"status": "proved",
"note": ""
},
"C62": {
"status": "proved",
"note": "C62_tree_of_joined_files: the joined text is accepted, with the statements of both; C62_joined_files_only: no other result is possible. The condition on the second text is needed (C59_blank_line_between)."
},
"C63": {
"status": "proved",
"note": "The conditions on the texts are part of the statement: C63_lost shows what is lost without them (the character after a carriage return and line feed, the text after a NUL)."
},
"C64": {
"status": "proved",
"note": ""
},
"C65": {
"status": "proved",
"note": ""
},
"C66": {
"status": "partial",
"note": "Violated: every entry point first drops the current symbol, which after an earlier call is the first symbol of the next line (C66_symbol_lost). Proved: a call depends only on the tokenizer state; successive calls return successive stretches of the text, each up to a line end, with exactly one symbol lost between them (C66_session_lines_partial); after a whole file, reading again gives an empty file."
},
"C67": {
"status": "proved",
"note": ""
},
"C68": {
"status": "proved",
"note": "the three exceptions are proved by counterexamples"
},
"C69": {
"status": "proved",
"note": ""
},
"C70": {
"status": "proved",
"note": ""
},
"C71": {
"status": "proved",
"note": "The text after the place where the parser stopped, and three more characters, is arbitrary; so is the parse function."
},
"C72": {
"status": "proved",
"note": "Acceptance; the trees are not compared. The conditions on the bodies (no try, last line with code, no tabs unless the column is a multiple of 4) are needed: for each there is a text that is no longer accepted."
},
"C73": {
"status": "proved",
"note": "The name match at the start is excluded in the acceptance theorem; there the outcome is a panic, which is proved as well (C73_expression_is_no_program)."
},
"C74": {
"status": "proved",
"note": "Up to positions and trivia. The exceptions (a number after the end of an expression or after with, an expression that ends with a carriage return) are those of C68 and C70, shown there by counterexamples."
},
"C75": {
"status": "proved",
"note": "For successful results. Statements are not covered: they depend on the except status (C38)."
},
"C76": {
"status": "partial",
"note": "Five of the 172 messages are wrong in the code: C76_misleading gives a text for each. All others are proved true for every run."
},
"C77": {
"status": "proved",
"note": ""
},
"C78": {
"status": "proved",
"note": "Stated on the symbols of the texts, so that it covers every way of writing the new body (any column, comments, line joining). Bodies with try are excluded: the except status leaks out of them (C72_try_in_body)."
},
"C79": {
"status": "partial",
"note": "Violated in three places, with a witness for each (C79_empty_braces_read, C79_decorator_read, C79_mixed_handlers_read). Proved: in all other cases what was read can be completed to a sentence of the exact grammar of C50, at the level of symbols, and no text with the same symbols up to the place of the error is accepted (C79_first_mistake_partial). Not proved: that the completing symbols can be written as a text."
},
"C80": {
"status": "proved",
"note": ""
},
"C81": {
"status": "proved",
"note": ""
},
"C82": {
"status": "proved",
"note": ""
},
"C83": {
"status": "proved",
"note": ""
}
}