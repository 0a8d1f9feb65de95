{
 "claims": [
  {
   "property": "C01",
   "status": "proved",
   "theorems": [
    "Verif.C01_get_symbol_returns"
   ],
   "note": "every reachable tokenizer state"
  },
  {
   "property": "C02",
   "status": "proved",
   "theorems": [
    "Verif.C02_stream_ends",
    "Verif.C02_loop_stops"
   ],
   "note": ""
  },
  {
   "property": "C03",
   "status": "proved",
   "theorems": [
    "Verif.C03_eof_sticky"
   ],
   "note": ""
  },
  {
   "property": "C04",
   "status": "proved",
   "theorems": [
    "Verif.C04_counters_bounded",
    "Verif.C04_column_bounded",
    "Verif.C04_no_overflow"
   ],
   "note": ""
  },
  {
   "property": "C05",
   "status": "proved",
   "theorems": [
    "Verif.C05_span_of_token",
    "Verif.C05_position_monotone",
    "Verif.C05_spans_ordered"
   ],
   "note": ""
  },
  {
   "property": "C06",
   "status": "proved",
   "theorems": [
    "Verif.C06_keyword",
    "Verif.C06_name",
    "Verif.C06_name_text",
    "Verif.C06_keyword_text"
   ],
   "note": ""
  },
  {
   "property": "C07",
   "status": "proved",
   "theorems": [
    "Verif.C07_longest_match",
    "Verif.C07_operator_text"
   ],
   "note": ""
  },
  {
   "property": "C08",
   "status": "proved",
   "theorems": [
    "Verif.C08_brackets_nested",
    "Verif.C08_mismatch_is_error"
   ],
   "note": "nesting of returned brackets; a mismatched closing bracket is an error"
  },
  {
   "property": "C09",
   "status": "proved",
   "theorems": [
    "Verif.C09_no_layout_in_brackets"
   ],
   "note": ""
  },
  {
   "property": "C10",
   "status": "proved",
   "theorems": [
    "Verif.C10_indent_dedent_balance"
   ],
   "note": ""
  },
  {
   "property": "C11",
   "status": "partial",
   "theorems": [
    "Verif.C11_layout_partial",
    "Verif.C11_blank_line_hides_dedent",
    "Verif.C11_blank_line_hides_indentation"
   ],
   "note": "proved for texts without blank and comment lines; false after a blank, comment or backslash line (C11_blank_line_hides_indentation)"
  },
  {
   "property": "C12",
   "status": "partial",
   "theorems": [
    "Verif.C12_never_rejected",
    "Verif.C12_inconsistent_dedent_accepted",
    "Verif.C12_lenient_layout_partial"
   ],
   "note": "false: never rejected (C12_never_rejected); C12_lenient_layout_partial says what happens instead"
  },
  {
   "property": "C13",
   "status": "proved",
   "theorems": [
    "Verif.C13_string",
    "Verif.C13_unterminated",
    "Verif.C13_string_text",
    "Verif.C13_literal_unique"
   ],
   "note": "no b prefixes and no backslash escapes: that is what the code supports"
  },
  {
   "property": "C14",
   "status": "partial",
   "theorems": [
    "Verif.C14_number_partial",
    "Verif.C14_number_text_partial",
    "Verif.C14_zero_swallows",
    "Verif.C14_zero_loses_newline",
    "Verif.C14_bad_exponent_accepted",
    "Verif.C14_classes"
   ],
   "note": "exact for literals not starting with 0 and for 0x/0o/0b; false for other literals starting with 0 (C14_zero_swallows) and exponents without digits are accepted (C14_bad_exponent_accepted)"
  },
  {
   "property": "C15",
   "status": "partial",
   "theorems": [
    "Verif.C15_trivia_cover_partial",
    "Verif.C15_trivia_tile",
    "Verif.C15_indentation_not_recorded"
   ],
   "note": "trivia tile every gap inside a line; leading indentation of a line is in no trivia (C15_indentation_not_recorded)"
  },
  {
   "property": "C16",
   "status": "partial",
   "theorems": [
    "Verif.C16_crlf_partial",
    "Verif.C16_continuation",
    "Verif.C16_crlf_differs"
   ],
   "note": "a line end CR LF reads the same as LF when the character after it is put back; otherwise it swallows that character (C16_crlf_differs)"
  },
  {
   "property": "C17",
   "status": "partial",
   "theorems": [
    "Verif.C17_token_text_partial",
    "Verif.C17_line_partial",
    "Verif.C17_crlf_loses_character",
    "Verif.C17_zero_invents_character",
    "Verif.C17_whole_text_partial"
   ],
   "note": "holds for every text without CR LF, NUL and a 0 at its end, up to blanks at the start of a line (C17_whole_text_partial); false for CRLF line ends and a 0 ending the text"
  },
  {
   "property": "C18",
   "status": "proved",
   "theorems": [
    "Verif.C18_lexical_error_sticks"
   ],
   "note": ""
  },
  {
   "property": "C19",
   "status": "proved",
   "theorems": [
    "Verif.C19_spaced_lexemes"
   ],
   "note": "also numbers and strings; kinds, texts and positions"
  },
  {
   "property": "C20",
   "status": "proved",
   "theorems": [
    "Verif.C20_continuation",
    "Verif.C20_bad_continuation",
    "Verif.C20_continuation_line_start"
   ],
   "note": ""
  },
  {
   "property": "C21",
   "status": "proved",
   "theorems": [
    "Verif.C21_comment",
    "Verif.C21_type_comment",
    "Verif.C21_type_comment_text"
   ],
   "note": ""
  },
  {
   "property": "C22",
   "status": "proved",
   "theorems": [
    "Verif.C22_whole_input_used"
   ],
   "note": "up to a NUL character, which the tokenizer takes for the end of the text"
  },
  {
   "property": "C23",
   "status": "proved",
   "theorems": [
    "Verif.C23_accepted_in_grammar",
    "Verif.C23_lambda_in_grammar",
    "Verif.C23_input_in_grammar",
    "Verif.C23_single_input_in_grammar",
    "Verif.C23_decorator_in_grammar",
    "Verif.C23_grammar_is_python",
    "Verif.C23_accepts_more"
   ],
   "note": "Grammar.lean states CPython 3.8's grammar; eight rules (listed in wider) accept more than Python, with witnesses in C23_accepts_more. Decorator and entry points have their own theorems because they leave their last token as current symbol."
  },
  {
   "property": "C24",
   "status": "proved",
   "theorems": [
    "Verif.C24_tree_holds_consumed_tokens",
    "Verif.C24_input_tokens",
    "Verif.C24_single_input_tokens",
    "Verif.C24_decorator_tokens"
   ],
   "note": "exact statement per group of parse functions: EOF (input rules) and the Newline after decorators and interactive compound statements are stored without being consumed"
  },
  {
   "property": "C25",
   "status": "partial",
   "theorems": [
    "Verif.C25_node_span_partial",
    "Verif.C25_node_end",
    "Verif.C25_nested",
    "Verif.C25_entry_starts_at_display",
    "Verif.C25_entry_start_wrong"
   ],
   "note": "Nesting and node ends are proved for every node of every tree; node starts for every node except the entries of dictionary and set displays, which the code starts at the display instead (proved, with a concrete counterexample)."
  },
  {
   "property": "C26",
   "status": "proved",
   "theorems": [
    "Verif.C26_precedence"
   ],
   "note": ""
  },
  {
   "property": "C27",
   "status": "proved",
   "theorems": [
    "Verif.C27_left_associative",
    "Verif.C27_right_associative"
   ],
   "note": ""
  },
  {
   "property": "C28",
   "status": "proved",
   "theorems": [
    "Verif.C28_complete",
    "Verif.C28_levels",
    "Verif.C28_unique"
   ],
   "note": ""
  },
  {
   "property": "C29",
   "status": "proved",
   "theorems": [
    "Verif.C29_roundtrip"
   ],
   "note": ""
  },
  {
   "property": "C30",
   "status": "partial",
   "theorems": [
    "Verif.C30_diverges_iff_import_partial",
    "Verif.C30_outcome_unique",
    "Verif.C30_states",
    "Verif.C30_terminates_partial",
    "Verif.C30_import_diverges",
    "Verif.C30_import_os_diverges"
   ],
   "note": "The property fails: import_stmt at an import token calls itself for ever (C30_import_diverges, C30_import_os_diverges). Proved: that is the only cause of non-termination (C30_diverges_iff_import_partial), so every parse of a text without the word import terminates."
  },
  {
   "property": "C31",
   "status": "partial",
   "theorems": [
    "Verif.C31_panics_iff_match_partial",
    "Verif.C31_match_calls",
    "Verif.C31_no_panic_partial",
    "Verif.C31_match_panics",
    "Verif.C31_match_assignment_panics"
   ],
   "note": "The property fails: a statement starting with the name match panics (C31_match_panics, C31_match_assignment_panics). Proved: that is the only panic (C31_panics_iff_match_partial, C31_match_calls), so no parse of a text without the word match panics."
  },
  {
   "property": "C32",
   "status": "proved",
   "theorems": [
    "Verif.C32_lexical_error_fails"
   ],
   "note": "for the input rules that run to the end of the text"
  },
  {
   "property": "C33",
   "status": "partial",
   "theorems": [
    "Verif.C33_for_accepted_partial",
    "Verif.C33_for_target",
    "Verif.C33_clause_target",
    "Verif.C33_plain_for_rejected"
   ],
   "note": "The property fails: the theorems prove, for all inputs, that a for statement or for clause with a plain target is never accepted, because the target rule reads 'x in y' as a comparison; accepted targets are starred or end in a comma or starred element. Every well formed for statement with a comma after its targets is accepted with the right tree (C33_for_accepted_partial)."
  },
  {
   "property": "C34",
   "status": "partial",
   "theorems": [
    "Verif.C34_empty_dict_rejected",
    "Verif.C34_third_entry_rejected",
    "Verif.C34_dict_size",
    "Verif.C34_displays_partial"
   ],
   "note": "The property fails in part: {} and dictionaries of three or more entries are proved to be rejected for all entries; sets of any size and dictionaries of one or two entries are proved to be accepted with the right tree."
  },
  {
   "property": "C35",
   "status": "partial",
   "theorems": [
    "Verif.C35_full_slice_partial",
    "Verif.C35_short_slice_rejected",
    "Verif.C35_any_token_as_colon"
   ],
   "note": "The property fails for a[i:j]: proved rejected for all parts; a[i:j:k], with any part missing, is proved accepted with the right tree; any token is proved to be accepted in place of the second colon."
  },
  {
   "property": "C36",
   "status": "partial",
   "theorems": [
    "Verif.C36_plain_def_accepted_partial",
    "Verif.C36_params_rejected",
    "Verif.C36_no_params"
   ],
   "note": "The property fails: proved that every function definition with a non-empty parameter list is rejected, and that every accepted definition has no parameters. Every well formed definition without parameters is accepted with the right tree (C36_plain_def_accepted_partial)."
  },
  {
   "property": "C37",
   "status": "partial",
   "theorems": [
    "Verif.C37_decorated_rejected",
    "Verif.C37_async_def_rejected",
    "Verif.C37_async_partial"
   ],
   "note": "The property fails: proved that no decorated definition and no async def is ever accepted; async with and async for are accepted when the statement after async is."
  },
  {
   "property": "C38",
   "status": "partial",
   "theorems": [
    "Verif.C38_uniform_accepted_partial",
    "Verif.C38_uniform_partial",
    "Verif.C38_mixed_accepted",
    "Verif.C38_other_kind_rejected",
    "Verif.C38_uniform_rejected",
    "Verif.C38_status_kept"
   ],
   "note": "Fails in the code when try statements are nested (C38_mixed_accepted, C38_uniform_rejected); proved for try statements whose clauses contain no try statement. Every try statement with clauses of one kind, also in its suites, is accepted with the right tree (C38_uniform_accepted_partial)."
  },
  {
   "property": "C39",
   "status": "proved",
   "theorems": [
    "Verif.C39_lists",
    "Verif.C39_lists_in_inputs"
   ],
   "note": ""
  },
  {
   "property": "C40",
   "status": "proved",
   "theorems": [
    "Verif.C40_success_is_local",
    "Verif.C40_failure_is_local"
   ],
   "note": "Success: same tree for every state that sees the consumed tokens and the symbol after them. Failure: the same error for every state that sees the symbols looked at."
  },
  {
   "property": "C41",
   "status": "proved",
   "theorems": [
    "Verif.C41_suite_shape",
    "Verif.C41_simple_stmt_newline"
   ],
   "note": "Both parts follow from C23."
  },
  {
   "property": "C42",
   "status": "proved",
   "theorems": [
    "Verif.C42_position_independent",
    "Verif.C42_stream_position_independent",
    "Verif.C42_suffix"
   ],
   "note": ""
  },
  {
   "property": "C43",
   "status": "partial",
   "theorems": [
    "Verif.C43_line_accepted_partial",
    "Verif.C43_text_accepted_partial",
    "Verif.C43_empty_line",
    "Verif.C43_one_line",
    "Verif.C43_empty_input_rejected",
    "Verif.C43_simple_accepted_partial",
    "Verif.C43_compound_rejected",
    "Verif.C43_if_rejected"
   ],
   "note": "Proved: an accepted input is exactly one simple statement line (or an empty line) and ends with its Newline; every well formed line of simple statements is accepted, from its tokens and from its text (C43_line_accepted_partial, C43_text_accepted_partial). Fails in the code: compound statements and an empty first line are never accepted (C43_compound_rejected, C43_empty_input_rejected)."
  },
  {
   "property": "C44",
   "status": "proved",
   "theorems": [
    "Verif.C44_tree_shape",
    "Verif.C44_lambda_shape",
    "Verif.C44_match_never_returns"
   ],
   "note": ""
  },
  {
   "property": "C45",
   "status": "partial",
   "theorems": [
    "Verif.C45_keyword_argument_rejected",
    "Verif.C45_starred_argument_rejected",
    "Verif.C45_positional_partial"
   ],
   "note": "The property fails for keyword and starred arguments (proved rejected for all of them); positional arguments are proved accepted with the right tree."
  },
  {
   "property": "C46",
   "status": "proved",
   "theorems": [
    "Verif.C46_no_two_newlines",
    "Verif.C46_no_newline_after_dedent",
    "Verif.C46_not_first"
   ],
   "note": ""
  },
  {
   "property": "C47",
   "status": "proved",
   "theorems": [
    "Verif.C47_statements",
    "Verif.C47_simple",
    "Verif.C47_files"
   ],
   "note": "For the statements listed in Spec/StmtAst; import, decorators, parameters, class bases, plain for targets and match are excluded because the code rejects them or does not return (C30, C31, C33, C36, C37)."
  },
  {
   "property": "C48",
   "status": "proved",
   "theorems": [
    "Verif.C48_roundtrip",
    "Verif.C48_unique"
   ],
   "note": "For the programs of C47."
  },
  {
   "property": "C49",
   "status": "partial",
   "theorems": [
    "Verif.C49_accepted_file_ends_with_line",
    "Verif.C49_unfinished_line_rejected",
    "Verif.C49_no_final_newline_rejected",
    "Verif.C49_newline_matters"
   ],
   "note": "The property fails: proved for all texts of lines that a file whose last line has no line end is never accepted, and that the last token before EOF of every accepted file is a Newline or Dedent. That texts with the final line end are accepted is C48."
  },
  {
   "property": "C50",
   "status": "proved",
   "theorems": [
    "Verif.C50_file_input_exact",
    "Verif.C50_eval_input_exact",
    "Verif.C50_func_type_input_exact",
    "Verif.C50_single_input_exact",
    "Verif.C50_accepted_iff_sentence",
    "Verif.C50_first_token",
    "Verif.C50_import_decorator_rejected"
   ],
   "note": "Soundness and completeness for all four entry points; C50_accepted_iff_sentence is the form for texts that the tokenizer reads to the end. The grammar Spec/Exact.lean was written for this parser; its relation to Python's grammar is C23 and C41."
  },
  {
   "property": "C51",
   "status": "proved",
   "theorems": [
    "Verif.C51_kinds_decide",
    "Verif.C51_match_differs"
   ],
   "note": "Follows from C50. C51_match_differs shows that the exception for the name match is needed."
  },
  {
   "property": "C52",
   "status": "proved",
   "theorems": [
    "Verif.C52_linear_work",
    "Verif.C52_linear_work_anywhere",
    "Verif.C52_linear_depth",
    "Verif.C52_depth_grows"
   ],
   "note": "Calls that never end because of an import token (C30) are excluded by the hypothesis that the run ends. In the model an iteration of a loop counts as a call."
  },
  {
   "property": "C53",
   "status": "proved",
   "theorems": [
    "Verif.C53_layout_anywhere",
    "Verif.C53_layout",
    "Verif.C53_form",
    "Verif.C53_texts_differ"
   ],
   "note": ""
  },
  {
   "property": "C54",
   "status": "proved",
   "theorems": [
    "Verif.C54_error_position",
    "Verif.C54_error_in_text"
   ],
   "note": ""
  },
  {
   "property": "C55",
   "status": "proved",
   "theorems": [
    "Verif.C55_next_symbol",
    "Verif.C55_error",
    "Verif.C55_unambiguous",
    "Verif.C55_symbols",
    "Verif.C55_accepted_texts"
   ],
   "note": ""
  },
  {
   "property": "C56",
   "status": "proved",
   "theorems": [
    "Verif.C56_symbols",
    "Verif.C56_gaps",
    "Verif.C56_accepted",
    "Verif.C56_zero_at_end"
   ],
   "note": ""
  },
  {
   "property": "C57",
   "status": "proved",
   "theorems": [
    "Verif.C57_file_structure",
    "Verif.C57_up_to_layout",
    "Verif.C57_up_to_layout_iff",
    "Verif.C57_parameter_lists",
    "Verif.C57_same_tree_same_symbols"
   ],
   "note": "C57_same_tree_same_symbols is the property in full. The version up to positions and trivia is proved for trees without parameter lists and type lists, as the property states; C57_parameter_lists shows that it fails with them."
  },
  {
   "property": "C58",
   "status": "proved",
   "theorems": [
    "Verif.C58_blocks_and_brackets_closed",
    "Verif.C58_unclosed_rejected",
    "Verif.C58_blank_last_line"
   ],
   "note": ""
  },
  {
   "property": "C59",
   "status": "proved",
   "theorems": [
    "Verif.C59_symbols_of_joined_texts",
    "Verif.C59_files_can_be_joined",
    "Verif.C59_blank_line_between",
    "Verif.C59_carriage_return_between"
   ],
   "note": ""
  },
  {
   "property": "C60",
   "status": "proved",
   "theorems": [
    "Verif.C60_symbols",
    "Verif.C60_blank_lines",
    "Verif.C60_accepted",
    "Verif.C60_before_block_end"
   ],
   "note": ""
  },
  {
   "property": "C61",
   "status": "proved",
   "theorems": [
    "Verif.C61_canonical_symbols",
    "Verif.C61_canonical_tree",
    "Verif.C61_canonical_accepted",
    "Verif.C61_canonical_idempotent",
    "Verif.C61_canonical_iff",
    "Verif.C61_tree_iff_text"
   ],
   "note": ""
  },
  {
   "property": "C62",
   "status": "proved",
   "theorems": [
    "Verif.C62_tree_of_joined_files",
    "Verif.C62_joined_files_only"
   ],
   "note": "C62_tree_of_joined_files: the joined text is accepted, with the statements of both; C62_joined_files_only: no other result is possible. The condition on the second text is needed (C59_blank_line_between)."
  },
  {
   "property": "C63",
   "status": "proved",
   "theorems": [
    "Verif.C63_tree_determines_text",
    "Verif.C63_not_recorded",
    "Verif.C63_lost"
   ],
   "note": "The conditions on the texts are part of the statement: C63_lost shows what is lost without them (the character after a carriage return and line feed, the text after a NUL)."
  },
  {
   "property": "C64",
   "status": "proved",
   "theorems": [
    "Verif.C64_pieces",
    "Verif.C64_local_edit"
   ],
   "note": ""
  },
  {
   "property": "C65",
   "status": "proved",
   "theorems": [
    "Verif.C65_accepted_iff_parts",
    "Verif.C65_statements_of_parts",
    "Verif.C65_else"
   ],
   "note": ""
  },
  {
   "property": "C66",
   "status": "partial",
   "theorems": [
    "Verif.C66_call_starts_afresh",
    "Verif.C66_session_lines_partial",
    "Verif.C66_symbol_lost",
    "Verif.C66_after_the_end"
   ],
   "note": "Violated: every entry point first drops the current symbol, which after an earlier call is the first symbol of the next line (C66_symbol_lost). Proved: a call depends only on the tokenizer state; successive calls return successive stretches of the text, each up to a line end, with exactly one symbol lost between them (C66_session_lines_partial); after a whole file, reading again gives an empty file."
  },
  {
   "property": "C67",
   "status": "proved",
   "theorems": [
    "Verif.C67_tree_size",
    "Verif.C67_tree_size_of_text"
   ],
   "note": ""
  },
  {
   "property": "C68",
   "status": "proved",
   "theorems": [
    "Verif.C68_number_replaced",
    "Verif.C68_exceptions"
   ],
   "note": "the three exceptions are proved by counterexamples"
  },
  {
   "property": "C69",
   "status": "proved",
   "theorems": [
    "Verif.C69_symbols",
    "Verif.C69_rename",
    "Verif.C69_accepted",
    "Verif.C69_exceptions"
   ],
   "note": ""
  },
  {
   "property": "C70",
   "status": "proved",
   "theorems": [
    "Verif.C70_symbols",
    "Verif.C70_number_replaced",
    "Verif.C70_carriage_return"
   ],
   "note": ""
  },
  {
   "property": "C71",
   "status": "proved",
   "theorems": [
    "Verif.C71_symbol",
    "Verif.C71_unread_text",
    "Verif.C71_accepted",
    "Verif.C71_not_repaired"
   ],
   "note": "The text after the place where the parser stopped, and three more characters, is arbitrary; so is the parse function."
  },
  {
   "property": "C72",
   "status": "proved",
   "theorems": [
    "Verif.C72_body_replaced",
    "Verif.C72_try_in_body",
    "Verif.C72_blank_last_line",
    "Verif.C72_tab_in_body"
   ],
   "note": "Acceptance; the trees are not compared. The conditions on the bodies (no try, last line with code, no tabs unless the column is a multiple of 4) are needed: for each there is a text that is no longer accepted."
  },
  {
   "property": "C73",
   "status": "proved",
   "theorems": [
    "Verif.C73_expression_tree",
    "Verif.C73_expression_is_program",
    "Verif.C73_expression_is_no_program",
    "Verif.C73_expression_is_program_iff",
    "Verif.C73_each_case",
    "Verif.C73_first_statement"
   ],
   "note": "The name match at the start is excluded in the acceptance theorem; there the outcome is a panic, which is proved as well (C73_expression_is_no_program)."
  },
  {
   "property": "C74",
   "status": "proved",
   "theorems": [
    "Verif.C74_only_the_number"
   ],
   "note": "Up to positions and trivia. The exceptions (a number after the end of an expression or after with, an expression that ends with a carriage return) are those of C68 and C70, shown there by counterexamples."
  },
  {
   "property": "C75",
   "status": "proved",
   "theorems": [
    "Verif.C75_expression_anywhere",
    "Verif.C75_form_anywhere"
   ],
   "note": "For successful results. Statements are not covered: they depend on the except status (C38)."
  },
  {
   "property": "C76",
   "status": "partial",
   "theorems": [
    "Verif.C76_messages_partial",
    "Verif.C76_one_meaning",
    "Verif.C76_misleading"
   ],
   "note": "Five of the 172 messages are wrong in the code: C76_misleading gives a text for each. All others are proved true for every run."
  },
  {
   "property": "C77",
   "status": "proved",
   "theorems": [
    "Verif.C77_statement_anywhere",
    "Verif.C77_statement_form_anywhere",
    "Verif.C77_except_anywhere"
   ],
   "note": ""
  },
  {
   "property": "C78",
   "status": "proved",
   "theorems": [
    "Verif.C78_only_the_body",
    "Verif.C78_only_the_body_result",
    "Verif.C78_only_the_body_text",
    "Verif.C78_string_moved"
   ],
   "note": "Stated on the symbols of the texts, so that it covers every way of writing the new body (any column, comments, line joining). Bodies with try are excluded: the except status leaks out of them (C72_try_in_body)."
  },
  {
   "property": "C79",
   "status": "partial",
   "theorems": [
    "Verif.C79_first_mistake_partial",
    "Verif.C79_prefix_completable_partial",
    "Verif.C79_plain_text_partial",
    "Verif.C79_stops_at_the_first_mistake_partial",
    "Verif.C79_empty_braces_read",
    "Verif.C79_decorator_read",
    "Verif.C79_mixed_handlers_read"
   ],
   "note": "Violated in three places, with a witness for each (C79_empty_braces_read, C79_decorator_read, C79_mixed_handlers_read). Proved: in all other cases what was read can be completed to a sentence of the exact grammar of C50, at the level of symbols, and no text with the same symbols up to the place of the error is accepted (C79_first_mistake_partial). Not proved: that the completing symbols can be written as a text."
  },
  {
   "property": "C80",
   "status": "proved",
   "theorems": [
    "Verif.C80_lookahead",
    "Verif.C80_lookahead_kinds",
    "Verif.C80_lookahead_call",
    "Verif.C80_error_stays"
   ],
   "note": ""
  },
  {
   "property": "C81",
   "status": "proved",
   "theorems": [
    "Verif.C81_assembled",
    "Verif.C81_any_order",
    "Verif.C81_left_out",
    "Verif.C81_accepted_iff",
    "Verif.C81_accepted_any_order"
   ],
   "note": ""
  },
  {
   "property": "C82",
   "status": "proved",
   "theorems": [
    "Verif.C82_moved",
    "Verif.C82_behind",
    "Verif.C82_same_symbol",
    "Verif.C82_same_token"
   ],
   "note": ""
  },
  {
   "property": "C83",
   "status": "proved",
   "theorems": [
    "Verif.C83_moved",
    "Verif.C83_behind",
    "Verif.C83_entry_moved",
    "Verif.C83_entry_behind",
    "Verif.C83_moved_any_status",
    "Verif.C83_entry_any_status",
    "Verif.C83_behind_any_status"
   ],
   "note": ""
  }
 ]
}