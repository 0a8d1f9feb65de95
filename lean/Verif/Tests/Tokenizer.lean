import Verif.Tests.Pat

/-!
# The unit tests of `tokenizer.rs`, run on the model (generated by `tools/conform.py`)
-/

namespace Verif

/-- `tokenizer.rs` `tokenizer_operator_or_delimiter_shift_left_assign` -/
example : lexes [] ['<', '<', '=']
    (.tok .PyShiftLeftAssign (some 0) (some 3) (some none) none none) = true := by decide +kernel

/-- `tokenizer.rs` `tokenizer_operator_or_delimiter_shift_left` -/
example : lexes [] ['<', '<']
    (.tok .PyShiftLeft (some 0) (some 2) (some none) none none) = true := by decide +kernel

/-- `tokenizer.rs` `tokenizer_operator_or_delimiter_less_equal` -/
example : lexes [] ['<', '=']
    (.tok .PyLessEqual (some 0) (some 2) (some none) none none) = true := by decide +kernel

/-- `tokenizer.rs` `tokenizer_operator_or_delimiter_not_equal` -/
example : lexes [] ['<', '>']
    (.tok .PyNotEqual (some 0) (some 2) (some none) none none) = true := by decide +kernel

/-- `tokenizer.rs` `tokenizer_operator_or_delimiter_less` -/
example : lexes [] ['<']
    (.tok .PyLess (some 0) (some 1) (some none) none none) = true := by decide +kernel

/-- `tokenizer.rs` `tokenizer_operator_or_delimiter_shift_right_assign` -/
example : lexes [] ['>', '>', '=']
    (.tok .PyShiftRightAssign (some 0) (some 3) (some none) none none) = true := by decide +kernel

/-- `tokenizer.rs` `tokenizer_operator_or_delimiter_shift_right` -/
example : lexes [] ['>', '>']
    (.tok .PyShiftRight (some 0) (some 2) (some none) none none) = true := by decide +kernel

/-- `tokenizer.rs` `tokenizer_operator_or_delimiter_greater_equal` -/
example : lexes [] ['>', '=']
    (.tok .PyGreaterEqual (some 0) (some 2) (some none) none none) = true := by decide +kernel

/-- `tokenizer.rs` `tokenizer_operator_or_delimiter_greater` -/
example : lexes [] ['>']
    (.tok .PyGreater (some 0) (some 1) (some none) none none) = true := by decide +kernel

/-- `tokenizer.rs` `tokenizer_operator_or_delimiter_power_assign` -/
example : lexes [] ['*', '*', '=']
    (.tok .PyPowerAssign (some 0) (some 3) (some none) none none) = true := by decide +kernel

/-- `tokenizer.rs` `tokenizer_operator_or_delimiter_power` -/
example : lexes [] ['*', '*']
    (.tok .PyPower (some 0) (some 2) (some none) none none) = true := by decide +kernel

/-- `tokenizer.rs` `tokenizer_operator_or_delimiter_mul_assign` -/
example : lexes [] ['*', '=']
    (.tok .PyMulAssign (some 0) (some 2) (some none) none none) = true := by decide +kernel

/-- `tokenizer.rs` `tokenizer_operator_or_delimiter_mul` -/
example : lexes [] ['*']
    (.tok .PyMul (some 0) (some 1) (some none) none none) = true := by decide +kernel

/-- `tokenizer.rs` `tokenizer_operator_or_delimiter_floor_div_assign` -/
example : lexes [] ['/', '/', '=']
    (.tok .PyFloorDivAssign (some 0) (some 3) (some none) none none) = true := by decide +kernel

/-- `tokenizer.rs` `tokenizer_operator_or_delimiter_floor_div` -/
example : lexes [] ['/', '/']
    (.tok .PyFloorDiv (some 0) (some 2) (some none) none none) = true := by decide +kernel

/-- `tokenizer.rs` `tokenizer_operator_or_delimiter_div_assign` -/
example : lexes [] ['/', '=']
    (.tok .PyDivAssign (some 0) (some 2) (some none) none none) = true := by decide +kernel

/-- `tokenizer.rs` `tokenizer_operator_or_delimiter_div` -/
example : lexes [] ['/']
    (.tok .PyDiv (some 0) (some 1) (some none) none none) = true := by decide +kernel

/-- `tokenizer.rs` `tokenizer_operator_or_delimiter_ellipsis` -/
example : lexes [] ['.', '.', '.']
    (.tok .PyElipsis (some 0) (some 3) (some none) none none) = true := by decide +kernel

/-- `tokenizer.rs` `tokenizer_operator_or_delimiter_dot` -/
example : lexes [] ['.']
    (.tok .PyDot (some 0) (some 1) (some none) none none) = true := by decide +kernel

/-- `tokenizer.rs` `tokenizer_operator_or_delimiter_plus_assign` -/
example : lexes [] ['+', '=']
    (.tok .PyPlusAssign (some 0) (some 2) (some none) none none) = true := by decide +kernel

/-- `tokenizer.rs` `tokenizer_operator_or_delimiter_plus` -/
example : lexes [] ['+']
    (.tok .PyPlus (some 0) (some 1) (some none) none none) = true := by decide +kernel

/-- `tokenizer.rs` `tokenizer_operator_or_delimiter_minus_assign` -/
example : lexes [] ['-', '=']
    (.tok .PyMinusAssign (some 0) (some 2) (some none) none none) = true := by decide +kernel

/-- `tokenizer.rs` `tokenizer_operator_or_delimiter_arrow` -/
example : lexes [] ['-', '>']
    (.tok .PyArrow (some 0) (some 2) (some none) none none) = true := by decide +kernel

/-- `tokenizer.rs` `tokenizer_operator_or_delimiter_minus` -/
example : lexes [] ['-']
    (.tok .PyMinus (some 0) (some 1) (some none) none none) = true := by decide +kernel

/-- `tokenizer.rs` `tokenizer_operator_or_delimiter_modulo_assign` -/
example : lexes [] ['%', '=']
    (.tok .PyModuloAssign (some 0) (some 2) (some none) none none) = true := by decide +kernel

/-- `tokenizer.rs` `tokenizer_operator_or_delimiter_modulo` -/
example : lexes [] ['%']
    (.tok .PyModulo (some 0) (some 1) (some none) none none) = true := by decide +kernel

/-- `tokenizer.rs` `tokenizer_operator_or_delimiter_colon_assign` -/
example : lexes [] [':', '=']
    (.tok .PyColonAssign (some 0) (some 2) (some none) none none) = true := by decide +kernel

/-- `tokenizer.rs` `tokenizer_operator_or_delimiter_colon` -/
example : lexes [] [':']
    (.tok .PyColon (some 0) (some 1) (some none) none none) = true := by decide +kernel

/-- `tokenizer.rs` `tokenizer_operator_or_delimiter_bit_and_assign` -/
example : lexes [] ['&', '=']
    (.tok .PyBitAndAssign (some 0) (some 2) (some none) none none) = true := by decide +kernel

/-- `tokenizer.rs` `tokenizer_operator_or_delimiter_bit_and` -/
example : lexes [] ['&']
    (.tok .PyBitAnd (some 0) (some 1) (some none) none none) = true := by decide +kernel

/-- `tokenizer.rs` `tokenizer_operator_or_delimiter_bit_or_assign` -/
example : lexes [] ['|', '=']
    (.tok .PyBitOrAssign (some 0) (some 2) (some none) none none) = true := by decide +kernel

/-- `tokenizer.rs` `tokenizer_operator_or_delimiter_bit_or` -/
example : lexes [] ['|']
    (.tok .PyBitOr (some 0) (some 1) (some none) none none) = true := by decide +kernel

/-- `tokenizer.rs` `tokenizer_operator_or_delimiter_bit_xor_assign` -/
example : lexes [] ['^', '=']
    (.tok .PyBitXorAssign (some 0) (some 2) (some none) none none) = true := by decide +kernel

/-- `tokenizer.rs` `tokenizer_operator_or_delimiter_bit_xor` -/
example : lexes [] ['^']
    (.tok .PyBitXor (some 0) (some 1) (some none) none none) = true := by decide +kernel

/-- `tokenizer.rs` `tokenizer_operator_or_delimiter_bit_matrices_assign` -/
example : lexes [] ['@', '=']
    (.tok .PyMatriceAssign (some 0) (some 2) (some none) none none) = true := by decide +kernel

/-- `tokenizer.rs` `tokenizer_operator_or_delimiter_matrices` -/
example : lexes [] ['@']
    (.tok .PyMatrice (some 0) (some 1) (some none) none none) = true := by decide +kernel

/-- `tokenizer.rs` `tokenizer_operator_or_delimiter_assign` -/
example : lexes [] ['=', '=']
    (.tok .PyEqual (some 0) (some 2) (some none) none none) = true := by decide +kernel

/-- `tokenizer.rs` `tokenizer_operator_or_delimiter_not_equal_default` -/
example : lexes [] ['!', '=']
    (.tok .PyNotEqual (some 0) (some 2) (some none) none none) = true := by decide +kernel

/-- `tokenizer.rs` `tokenizer_operator_or_delimiter_equal` -/
example : lexes [] ['=']
    (.tok .PyAssign (some 0) (some 1) (some none) none none) = true := by decide +kernel

/-- `tokenizer.rs` `tokenizer_operator_or_delimiter_semicolon` -/
example : lexes [] [';']
    (.tok .PySemiColon (some 0) (some 1) (some none) none none) = true := by decide +kernel

/-- `tokenizer.rs` `tokenizer_operator_or_delimiter_comma` -/
example : lexes [] [',']
    (.tok .PyComa (some 0) (some 1) (some none) none none) = true := by decide +kernel

/-- `tokenizer.rs` `tokenizer_operator_or_delimiter_left_paren` -/
example : lexes [] ['(']
    (.tok .PyLeftParen (some 0) (some 1) (some none) none none) = true := by decide +kernel

/-- `tokenizer.rs` `tokenizer_operator_or_delimiter_left_bracket` -/
example : lexes [] ['[']
    (.tok .PyLeftBracket (some 0) (some 1) (some none) none none) = true := by decide +kernel

/-- `tokenizer.rs` `tokenizer_operator_or_delimiter_left_curly` -/
example : lexes [] ['{']
    (.tok .PyLeftCurly (some 0) (some 1) (some none) none none) = true := by decide +kernel

/-- `tokenizer.rs` `tokenizer_operator_or_delimiter_right_paren` -/
example : lexes [')'] [')']
    (.tok .PyRightParen (some 0) (some 1) (some none) none none) = true := by decide +kernel

/-- `tokenizer.rs` `tokenizer_operator_or_delimiter_right_paren_failing` -/
example : lexes [] [')']
    .any = false := by decide +kernel

/-- `tokenizer.rs` `tokenizer_operator_or_delimiter_right_bracket` -/
example : lexes [']'] [']']
    (.tok .PyRightBracket (some 0) (some 1) (some none) none none) = true := by decide +kernel

/-- `tokenizer.rs` `tokenizer_operator_or_delimiter_right_bracket_failing` -/
example : lexes [] [']']
    .any = false := by decide +kernel

/-- `tokenizer.rs` `tokenizer_operator_or_delimiter_right_curly` -/
example : lexes ['}'] ['}']
    (.tok .PyRightCurly (some 0) (some 1) (some none) none none) = true := by decide +kernel

/-- `tokenizer.rs` `tokenizer_operator_or_delimiter_right_bracket_curly` -/
example : lexes [] ['}']
    .any = false := by decide +kernel

/-- `tokenizer.rs` `tokenizer_reserved_keyword_false` -/
example : lexes [] ['F', 'a', 'l', 's', 'e']
    (.tok .PyFalse (some 0) (some 5) (some none) none none) = true := by decide +kernel

/-- `tokenizer.rs` `tokenizer_reserved_keyword_none` -/
example : lexes [] ['N', 'o', 'n', 'e']
    (.tok .PyNone (some 0) (some 4) (some none) none none) = true := by decide +kernel

/-- `tokenizer.rs` `tokenizer_reserved_keyword_true` -/
example : lexes [] ['T', 'r', 'u', 'e']
    (.tok .PyTrue (some 0) (some 4) (some none) none none) = true := by decide +kernel

/-- `tokenizer.rs` `tokenizer_reserved_keyword_and` -/
example : lexes [] ['a', 'n', 'd']
    (.tok .PyAnd (some 0) (some 3) (some none) none none) = true := by decide +kernel

/-- `tokenizer.rs` `tokenizer_reserved_keyword_as` -/
example : lexes [] ['a', 's']
    (.tok .PyAs (some 0) (some 2) (some none) none none) = true := by decide +kernel

/-- `tokenizer.rs` `tokenizer_reserved_keyword_assert` -/
example : lexes [] ['a', 's', 's', 'e', 'r', 't']
    (.tok .PyAssert (some 0) (some 6) (some none) none none) = true := by decide +kernel

/-- `tokenizer.rs` `tokenizer_reserved_keyword_async` -/
example : lexes [] ['a', 's', 'y', 'n', 'c']
    (.tok .PyAsync (some 0) (some 5) (some none) none none) = true := by decide +kernel

/-- `tokenizer.rs` `tokenizer_reserved_keyword_await` -/
example : lexes [] ['a', 'w', 'a', 'i', 't']
    (.tok .PyAwait (some 0) (some 5) (some none) none none) = true := by decide +kernel

/-- `tokenizer.rs` `tokenizer_reserved_keyword_break` -/
example : lexes [] ['b', 'r', 'e', 'a', 'k']
    (.tok .PyBreak (some 0) (some 5) (some none) none none) = true := by decide +kernel

/-- `tokenizer.rs` `tokenizer_reserved_keyword_class` -/
example : lexes [] ['c', 'l', 'a', 's', 's']
    (.tok .PyClass (some 0) (some 5) (some none) none none) = true := by decide +kernel

/-- `tokenizer.rs` `tokenizer_reserved_keyword_continue` -/
example : lexes [] ['c', 'o', 'n', 't', 'i', 'n', 'u', 'e']
    (.tok .PyContinue (some 0) (some 8) (some none) none none) = true := by decide +kernel

/-- `tokenizer.rs` `tokenizer_reserved_keyword_def` -/
example : lexes [] ['d', 'e', 'f']
    (.tok .PyDef (some 0) (some 3) (some none) none none) = true := by decide +kernel

/-- `tokenizer.rs` `tokenizer_reserved_keyword_del` -/
example : lexes [] ['d', 'e', 'l']
    (.tok .PyDel (some 0) (some 3) (some none) none none) = true := by decide +kernel

/-- `tokenizer.rs` `tokenizer_reserved_keyword_elif` -/
example : lexes [] ['e', 'l', 'i', 'f']
    (.tok .PyElif (some 0) (some 4) (some none) none none) = true := by decide +kernel

/-- `tokenizer.rs` `tokenizer_reserved_keyword_else` -/
example : lexes [] ['e', 'l', 's', 'e']
    (.tok .PyElse (some 0) (some 4) (some none) none none) = true := by decide +kernel

/-- `tokenizer.rs` `tokenizer_reserved_keyword_except` -/
example : lexes [] ['e', 'x', 'c', 'e', 'p', 't']
    (.tok .PyExcept (some 0) (some 6) (some none) none none) = true := by decide +kernel

/-- `tokenizer.rs` `tokenizer_reserved_keyword_finally` -/
example : lexes [] ['f', 'i', 'n', 'a', 'l', 'l', 'y']
    (.tok .PyFinally (some 0) (some 7) (some none) none none) = true := by decide +kernel

/-- `tokenizer.rs` `tokenizer_reserved_keyword_for` -/
example : lexes [] ['f', 'o', 'r']
    (.tok .PyFor (some 0) (some 3) (some none) none none) = true := by decide +kernel

/-- `tokenizer.rs` `tokenizer_reserved_keyword_from` -/
example : lexes [] ['f', 'r', 'o', 'm']
    (.tok .PyFrom (some 0) (some 4) (some none) none none) = true := by decide +kernel

/-- `tokenizer.rs` `tokenizer_reserved_keyword_global` -/
example : lexes [] ['g', 'l', 'o', 'b', 'a', 'l']
    (.tok .PyGlobal (some 0) (some 6) (some none) none none) = true := by decide +kernel

/-- `tokenizer.rs` `tokenizer_reserved_keyword_if` -/
example : lexes [] ['i', 'f']
    (.tok .PyIf (some 0) (some 2) (some none) none none) = true := by decide +kernel

/-- `tokenizer.rs` `tokenizer_reserved_keyword_import` -/
example : lexes [] ['i', 'm', 'p', 'o', 'r', 't']
    (.tok .PyImport (some 0) (some 6) (some none) none none) = true := by decide +kernel

/-- `tokenizer.rs` `tokenizer_reserved_keyword_in` -/
example : lexes [] ['i', 'n']
    (.tok .PyIn (some 0) (some 2) (some none) none none) = true := by decide +kernel

/-- `tokenizer.rs` `tokenizer_reserved_keyword_is` -/
example : lexes [] ['i', 's']
    (.tok .PyIs (some 0) (some 2) (some none) none none) = true := by decide +kernel

/-- `tokenizer.rs` `tokenizer_reserved_keyword_lambda` -/
example : lexes [] ['l', 'a', 'm', 'b', 'd', 'a']
    (.tok .PyLambda (some 0) (some 6) (some none) none none) = true := by decide +kernel

/-- `tokenizer.rs` `tokenizer_reserved_keyword_nonlocal` -/
example : lexes [] ['n', 'o', 'n', 'l', 'o', 'c', 'a', 'l']
    (.tok .PyNonLocal (some 0) (some 8) (some none) none none) = true := by decide +kernel

/-- `tokenizer.rs` `tokenizer_reserved_keyword_not` -/
example : lexes [] ['n', 'o', 't']
    (.tok .PyNot (some 0) (some 3) (some none) none none) = true := by decide +kernel

/-- `tokenizer.rs` `tokenizer_reserved_keyword_or` -/
example : lexes [] ['o', 'r']
    (.tok .PyOr (some 0) (some 2) (some none) none none) = true := by decide +kernel

/-- `tokenizer.rs` `tokenizer_reserved_keyword_pass` -/
example : lexes [] ['p', 'a', 's', 's']
    (.tok .PyPass (some 0) (some 4) (some none) none none) = true := by decide +kernel

/-- `tokenizer.rs` `tokenizer_reserved_keyword_raise` -/
example : lexes [] ['r', 'a', 'i', 's', 'e']
    (.tok .PyRaise (some 0) (some 5) (some none) none none) = true := by decide +kernel

/-- `tokenizer.rs` `tokenizer_reserved_keyword_return` -/
example : lexes [] ['r', 'e', 't', 'u', 'r', 'n']
    (.tok .PyReturn (some 0) (some 6) (some none) none none) = true := by decide +kernel

/-- `tokenizer.rs` `tokenizer_reserved_keyword_try` -/
example : lexes [] ['t', 'r', 'y']
    (.tok .PyTry (some 0) (some 3) (some none) none none) = true := by decide +kernel

/-- `tokenizer.rs` `tokenizer_reserved_keyword_while` -/
example : lexes [] ['w', 'h', 'i', 'l', 'e']
    (.tok .PyWhile (some 0) (some 5) (some none) none none) = true := by decide +kernel

/-- `tokenizer.rs` `tokenizer_reserved_keyword_with` -/
example : lexes [] ['w', 'i', 't', 'h']
    (.tok .PyWith (some 0) (some 4) (some none) none none) = true := by decide +kernel

/-- `tokenizer.rs` `tokenizer_reserved_keyword_yield` -/
example : lexes [] ['y', 'i', 'e', 'l', 'd']
    (.tok .PyYield (some 0) (some 5) (some none) none none) = true := by decide +kernel

/-- `tokenizer.rs` `tokenizer_literal_name_1` -/
example : lexes [] ['_', '_', 'i', 'n', 'i', 't', '_', '_']
    (.tok .AtomName (some 0) (some 8) (some none) (some ['_', '_', 'i', 'n', 'i', 't', '_', '_']) none) = true := by decide +kernel

/-- `tokenizer.rs` `tokenizer_literal_name_2` -/
example : lexes [] ['r', 'f']
    (.tok .AtomName (some 0) (some 2) (some none) (some ['r', 'f']) none) = true := by decide +kernel

/-- `tokenizer.rs` `tokenizer_literal_name_3` -/
example : lexes [] ['T', '3', 'e', 's', 't']
    (.tok .AtomName (some 0) (some 5) (some none) (some ['T', '3', 'e', 's', 't']) none) = true := by decide +kernel

/-- `tokenizer.rs` `tokenizer_literal_hex_number_1` -/
example : lexes [] ['0', 'x', 'a', 'f', '1', '0']
    (.tok .AtomNumber (some 0) (some 6) (some none) (some ['0', 'x', 'a', 'f', '1', '0']) none) = true := by decide +kernel

/-- `tokenizer.rs` `tokenizer_literal_hex_number_2` -/
example : lexes [] ['0', 'x', 'A', 'F', '1', '0']
    (.tok .AtomNumber (some 0) (some 6) (some none) (some ['0', 'x', 'A', 'F', '1', '0']) none) = true := by decide +kernel

/-- `tokenizer.rs` `tokenizer_literal_hex_number_3` -/
example : lexes [] ['0', 'x', '_', 'a', 'f', '_', '1', '0']
    (.tok .AtomNumber (some 0) (some 8) (some none) (some ['0', 'x', '_', 'a', 'f', '_', '1', '0']) none) = true := by decide +kernel

/-- `tokenizer.rs` `tokenizer_literal_octet_number_1` -/
example : lexes [] ['0', 'o', '7', '5', '5']
    (.tok .AtomNumber (some 0) (some 5) (some none) (some ['0', 'o', '7', '5', '5']) none) = true := by decide +kernel

/-- `tokenizer.rs` `tokenizer_literal_octet_number_2` -/
example : lexes [] ['0', 'O', '7', '5', '5']
    (.tok .AtomNumber (some 0) (some 5) (some none) (some ['0', 'O', '7', '5', '5']) none) = true := by decide +kernel

/-- `tokenizer.rs` `tokenizer_literal_octet_number_3` -/
example : lexes [] ['0', 'O', '_', '7', '_', '5', '_', '5']
    (.tok .AtomNumber (some 0) (some 8) (some none) (some ['0', 'O', '_', '7', '_', '5', '_', '5']) none) = true := by decide +kernel

/-- `tokenizer.rs` `tokenizer_literal_binary_number_1` -/
example : lexes [] ['0', 'b', '1', '1', '1']
    (.tok .AtomNumber (some 0) (some 5) (some none) (some ['0', 'b', '1', '1', '1']) none) = true := by decide +kernel

/-- `tokenizer.rs` `tokenizer_literal_binary_number_2` -/
example : lexes [] ['0', 'B', '1', '1', '1']
    (.tok .AtomNumber (some 0) (some 5) (some none) (some ['0', 'B', '1', '1', '1']) none) = true := by decide +kernel

/-- `tokenizer.rs` `tokenizer_literal_binary_number_3` -/
example : lexes [] ['0', 'b', '_', '1', '_', '0', '_', '1']
    (.tok .AtomNumber (some 0) (some 8) (some none) (some ['0', 'b', '_', '1', '_', '0', '_', '1']) none) = true := by decide +kernel

/-- `tokenizer.rs` `tokenizer_literal_dot_digits_number_1` -/
example : lexes [] ['.', '0']
    (.tok .AtomNumber (some 0) (some 2) (some none) (some ['.', '0']) none) = true := by decide +kernel

/-- `tokenizer.rs` `tokenizer_literal_dot_digits_number_2` -/
example : lexes [] ['.', '0', '_', '0', '_', '1']
    (.tok .AtomNumber (some 0) (some 6) (some none) (some ['.', '0', '_', '0', '_', '1']) none) = true := by decide +kernel

/-- `tokenizer.rs` `tokenizer_literal_dot_digits_number_3` -/
example : lexes [] ['.', '0', '_', '0', '_', '1', 'e', '3', '_', '4']
    (.tok .AtomNumber (some 0) (some 10) (some none) (some ['.', '0', '_', '0', '_', '1', 'e', '3', '_', '4']) none) = true := by decide +kernel

/-- `tokenizer.rs` `tokenizer_literal_dot_digits_number_4` -/
example : lexes [] ['.', '0', '_', '0', '_', '1', 'e', '-', '3', '_', '4']
    (.tok .AtomNumber (some 0) (some 11) (some none) (some ['.', '0', '_', '0', '_', '1', 'e', '-', '3', '_', '4']) none) = true := by decide +kernel

/-- `tokenizer.rs` `tokenizer_literal_dot_digits_number_5` -/
example : lexes [] ['.', '0', '_', '0', '_', '1', 'e', '+', '3', '_', '4']
    (.tok .AtomNumber (some 0) (some 11) (some none) (some ['.', '0', '_', '0', '_', '1', 'e', '+', '3', '_', '4']) none) = true := by decide +kernel

/-- `tokenizer.rs` `tokenizer_literal_dot_digits_number_6` -/
example : lexes [] ['.', '0', '_', '0', '_', '1', 'e', '+', '3', '_', '4', 'j']
    (.tok .AtomNumber (some 0) (some 12) (some none) (some ['.', '0', '_', '0', '_', '1', 'e', '+', '3', '_', '4', 'j']) none) = true := by decide +kernel

/-- `tokenizer.rs` `tokenizer_literal_dot_digits_number_7` -/
example : lexes [] ['.', '0', '_', '0', '_', '1', 'E', '3', '_', '4']
    (.tok .AtomNumber (some 0) (some 10) (some none) (some ['.', '0', '_', '0', '_', '1', 'E', '3', '_', '4']) none) = true := by decide +kernel

/-- `tokenizer.rs` `tokenizer_literal_dot_digits_number_8` -/
example : lexes [] ['.', '0', '_', '0', '_', '1', 'E', '-', '3', '_', '4']
    (.tok .AtomNumber (some 0) (some 11) (some none) (some ['.', '0', '_', '0', '_', '1', 'E', '-', '3', '_', '4']) none) = true := by decide +kernel

/-- `tokenizer.rs` `tokenizer_literal_dot_digits_number_9` -/
example : lexes [] ['.', '0', '_', '0', '_', '1', 'E', '+', '3', '_', '4']
    (.tok .AtomNumber (some 0) (some 11) (some none) (some ['.', '0', '_', '0', '_', '1', 'E', '+', '3', '_', '4']) none) = true := by decide +kernel

/-- `tokenizer.rs` `tokenizer_literal_dot_digits_number_10` -/
example : lexes [] ['.', '0', '_', '0', '_', '1', 'E', '+', '3', '_', '4', 'J']
    (.tok .AtomNumber (some 0) (some 12) (some none) (some ['.', '0', '_', '0', '_', '1', 'E', '+', '3', '_', '4', 'J']) none) = true := by decide +kernel

/-- `tokenizer.rs` `tokenizer_literal_dot_digits_number_11` -/
example : lexes [] ['.', '0', '0', '1', 'E', '+', '3', '4', 'J']
    (.tok .AtomNumber (some 0) (some 9) (some none) (some ['.', '0', '0', '1', 'E', '+', '3', '4', 'J']) none) = true := by decide +kernel

/-- `tokenizer.rs` `tokenizer_literal_dot_digits_number_12` -/
example : lexes [] ['.', '0', 'J']
    (.tok .AtomNumber (some 0) (some 3) (some none) (some ['.', '0', 'J']) none) = true := by decide +kernel

/-- `tokenizer.rs` `tokenizer_literal_dot_digits_number_13` -/
example : lexes [] ['.', '0', 'j']
    (.tok .AtomNumber (some 0) (some 3) (some none) (some ['.', '0', 'j']) none) = true := by decide +kernel

/-- `tokenizer.rs` `tokenizer_literal_nonzero_digits_number_1` -/
example : lexes [] ['1', '2']
    (.tok .AtomNumber (some 0) (some 2) (some none) (some ['1', '2']) none) = true := by decide +kernel

/-- `tokenizer.rs` `tokenizer_literal_nonzero_digits_number_2` -/
example : lexes [] ['1', '2', '.']
    (.tok .AtomNumber (some 0) (some 3) (some none) (some ['1', '2', '.']) none) = true := by decide +kernel

/-- `tokenizer.rs` `tokenizer_literal_nonzero_digits_number_3` -/
example : lexes [] ['1', '2', 'e', '3']
    (.tok .AtomNumber (some 0) (some 4) (some none) (some ['1', '2', 'e', '3']) none) = true := by decide +kernel

/-- `tokenizer.rs` `tokenizer_literal_nonzero_digits_number_4` -/
example : lexes [] ['1', '2', 'e', '-', '3']
    (.tok .AtomNumber (some 0) (some 5) (some none) (some ['1', '2', 'e', '-', '3']) none) = true := by decide +kernel

/-- `tokenizer.rs` `tokenizer_literal_nonzero_digits_number_5` -/
example : lexes [] ['1', '2', 'e', '+', '3']
    (.tok .AtomNumber (some 0) (some 5) (some none) (some ['1', '2', 'e', '+', '3']) none) = true := by decide +kernel

/-- `tokenizer.rs` `tokenizer_literal_nonzero_digits_number_6` -/
example : lexes [] ['1', '2', 'e', '+', '3', 'j']
    (.tok .AtomNumber (some 0) (some 6) (some none) (some ['1', '2', 'e', '+', '3', 'j']) none) = true := by decide +kernel

/-- `tokenizer.rs` `tokenizer_literal_nonzero_digits_number_7` -/
example : lexes [] ['1', '2', 'e', '+', '3', 'J']
    (.tok .AtomNumber (some 0) (some 6) (some none) (some ['1', '2', 'e', '+', '3', 'J']) none) = true := by decide +kernel

/-- `tokenizer.rs` `tokenizer_literal_nonzero_digits_number_8` -/
example : lexes [] ['1', '_', '2', 'e', '+', '3', '_', '4', 'J']
    (.tok .AtomNumber (some 0) (some 9) (some none) (some ['1', '_', '2', 'e', '+', '3', '_', '4', 'J']) none) = true := by decide +kernel

/-- `tokenizer.rs` `tokenizer_literal_nonzero_digits_number_9` -/
example : lexes [] ['1', '.', '2', 'e', '+', '3', '_', '4', 'J']
    (.tok .AtomNumber (some 0) (some 9) (some none) (some ['1', '.', '2', 'e', '+', '3', '_', '4', 'J']) none) = true := by decide +kernel

/-- `tokenizer.rs` `tokenizer_literal_nonzero_digits_number_10` -/
example : lexes [] ['1', '.', '2', 'e', '+', '3', '_', '4']
    (.tok .AtomNumber (some 0) (some 8) (some none) (some ['1', '.', '2', 'e', '+', '3', '_', '4']) none) = true := by decide +kernel

/-- `tokenizer.rs` `tokenizer_literal_nonzero_digits_number_11` -/
example : lexes [] ['1', '.', '2', 'e', '+', '3']
    (.tok .AtomNumber (some 0) (some 6) (some none) (some ['1', '.', '2', 'e', '+', '3']) none) = true := by decide +kernel

/-- `tokenizer.rs` `tokenizer_literal_nonzero_digits_number_12` -/
example : lexes [] ['1', '.', '2']
    (.tok .AtomNumber (some 0) (some 3) (some none) (some ['1', '.', '2']) none) = true := by decide +kernel

/-- `tokenizer.rs` `tokenizer_literal_string_empty_1` -/
example : lexes [] ['"', '"']
    (.tok .AtomString (some 0) (some 2) (some none) (some ['"', '"']) none) = true := by decide +kernel

/-- `tokenizer.rs` `tokenizer_literal_string_empty_2` -/
example : lexes [] ['\'', '\'']
    (.tok .AtomString (some 0) (some 2) (some none) (some ['\'', '\'']) none) = true := by decide +kernel

/-- `tokenizer.rs` `tokenizer_literal_string_empty_3` -/
example : lexes [] ['r', '\'', '\'']
    (.tok .AtomString (some 0) (some 3) (some none) (some ['\'', '\'']) (some ['r'])) = true := by decide +kernel

/-- `tokenizer.rs` `tokenizer_literal_string_empty_4` -/
example : lexes [] ['r', '"', '"']
    (.tok .AtomString (some 0) (some 3) (some none) (some ['"', '"']) (some ['r'])) = true := by decide +kernel

/-- `tokenizer.rs` `tokenizer_literal_string_empty_5` -/
example : lexes [] ['R', '"', '"']
    (.tok .AtomString (some 0) (some 3) (some none) (some ['"', '"']) (some ['R'])) = true := by decide +kernel

/-- `tokenizer.rs` `tokenizer_literal_string_empty_6` -/
example : lexes [] ['u', '"', '"']
    (.tok .AtomString (some 0) (some 3) (some none) (some ['"', '"']) (some ['u'])) = true := by decide +kernel

/-- `tokenizer.rs` `tokenizer_literal_string_empty_7` -/
example : lexes [] ['U', '"', '"']
    (.tok .AtomString (some 0) (some 3) (some none) (some ['"', '"']) (some ['U'])) = true := by decide +kernel

/-- `tokenizer.rs` `tokenizer_literal_string_empty_8` -/
example : lexes [] ['f', '"', '"']
    (.tok .AtomString (some 0) (some 3) (some none) (some ['"', '"']) (some ['f'])) = true := by decide +kernel

/-- `tokenizer.rs` `tokenizer_literal_string_empty_9` -/
example : lexes [] ['F', '"', '"']
    (.tok .AtomString (some 0) (some 3) (some none) (some ['"', '"']) (some ['F'])) = true := by decide +kernel

/-- `tokenizer.rs` `tokenizer_literal_string_empty_10` -/
example : lexes [] ['f', 'r', '"', '"']
    (.tok .AtomString (some 0) (some 4) (some none) (some ['"', '"']) (some ['f', 'r'])) = true := by decide +kernel

/-- `tokenizer.rs` `tokenizer_literal_string_empty_11` -/
example : lexes [] ['F', 'r', '"', '"']
    (.tok .AtomString (some 0) (some 4) (some none) (some ['"', '"']) (some ['F', 'r'])) = true := by decide +kernel

/-- `tokenizer.rs` `tokenizer_literal_string_empty_12` -/
example : lexes [] ['f', 'R', '"', '"']
    (.tok .AtomString (some 0) (some 4) (some none) (some ['"', '"']) (some ['f', 'R'])) = true := by decide +kernel

/-- `tokenizer.rs` `tokenizer_literal_string_empty_13` -/
example : lexes [] ['F', 'R', '"', '"']
    (.tok .AtomString (some 0) (some 4) (some none) (some ['"', '"']) (some ['F', 'R'])) = true := by decide +kernel

/-- `tokenizer.rs` `tokenizer_literal_string_empty_14` -/
example : lexes [] ['r', 'f', '"', '"']
    (.tok .AtomString (some 0) (some 4) (some none) (some ['"', '"']) (some ['r', 'f'])) = true := by decide +kernel

/-- `tokenizer.rs` `tokenizer_literal_string_empty_15` -/
example : lexes [] ['r', 'F', '"', '"']
    (.tok .AtomString (some 0) (some 4) (some none) (some ['"', '"']) (some ['r', 'F'])) = true := by decide +kernel

/-- `tokenizer.rs` `tokenizer_literal_string_empty_16` -/
example : lexes [] ['R', 'f', '"', '"']
    (.tok .AtomString (some 0) (some 4) (some none) (some ['"', '"']) (some ['R', 'f'])) = true := by decide +kernel

/-- `tokenizer.rs` `tokenizer_literal_string_empty_17` -/
example : lexes [] ['R', 'F', '"', '"']
    (.tok .AtomString (some 0) (some 4) (some none) (some ['"', '"']) (some ['R', 'F'])) = true := by decide +kernel

/-- `tokenizer.rs` `tokenizer_literal_string_triple_empty_1` -/
example : lexes [] ['R', 'F', '"', '"', '"', '"', '"', '"']
    (.tok .AtomString (some 0) (some 8) (some none) (some ['"', '"', '"', '"', '"', '"']) (some ['R', 'F'])) = true := by decide +kernel

/-- `tokenizer.rs` `tokenizer_literal_string_triple_empty_2` -/
example : lexes [] ['R', 'F', '\'', '\'', '\'', '\'', '\'', '\'']
    (.tok .AtomString (some 0) (some 8) (some none) (some ['\'', '\'', '\'', '\'', '\'', '\'']) (some ['R', 'F'])) = true := by decide +kernel

/-- `tokenizer.rs` `tokenizer_literal_string_triple_1` -/
example : lexes [] ['R', 'F', '\'', '\'', '\'', 'H', 'e', 'l', 'l', 'o', ',', ' ', 'W', 'o', 'r', 'l', 'd', '!', '\'', '\'', '\'']
    (.tok .AtomString (some 0) (some 21) (some none) (some ['\'', '\'', '\'', 'H', 'e', 'l', 'l', 'o', ',', ' ', 'W', 'o', 'r', 'l', 'd', '!', '\'', '\'', '\'']) (some ['R', 'F'])) = true := by decide +kernel

/-- `tokenizer.rs` `tokenizer_literal_string_triple_2` -/
example : lexes [] ['R', 'F', '\'', '\'', '\'', 'H', 'e', 'l', 'l', 'o', ',', '\r', '\n', ' ', 'W', 'o', 'r', 'l', 'd', '!', '\'', '\'', '\'']
    (.tok .AtomString (some 0) (some 23) (some none) (some ['\'', '\'', '\'', 'H', 'e', 'l', 'l', 'o', ',', '\r', '\n', ' ', 'W', 'o', 'r', 'l', 'd', '!', '\'', '\'', '\'']) (some ['R', 'F'])) = true := by decide +kernel

/-- `tokenizer.rs` `tokenizer_literal_string_single_1` -/
example : lexes [] ['R', 'F', '\'', 'H', 'e', 'l', 'l', 'o', ',', ' ', 'W', 'o', 'r', 'l', 'd', '!', '\'']
    (.tok .AtomString (some 0) (some 17) (some none) (some ['\'', 'H', 'e', 'l', 'l', 'o', ',', ' ', 'W', 'o', 'r', 'l', 'd', '!', '\'']) (some ['R', 'F'])) = true := by decide +kernel

end Verif
