import Verif.Tests.Pat

/-!
# The unit tests of `expressions.rs`, run on the model (generated by `tools/conform.py`)
-/

namespace Verif

/-- `expressions.rs` `expression_atom_ellipsis` -/
example : parses .atom ['.', '.', '.']
    (.node .AtomElipsis 0 3 [(.tok .PyElipsis (some 0) (some 3) (some none) none none)]) = true := by decide +kernel

/-- `expressions.rs` `expression_atom_false` -/
example : parses .atom ['F', 'a', 'l', 's', 'e']
    (.node .AtomFalse 0 5 [(.tok .PyFalse (some 0) (some 5) (some none) none none)]) = true := by decide +kernel

/-- `expressions.rs` `expression_atom_none` -/
example : parses .atom ['N', 'o', 'n', 'e']
    (.node .AtomNone 0 4 [(.tok .PyNone (some 0) (some 4) (some none) none none)]) = true := by decide +kernel

/-- `expressions.rs` `expression_atom_true` -/
example : parses .atom ['T', 'r', 'u', 'e']
    (.node .AtomTrue 0 4 [(.tok .PyTrue (some 0) (some 4) (some none) none none)]) = true := by decide +kernel

/-- `expressions.rs` `expression_atom_name` -/
example : parses .atom ['_', '_', 'i', 'n', 'i', 't', '_', '_']
    (.node .AtomName 0 8 [(.tok .AtomName (some 0) (some 8) (some none) (some ['_', '_', 'i', 'n', 'i', 't', '_', '_']) none)]) = true := by decide +kernel

/-- `expressions.rs` `expression_atom_number` -/
example : parses .atom ['0', '.', '3', '2', 'e', '-', '4', 'J']
    (.node .AtomNumber 0 8 [(.tok .AtomNumber (some 0) (some 8) (some none) (some ['0', '.', '3', '2', 'e', '-', '4', 'J']) none)]) = true := by decide +kernel

/-- `expressions.rs` `expression_atom_single_string` -/
example : parses .atom ['\'', 'H', 'e', 'l', 'l', 'o', ',', ' ', 'W', 'o', 'r', 'l', 'd', '!', '\'']
    (.node .AtomString 0 15 [(.seq 1 [(.tok .AtomString (some 0) (some 15) (some none) (some ['\'', 'H', 'e', 'l', 'l', 'o', ',', ' ', 'W', 'o', 'r', 'l', 'd', '!', '\'']) none)])]) = true := by decide +kernel

/-- `expressions.rs` `expression_atom_multiple_string` -/
example : parses .atom ['\'', 'H', 'e', 'l', 'l', 'o', ',', ' ', 'W', 'o', 'r', 'l', 'd', '!', '\'', '\'', '1', '2', '3', '\'']
    (.node .AtomString 0 20 [(.seq 2 [(.tok .AtomString none none (some none) (some ['\'', 'H', 'e', 'l', 'l', 'o', ',', ' ', 'W', 'o', 'r', 'l', 'd', '!', '\'']) none), (.tok .AtomString none none (some none) (some ['\'', '1', '2', '3', '\'']) none)])]) = true := by decide +kernel

/-- `expressions.rs` `expression_atom_non_await_name` -/
example : parses .atomExpr ['_', '_', 'i', 'n', 'i', 't', '_', '_']
    (.node .AtomName 0 8 [(.tok .AtomName (some 0) (some 8) (some none) (some ['_', '_', 'i', 'n', 'i', 't', '_', '_']) none)]) = true := by decide +kernel

/-- `expressions.rs` `expression_atom_await_name` -/
example : parses .atomExpr ['a', 'w', 'a', 'i', 't', ' ', '_', '_', 'i', 'n', 'i', 't', '_', '_']
    (.node .AtomExpr 0 14 [(.tok .PyAwait (some 0) (some 5) (some none) none none), (.node .AtomName 6 14 [(.tok .AtomName (some 6) (some 14) (some (some [.whiteSpace 5 6 ' '])) none none)]), (.seq 0 [])]) = true := by decide +kernel

/-- `expressions.rs` `expression_power_operator` -/
example : parses .power ['a', ' ', '*', '*', ' ', 'b']
    (.node .PowerExpr 0 6 [(.node .AtomName 0 2 [.any]), (.tok .PyPower (some 2) (some 4) none none none), (.node .AtomName 5 6 [.any])]) = true := by decide +kernel

/-- `expressions.rs` `expression_no_power_operator` -/
example : parses .power ['.', '.', '.']
    (.node .AtomElipsis 0 3 [(.tok .PyElipsis (some 0) (some 3) (some none) none none)]) = true := by decide +kernel

/-- `expressions.rs` `expression_factor_operator_plus` -/
example : parses .factor ['+', 'b']
    (.node .UnaryPlus 0 2 [(.tok .PyPlus (some 0) (some 1) none none none), (.node .AtomName 1 2 [.any])]) = true := by decide +kernel

/-- `expressions.rs` `expression_factor_operator_minus` -/
example : parses .factor ['-', 'b']
    (.node .UnaryMinus 0 2 [(.tok .PyMinus (some 0) (some 1) none none none), (.node .AtomName 1 2 [.any])]) = true := by decide +kernel

/-- `expressions.rs` `expression_factor_operator_bit_invert` -/
example : parses .factor ['~', 'b']
    (.node .UnaryInvert 0 2 [(.tok .PyBitInvert (some 0) (some 1) none none none), (.node .AtomName 1 2 [.any])]) = true := by decide +kernel

/-- `expressions.rs` `expression_no_factor_operator` -/
example : parses .factor ['.', '.', '.']
    (.node .AtomElipsis 0 3 [(.tok .PyElipsis (some 0) (some 3) (some none) none none)]) = true := by decide +kernel

/-- `expressions.rs` `expression_term_operator_mul` -/
example : parses .term ['a', ' ', '*', ' ', 'b']
    (.node .MulTerm 0 5 [(.node .AtomName 0 2 [.any]), (.tok .PyMul (some 2) (some 3) none none none), (.node .AtomName 4 5 [.any])]) = true := by decide +kernel

/-- `expressions.rs` `expression_term_operator_div` -/
example : parses .term ['a', ' ', '/', ' ', 'b']
    (.node .DivTerm 0 5 [(.node .AtomName 0 2 [.any]), (.tok .PyDiv (some 2) (some 3) none none none), (.node .AtomName 4 5 [.any])]) = true := by decide +kernel

/-- `expressions.rs` `expression_term_operator_modulo` -/
example : parses .term ['a', ' ', '%', ' ', 'b']
    (.node .ModuloTerm 0 5 [(.node .AtomName 0 2 [.any]), (.tok .PyModulo (some 2) (some 3) none none none), (.node .AtomName 4 5 [.any])]) = true := by decide +kernel

/-- `expressions.rs` `expression_term_operator_matrices` -/
example : parses .term ['a', ' ', '@', ' ', 'b']
    (.node .MatriceTerm 0 5 [(.node .AtomName 0 2 [.any]), (.tok .PyMatrice (some 2) (some 3) none none none), (.node .AtomName 4 5 [.any])]) = true := by decide +kernel

/-- `expressions.rs` `expression_term_operator_floor_div` -/
example : parses .term ['a', ' ', '/', '/', ' ', 'b']
    (.node .FloorDivTerm 0 6 [(.node .AtomName 0 2 [.any]), (.tok .PyFloorDiv (some 2) (some 4) none none none), (.node .AtomName 5 6 [.any])]) = true := by decide +kernel

/-- `expressions.rs` `expression_no_term_operator` -/
example : parses .term ['.', '.', '.']
    (.node .AtomElipsis 0 3 [(.tok .PyElipsis (some 0) (some 3) (some none) none none)]) = true := by decide +kernel

/-- `expressions.rs` `expression_term_operator_matrices_double` -/
example : parses .term ['a', ' ', '@', ' ', 'b', ' ', '@', ' ', 'c']
    (.node .MatriceTerm 0 9 [(.node .MatriceTerm 0 6 [(.node .AtomName 0 2 [.any]), (.tok .PyMatrice (some 2) (some 3) none none none), (.node .AtomName 4 6 [.any])]), (.tok .PyMatrice (some 6) (some 7) none none none), (.node .AtomName 8 9 [.any])]) = true := by decide +kernel

/-- `expressions.rs` `expression_arith_operator_plus` -/
example : parses .arith ['a', ' ', '+', ' ', 'b']
    (.node .PlusArithExpr 0 5 [(.node .AtomName 0 2 [.any]), (.tok .PyPlus (some 2) (some 3) none none none), (.node .AtomName 4 5 [.any])]) = true := by decide +kernel

/-- `expressions.rs` `expression_arith_operator_minus` -/
example : parses .arith ['a', ' ', '-', ' ', 'b']
    (.node .MinusArithExpr 0 5 [(.node .AtomName 0 2 [.any]), (.tok .PyMinus (some 2) (some 3) none none none), (.node .AtomName 4 5 [.any])]) = true := by decide +kernel

/-- `expressions.rs` `expression_no_arith_operator` -/
example : parses .arith ['.', '.', '.']
    (.node .AtomElipsis 0 3 [(.tok .PyElipsis (some 0) (some 3) (some none) none none)]) = true := by decide +kernel

/-- `expressions.rs` `expression_arith_operator_plus_minus_double` -/
example : parses .arith ['a', ' ', '+', ' ', 'b', ' ', '-', ' ', 'c']
    (.node .MinusArithExpr 0 9 [(.node .PlusArithExpr 0 6 [(.node .AtomName 0 2 [.any]), (.tok .PyPlus (some 2) (some 3) none none none), (.node .AtomName 4 6 [.any])]), (.tok .PyMinus (some 6) (some 7) none none none), (.node .AtomName 8 9 [.any])]) = true := by decide +kernel

/-- `expressions.rs` `expression_shift_operator_left` -/
example : parses .shift ['a', ' ', '<', '<', ' ', 'b']
    (.node .ShiftLeftExpr 0 6 [(.node .AtomName 0 2 [.any]), (.tok .PyShiftLeft (some 2) (some 4) none none none), (.node .AtomName 5 6 [.any])]) = true := by decide +kernel

/-- `expressions.rs` `expression_shift_operator_right` -/
example : parses .shift ['a', ' ', '>', '>', ' ', 'b']
    (.node .ShiftRightExpr 0 6 [(.node .AtomName 0 2 [.any]), (.tok .PyShiftRight (some 2) (some 4) none none none), (.node .AtomName 5 6 [.any])]) = true := by decide +kernel

/-- `expressions.rs` `expression_no_shift_operator` -/
example : parses .shift ['.', '.', '.']
    (.node .AtomElipsis 0 3 [(.tok .PyElipsis (some 0) (some 3) (some none) none none)]) = true := by decide +kernel

/-- `expressions.rs` `expression_shift_operator_left_right_double` -/
example : parses .shift ['a', ' ', '<', '<', ' ', 'b', ' ', '>', '>', ' ', 'c']
    (.node .ShiftRightExpr 0 11 [(.node .ShiftLeftExpr 0 7 [(.node .AtomName 0 2 [.any]), (.tok .PyShiftLeft (some 2) (some 4) none none none), (.node .AtomName 5 7 [.any])]), (.tok .PyShiftRight (some 7) (some 9) none none none), (.node .AtomName 10 11 [.any])]) = true := by decide +kernel

/-- `expressions.rs` `expression_bit_and_operator` -/
example : parses .andExpr ['a', ' ', '&', ' ', 'b']
    (.node .AndExpr 0 5 [(.node .AtomName 0 2 [.any]), (.tok .PyBitAnd (some 2) (some 3) none none none), (.node .AtomName 4 5 [.any])]) = true := by decide +kernel

/-- `expressions.rs` `expression_no_bit_and_operator` -/
example : parses .andExpr ['.', '.', '.']
    (.node .AtomElipsis 0 3 [(.tok .PyElipsis (some 0) (some 3) (some none) none none)]) = true := by decide +kernel

/-- `expressions.rs` `expression_bit_and_operator_double` -/
example : parses .andExpr ['a', ' ', '&', ' ', 'b', ' ', '&', ' ', 'c']
    (.node .AndExpr 0 9 [(.node .AndExpr 0 6 [(.node .AtomName 0 2 [.any]), (.tok .PyBitAnd (some 2) (some 3) none none none), (.node .AtomName 4 6 [.any])]), (.tok .PyBitAnd (some 6) (some 7) none none none), (.node .AtomName 8 9 [.any])]) = true := by decide +kernel

/-- `expressions.rs` `expression_bit_xor_operator` -/
example : parses .xorExpr ['a', ' ', '^', ' ', 'b']
    (.node .XorExpr 0 5 [(.node .AtomName 0 2 [.any]), (.tok .PyBitXor (some 2) (some 3) none none none), (.node .AtomName 4 5 [.any])]) = true := by decide +kernel

/-- `expressions.rs` `expression_no_bit_xor_operator` -/
example : parses .xorExpr ['.', '.', '.']
    (.node .AtomElipsis 0 3 [(.tok .PyElipsis (some 0) (some 3) (some none) none none)]) = true := by decide +kernel

/-- `expressions.rs` `expression_bit_xor_operator_double` -/
example : parses .xorExpr ['a', ' ', '^', ' ', 'b', ' ', '^', ' ', 'c']
    (.node .XorExpr 0 9 [(.node .XorExpr 0 6 [(.node .AtomName 0 2 [.any]), (.tok .PyBitXor (some 2) (some 3) none none none), (.node .AtomName 4 6 [.any])]), (.tok .PyBitXor (some 6) (some 7) none none none), (.node .AtomName 8 9 [.any])]) = true := by decide +kernel

/-- `expressions.rs` `expression_bit_or_operator` -/
example : parses .expr ['a', ' ', '|', ' ', 'b']
    (.node .Expr 0 5 [(.node .AtomName 0 2 [.any]), (.tok .PyBitOr (some 2) (some 3) none none none), (.node .AtomName 4 5 [.any])]) = true := by decide +kernel

/-- `expressions.rs` `expression_no_bit_or_operator` -/
example : parses .expr ['.', '.', '.']
    (.node .AtomElipsis 0 3 [(.tok .PyElipsis (some 0) (some 3) (some none) none none)]) = true := by decide +kernel

/-- `expressions.rs` `expression_bit_or_operator_double` -/
example : parses .expr ['a', ' ', '|', ' ', 'b', ' ', '|', ' ', 'c']
    (.node .Expr 0 9 [(.node .Expr 0 6 [(.node .AtomName 0 2 [.any]), (.tok .PyBitOr (some 2) (some 3) none none none), (.node .AtomName 4 6 [.any])]), (.tok .PyBitOr (some 6) (some 7) none none none), (.node .AtomName 8 9 [.any])]) = true := by decide +kernel

/-- `expressions.rs` `expression_star_expression_operator` -/
example : parses .starExpr ['*', 'b']
    (.node .StarExpr 0 2 [(.tok .PyMul (some 0) (some 1) none none none), (.node .AtomName 1 2 [.any])]) = true := by decide +kernel

/-- `expressions.rs` `expression_comparison_operator_less` -/
example : parses .comparison ['a', ' ', '<', ' ', 'b']
    (.node .LessComparison 0 5 [(.node .AtomName 0 2 [.any]), (.tok .PyLess (some 2) (some 3) none none none), (.node .AtomName 4 5 [.any])]) = true := by decide +kernel

/-- `expressions.rs` `expression_comparison_operator_less_equal` -/
example : parses .comparison ['a', ' ', '<', '=', ' ', 'b']
    (.node .LessEqualComparison 0 6 [(.node .AtomName 0 2 [.any]), (.tok .PyLessEqual (some 2) (some 4) none none none), (.node .AtomName 5 6 [.any])]) = true := by decide +kernel

/-- `expressions.rs` `expression_comparison_operator_equal` -/
example : parses .comparison ['a', ' ', '=', '=', ' ', 'b']
    (.node .EqualComparison 0 6 [(.node .AtomName 0 2 [.any]), (.tok .PyEqual (some 2) (some 4) none none none), (.node .AtomName 5 6 [.any])]) = true := by decide +kernel

/-- `expressions.rs` `expression_comparison_operator_greater_equal` -/
example : parses .comparison ['a', ' ', '>', '=', ' ', 'b']
    (.node .GreaterEqualComparison 0 6 [(.node .AtomName 0 2 [.any]), (.tok .PyGreaterEqual (some 2) (some 4) none none none), (.node .AtomName 5 6 [.any])]) = true := by decide +kernel

/-- `expressions.rs` `expression_comparison_operator_not_equal` -/
example : parses .comparison ['a', ' ', '!', '=', ' ', 'b']
    (.node .NotEqualComparison 0 6 [(.node .AtomName 0 2 [.any]), (.tok .PyNotEqual (some 2) (some 4) none none none), (.node .AtomName 5 6 [.any])]) = true := by decide +kernel

/-- `expressions.rs` `expression_comparison_operator_not_equal_legacy` -/
example : parses .comparison ['a', ' ', '<', '>', ' ', 'b']
    (.node .NotEqualComparison 0 6 [(.node .AtomName 0 2 [.any]), (.tok .PyNotEqual (some 2) (some 4) none none none), (.node .AtomName 5 6 [.any])]) = true := by decide +kernel

/-- `expressions.rs` `expression_comparison_operator_greater` -/
example : parses .comparison ['a', ' ', '>', ' ', 'b']
    (.node .GreaterComparison 0 5 [(.node .AtomName 0 2 [.any]), (.tok .PyGreater (some 2) (some 3) none none none), (.node .AtomName 4 5 [.any])]) = true := by decide +kernel

/-- `expressions.rs` `expression_comparison_operator_is` -/
example : parses .comparison ['a', ' ', 'i', 's', ' ', 'b']
    (.node .IsComparison 0 6 [(.node .AtomName 0 2 [.any]), (.tok .PyIs (some 2) (some 4) none none none), (.node .AtomName 5 6 [.any])]) = true := by decide +kernel

/-- `expressions.rs` `expression_comparison_operator_is_not` -/
example : parses .comparison ['a', ' ', 'i', 's', ' ', 'n', 'o', 't', ' ', 'b']
    (.node .IsNotComparison 0 10 [(.node .AtomName 0 2 [.any]), (.tok .PyIs (some 2) (some 4) none none none), (.tok .PyNot (some 5) (some 8) none none none), (.node .AtomName 9 10 [.any])]) = true := by decide +kernel

/-- `expressions.rs` `expression_comparison_operator_not_in` -/
example : parses .comparison ['a', ' ', 'n', 'o', 't', ' ', 'i', 'n', ' ', 'b']
    (.node .NotInComparison 0 10 [(.node .AtomName 0 2 [.any]), (.tok .PyNot (some 2) (some 5) none none none), (.tok .PyIn (some 6) (some 8) none none none), (.node .AtomName 9 10 [.any])]) = true := by decide +kernel

/-- `expressions.rs` `expression_comparison_operator_double` -/
example : parses .comparison ['a', ' ', '<', ' ', 'b', ' ', '>', ' ', 'c']
    (.node .GreaterComparison 0 9 [(.node .LessComparison 0 6 [(.node .AtomName 0 2 [.any]), (.tok .PyLess (some 2) (some 3) none none none), (.node .AtomName 4 6 [.any])]), (.tok .PyGreater (some 6) (some 7) none none none), (.node .AtomName 8 9 [.any])]) = true := by decide +kernel

/-- `expressions.rs` `expression_not_test_operator` -/
example : parses .notTest ['n', 'o', 't', ' ', 'b']
    (.node .NotTest 0 5 [(.tok .PyNot (some 0) (some 3) none none none), (.node .AtomName 4 5 [.any])]) = true := by decide +kernel

/-- `expressions.rs` `expression_no_not_test_operator` -/
example : parses .notTest ['.', '.', '.']
    (.node .AtomElipsis 0 3 [(.tok .PyElipsis (some 0) (some 3) (some none) none none)]) = true := by decide +kernel

/-- `expressions.rs` `expression_and_test_operator` -/
example : parses .andTest ['a', ' ', 'a', 'n', 'd', ' ', 'b']
    (.node .AndTest 0 7 [(.node .AtomName 0 2 [.any]), (.tok .PyAnd (some 2) (some 5) none none none), (.node .AtomName 6 7 [.any])]) = true := by decide +kernel

/-- `expressions.rs` `expression_comparison_and_test_operator` -/
example : parses .andTest ['a', ' ', 'a', 'n', 'd', ' ', 'b', ' ', 'a', 'n', 'd', ' ', 'c']
    (.node .AndTest 0 13 [(.node .AndTest 0 8 [(.node .AtomName 0 2 [.any]), (.tok .PyAnd (some 2) (some 5) none none none), (.node .AtomName 6 8 [.any])]), (.tok .PyAnd (some 8) (some 11) none none none), (.node .AtomName 12 13 [.any])]) = true := by decide +kernel

/-- `expressions.rs` `expression_no_and_test_operator` -/
example : parses .andTest ['.', '.', '.']
    (.node .AtomElipsis 0 3 [(.tok .PyElipsis (some 0) (some 3) (some none) none none)]) = true := by decide +kernel

/-- `expressions.rs` `expression_or_test_operator` -/
example : parses .orTest ['a', ' ', 'o', 'r', ' ', 'b']
    (.node .OrTest 0 6 [(.node .AtomName 0 2 [.any]), (.tok .PyOr (some 2) (some 4) none none none), (.node .AtomName 5 6 [.any])]) = true := by decide +kernel

/-- `expressions.rs` `expression_comparison_or_test_operator_multiple` -/
example : parses .orTest ['a', ' ', 'o', 'r', ' ', 'b', ' ', 'o', 'r', ' ', 'c']
    (.node .OrTest 0 11 [(.node .OrTest 0 7 [(.node .AtomName 0 2 [.any]), (.tok .PyOr (some 2) (some 4) none none none), (.node .AtomName 5 7 [.any])]), (.tok .PyOr (some 7) (some 9) none none none), (.node .AtomName 10 11 [.any])]) = true := by decide +kernel

/-- `expressions.rs` `expression_no_or_test_operator` -/
example : parses .orTest ['.', '.', '.']
    (.node .AtomElipsis 0 3 [(.tok .PyElipsis (some 0) (some 3) (some none) none none)]) = true := by decide +kernel

/-- `expressions.rs` `expression_named_expression` -/
example : parses .namedExpression ['a', ' ', ':', '=', ' ', 'b']
    (.node .NamedExpr 0 6 [(.node .AtomName 0 2 [.any]), (.tok .PyColonAssign (some 2) (some 4) none none none), (.node .AtomName 5 6 [.any])]) = true := by decide +kernel

/-- `expressions.rs` `expression_empty_named_expression` -/
example : parses .namedExpression ['.', '.', '.']
    (.node .AtomElipsis 0 3 [(.tok .PyElipsis (some 0) (some 3) (some none) none none)]) = true := by decide +kernel

/-- `expressions.rs` `expression_empty_test_expression` -/
example : parses .test ['.', '.', '.']
    (.node .AtomElipsis 0 3 [(.tok .PyElipsis (some 0) (some 3) (some none) none none)]) = true := by decide +kernel

/-- `expressions.rs` `expression_if_else_test_expression` -/
example : parses .test ['a', ' ', 'i', 'f', ' ', 'b', ' ', 'e', 'l', 's', 'e', ' ', 'c']
    (.node .Test 0 13 [(.node .AtomName 0 2 [.any]), (.tok .PyIf (some 2) (some 4) none none none), (.node .AtomName 5 7 [.any]), (.tok .PyElse (some 7) (some 11) none none none), (.node .AtomName 12 13 [.any])]) = true := by decide +kernel

/-- `expressions.rs` `expression_lambda_test_expression_no_arguments` -/
example : parses .test ['l', 'a', 'm', 'b', 'd', 'a', ':', ' ', 'a', ' ', '*', ' ', 'a']
    (.node .Lambda 0 13 [(.tok .PyLambda (some 0) (some 6) (some none) none none), .none, (.tok .PyColon (some 6) (some 7) none none none), (.node .MulTerm 8 13 [.any, .any, .any])]) = true := by decide +kernel

end Verif
