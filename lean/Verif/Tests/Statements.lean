import Verif.Tests.Pat

/-!
# The unit tests of `statements.rs`, run on the model (generated by `tools/conform.py`)
-/

namespace Verif

/-- `statements.rs` `statements_expression_less_operator` -/
example : parses .stmt ['a', ' ', '<', ' ', 'b', '\r', '\n']
    (.node .SimpleStmtList 0 8 [(.seq 1 [(.node .LessComparison 0 5 [(.node .AtomName 0 2 [.any]), (.tok .PyLess (some 2) (some 3) none none none), (.node .AtomName 4 5 [.any])])]), (.seq 0 []), (.newline 5 8 '\r' '\n')]) = true := by decide +kernel

/-- `statements.rs` `statements_expression_greater_operator` -/
example : parses .stmt ['a', ' ', '>', ' ', 'b', '\r', '\n']
    (.node .SimpleStmtList 0 8 [(.seq 1 [(.node .GreaterComparison 0 5 [(.node .AtomName 0 2 [.any]), (.tok .PyGreater (some 2) (some 3) none none none), (.node .AtomName 4 5 [.any])])]), (.seq 0 []), (.newline 5 8 '\r' '\n')]) = true := by decide +kernel

/-- `statements.rs` `statements_expression_less_equal_operator` -/
example : parses .stmt ['a', ' ', '<', '=', ' ', 'b', '\r', '\n']
    (.node .SimpleStmtList 0 9 [(.seq 1 [(.node .LessEqualComparison 0 6 [(.node .AtomName 0 2 [.any]), (.tok .PyLessEqual (some 2) (some 4) none none none), (.node .AtomName 5 6 [.any])])]), (.seq 0 []), (.newline 6 9 '\r' '\n')]) = true := by decide +kernel

/-- `statements.rs` `statements_expression_greater_equal_operator` -/
example : parses .stmt ['a', ' ', '>', '=', ' ', 'b', '\r', '\n']
    (.node .SimpleStmtList 0 9 [(.seq 1 [(.node .GreaterEqualComparison 0 6 [(.node .AtomName 0 2 [.any]), (.tok .PyGreaterEqual (some 2) (some 4) none none none), (.node .AtomName 5 6 [.any])])]), (.seq 0 []), (.newline 6 9 '\r' '\n')]) = true := by decide +kernel

/-- `statements.rs` `statements_expression_equal_operator` -/
example : parses .stmt ['a', ' ', '=', '=', ' ', 'b', '\r', '\n']
    (.node .SimpleStmtList 0 9 [(.seq 1 [(.node .EqualComparison 0 6 [(.node .AtomName 0 2 [.any]), (.tok .PyEqual (some 2) (some 4) none none none), (.node .AtomName 5 6 [.any])])]), (.seq 0 []), (.newline 6 9 '\r' '\n')]) = true := by decide +kernel

/-- `statements.rs` `statements_expression_plus_assign` -/
example : parses .stmt ['a', ' ', '+', '=', ' ', 'b', '\r', '\n']
    (.node .SimpleStmtList 0 9 [(.seq 1 [(.node .PlusAssignStmt 0 6 [(.node .AtomName 0 2 [.any]), (.tok .PyPlusAssign (some 2) (some 4) none none none), (.node .AtomName 5 6 [.any])])]), (.seq 0 []), (.newline 6 9 '\r' '\n')]) = true := by decide +kernel

/-- `statements.rs` `statements_expression_minus_assign` -/
example : parses .stmt ['a', ' ', '-', '=', ' ', 'b', '\r', '\n']
    (.node .SimpleStmtList 0 9 [(.seq 1 [(.node .MinusAssignStmt 0 6 [(.node .AtomName 0 2 [.any]), (.tok .PyMinusAssign (some 2) (some 4) none none none), (.node .AtomName 5 6 [.any])])]), (.seq 0 []), (.newline 6 9 '\r' '\n')]) = true := by decide +kernel

/-- `statements.rs` `statements_expression_mul_assign` -/
example : parses .stmt ['a', ' ', '*', '=', ' ', 'b', '\r', '\n']
    (.node .SimpleStmtList 0 9 [(.seq 1 [(.node .MulAssignStmt 0 6 [(.node .AtomName 0 2 [.any]), (.tok .PyMulAssign (some 2) (some 4) none none none), (.node .AtomName 5 6 [.any])])]), (.seq 0 []), (.newline 6 9 '\r' '\n')]) = true := by decide +kernel

/-- `statements.rs` `statements_expression_modulo_assign` -/
example : parses .stmt ['a', ' ', '%', '=', ' ', 'b', '\r', '\n']
    (.node .SimpleStmtList 0 9 [(.seq 1 [(.node .ModuloAssignStmt 0 6 [(.node .AtomName 0 2 [.any]), (.tok .PyModuloAssign (some 2) (some 4) none none none), (.node .AtomName 5 6 [.any])])]), (.seq 0 []), (.newline 6 9 '\r' '\n')]) = true := by decide +kernel

/-- `statements.rs` `statements_expression_matrice_assign` -/
example : parses .stmt ['a', ' ', '@', '=', ' ', 'b', '\r', '\n']
    (.node .SimpleStmtList 0 9 [(.seq 1 [(.node .MatriceAssignStmt 0 6 [(.node .AtomName 0 2 [.any]), (.tok .PyMatriceAssign (some 2) (some 4) none none none), (.node .AtomName 5 6 [.any])])]), (.seq 0 []), (.newline 6 9 '\r' '\n')]) = true := by decide +kernel

/-- `statements.rs` `statements_expression_bitwise_and_assign` -/
example : parses .stmt ['a', ' ', '&', '=', ' ', 'b', '\r', '\n']
    (.node .SimpleStmtList 0 9 [(.seq 1 [(.node .BitAndAssignStmt 0 6 [(.node .AtomName 0 2 [.any]), (.tok .PyBitAndAssign (some 2) (some 4) none none none), (.node .AtomName 5 6 [.any])])]), (.seq 0 []), (.newline 6 9 '\r' '\n')]) = true := by decide +kernel

/-- `statements.rs` `statements_expression_bitwise_or_assign` -/
example : parses .stmt ['a', ' ', '|', '=', ' ', 'b', '\r', '\n']
    (.node .SimpleStmtList 0 9 [(.seq 1 [(.node .BitOrAssignStmt 0 6 [(.node .AtomName 0 2 [.any]), (.tok .PyBitOrAssign (some 2) (some 4) none none none), (.node .AtomName 5 6 [.any])])]), (.seq 0 []), (.newline 6 9 '\r' '\n')]) = true := by decide +kernel

/-- `statements.rs` `statements_expression_bitwise_xor_assign` -/
example : parses .stmt ['a', ' ', '^', '=', ' ', 'b', '\r', '\n']
    (.node .SimpleStmtList 0 9 [(.seq 1 [(.node .BitXorAssignStmt 0 6 [(.node .AtomName 0 2 [.any]), (.tok .PyBitXorAssign (some 2) (some 4) none none none), (.node .AtomName 5 6 [.any])])]), (.seq 0 []), (.newline 6 9 '\r' '\n')]) = true := by decide +kernel

/-- `statements.rs` `statements_expression_bitwise_shift_left_assign` -/
example : parses .stmt ['a', ' ', '<', '<', '=', ' ', 'b', '\r', '\n']
    (.node .SimpleStmtList 0 10 [(.seq 1 [(.node .ShiftLeftAssignStmt 0 7 [(.node .AtomName 0 2 [.any]), (.tok .PyShiftLeftAssign (some 2) (some 5) none none none), (.node .AtomName 6 7 [.any])])]), (.seq 0 []), (.newline 7 10 '\r' '\n')]) = true := by decide +kernel

/-- `statements.rs` `statements_expression_bitwise_shift_right_assign` -/
example : parses .stmt ['a', ' ', '>', '>', '=', ' ', 'b', '\r', '\n']
    (.node .SimpleStmtList 0 10 [(.seq 1 [(.node .ShiftRightAssignStmt 0 7 [(.node .AtomName 0 2 [.any]), (.tok .PyShiftRightAssign (some 2) (some 5) none none none), (.node .AtomName 6 7 [.any])])]), (.seq 0 []), (.newline 7 10 '\r' '\n')]) = true := by decide +kernel

/-- `statements.rs` `statements_expression_bitwise_power_assign` -/
example : parses .stmt ['a', ' ', '*', '*', '=', ' ', 'b', '\r', '\n']
    (.node .SimpleStmtList 0 10 [(.seq 1 [(.node .PowerAssignStmt 0 7 [(.node .AtomName 0 2 [.any]), (.tok .PyPowerAssign (some 2) (some 5) none none none), (.node .AtomName 6 7 [.any])])]), (.seq 0 []), (.newline 7 10 '\r' '\n')]) = true := by decide +kernel

/-- `statements.rs` `statements_expression_bitwise_floor_div_assign` -/
example : parses .stmt ['a', ' ', '/', '/', '=', ' ', 'b', '\r', '\n']
    (.node .SimpleStmtList 0 10 [(.seq 1 [(.node .FloorDivAssignStmt 0 7 [(.node .AtomName 0 2 [.any]), (.tok .PyFloorDivAssign (some 2) (some 5) none none none), (.node .AtomName 6 7 [.any])])]), (.seq 0 []), (.newline 7 10 '\r' '\n')]) = true := by decide +kernel

/-- `statements.rs` `statements_expression_bitwise_floor_div_assign_yield` -/
example : parses .stmt ['a', ' ', '/', '/', '=', ' ', 'y', 'i', 'e', 'l', 'd', ' ', 'b', '\r', '\n']
    (.node .SimpleStmtList 0 16 [(.seq 1 [(.node .FloorDivAssignStmt 0 13 [(.node .AtomName 0 2 [.any]), (.tok .PyFloorDivAssign (some 2) (some 5) none none none), (.node .YieldExpr 6 13 [.any, .any])])]), (.seq 0 []), (.newline 13 16 '\r' '\n')]) = true := by decide +kernel

/-- `statements.rs` `statements_expression_bitwise_floor_div_assign_testlist` -/
example : parses .stmt ['a', ' ', '/', '/', '=', ' ', 'a', ',', ' ', 'b', ',', ' ', 'c', '\r', '\n']
    (.node .SimpleStmtList 0 16 [(.seq 1 [(.node .FloorDivAssignStmt 0 13 [(.node .AtomName 0 2 [.any]), (.tok .PyFloorDivAssign (some 2) (some 5) none none none), (.node .TestList 6 13 [(.seq 3 []), (.seq 2 [])])])]), (.seq 0 []), (.newline 13 16 '\r' '\n')]) = true := by decide +kernel

/-- `statements.rs` `statements_expression_single_assign_testlist` -/
example : parses .stmt ['a', ' ', '=', ' ', 'a', ',', ' ', 'b', ',', ' ', 'c', '\r', '\n']
    (.node .SimpleStmtList 0 14 [(.seq 1 [(.node .AssignmentStmt 0 11 [(.node .AtomName 0 2 [.any]), (.seq 1 [(.seq 2 [(.tok .PyAssign (some 2) (some 3) none none none), (.node .TestList 4 11 [.any, .any])])]), .none])]), (.seq 0 []), (.newline 11 14 '\r' '\n')]) = true := by decide +kernel

/-- `statements.rs` `statements_expression_single_assign_testlist_with_type_comment` -/
example : parses .stmt ['a', ' ', '=', ' ', 'a', ',', ' ', 'b', ',', ' ', 'c', '#', ' ', 't', 'y', 'p', 'e', ':', ' ', 'i', 'n', 't', ' ', '\r', '\n']
    (.node .SimpleStmtList 0 26 [(.seq 1 [(.node .AssignmentStmt 0 23 [(.node .AtomName 0 2 [.any]), (.seq 1 [(.seq 2 [(.tok .PyAssign (some 2) (some 3) none none none), (.node .TestList 4 11 [.any, .any])])]), (.tok .TypeComment (some 11) (some 23) none none none)])]), (.seq 0 []), (.newline 23 26 '\r' '\n')]) = true := by decide +kernel

/-- `statements.rs` `statements_expression_single_assign_with_annotation` -/
example : parses .stmt ['a', ':', ' ', 'i', 'n', 't', '\r', '\n']
    (.node .SimpleStmtList 0 9 [(.seq 1 [(.node .AnnAssignStmt 0 6 [(.node .AtomName 0 1 [.any]), (.tok .PyColon (some 1) (some 2) none none none), (.node .AtomName 3 6 [.any]), .none])]), (.seq 0 []), (.newline 6 9 '\r' '\n')]) = true := by decide +kernel

/-- `statements.rs` `statements_expression_single_assign_with_annotation_and_assignment` -/
example : parses .stmt ['a', ':', ' ', 'i', 'n', 't', ' ', '=', ' ', 'v', '\r', '\n']
    (.node .SimpleStmtList 0 13 [(.seq 1 [(.node .AnnAssignStmt 0 10 [(.node .AtomName 0 1 [.any]), (.tok .PyColon (some 1) (some 2) none none none), (.node .AtomName 3 7 [.any]), (.seq 2 [(.tok .PyAssign (some 7) (some 8) none none none), (.node .AtomName 9 10 [.any])])])]), (.seq 0 []), (.newline 10 13 '\r' '\n')]) = true := by decide +kernel

/-- `statements.rs` `statements_expression_multiple_assign_testlist` -/
example : parses .stmt ['a', ' ', '=', ' ', 'a', ',', ' ', 'b', ',', ' ', 'c', ' ', '=', ' ', '1', ',', ' ', '2', ',', ' ', '3', '\r', '\n']
    (.node .SimpleStmtList 0 24 [(.seq 1 [(.node .AssignmentStmt 0 21 [(.node .AtomName 0 2 [.any]), (.seq 2 [(.seq 2 [(.tok .PyAssign (some 2) (some 3) none none none), (.node .TestList 4 12 [.any, .any])]), (.seq 2 [(.tok .PyAssign (some 12) (some 13) none none none), (.node .TestList 14 21 [.any, .any])])]), .none])]), (.seq 0 []), (.newline 21 24 '\r' '\n')]) = true := by decide +kernel

/-- `statements.rs` `statements_expression_multiple_assign_testlist_with_type_comment` -/
example : parses .stmt ['a', ' ', '=', ' ', 'a', ',', ' ', 'b', ',', ' ', 'c', ' ', '=', ' ', '1', ',', ' ', '2', ',', ' ', '3', ' ', '#', ' ', 't', 'y', 'p', 'e', ':', ' ', 'i', 'n', 't', '\r', '\n']
    (.node .SimpleStmtList 0 36 [(.seq 1 [(.node .AssignmentStmt 0 33 [(.node .AtomName 0 2 [.any]), (.seq 2 [(.seq 2 [(.tok .PyAssign (some 2) (some 3) none none none), (.node .TestList 4 12 [.any, .any])]), (.seq 2 [(.tok .PyAssign (some 12) (some 13) none none none), (.node .TestList 14 22 [.any, .any])])]), .any])]), (.seq 0 []), (.newline 33 36 '\r' '\n')]) = true := by decide +kernel

/-- `statements.rs` `statements_expression_single_assign_with_annotation_and_assignmentwith_yield` -/
example : parses .stmt ['a', ':', ' ', 'i', 'n', 't', ' ', '=', ' ', 'y', 'i', 'e', 'l', 'd', ' ', 'a', '\r', '\n']
    (.node .SimpleStmtList 0 19 [(.seq 1 [(.node .AnnAssignStmt 0 16 [(.node .AtomName 0 1 [.any]), (.tok .PyColon (some 1) (some 2) none none none), (.node .AtomName 3 7 [.any]), (.seq 2 [(.tok .PyAssign (some 7) (some 8) none none none), (.node .YieldExpr 9 16 [.any, .any])])])]), (.seq 0 []), (.newline 16 19 '\r' '\n')]) = true := by decide +kernel

/-- `statements.rs` `statements_del_statement_with_exprlist` -/
example : parses .stmt ['d', 'e', 'l', ' ', 'a', ',', ' ', 'b', ',', ' ', 'c', '\r', '\n']
    (.node .SimpleStmtList 0 14 [(.seq 1 [(.node .DelStmt 0 11 [(.tok .PyDel (some 0) (some 3) none none none), (.node .ExprList 4 11 [(.seq 3 [(.node .AtomName 4 5 [(.tok .AtomName none none none (some ['a']) none)]), (.node .AtomName 7 8 [(.tok .AtomName none none none (some ['b']) none)]), (.node .AtomName 10 11 [(.tok .AtomName none none none (some ['c']) none)])]), (.seq 2 [(.tok .PyComa (some 5) (some 6) none none none), (.tok .PyComa (some 8) (some 9) none none none)])])])]), (.seq 0 []), (.newline 11 14 '\r' '\n')]) = true := by decide +kernel

end Verif
