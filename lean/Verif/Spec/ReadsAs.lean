import Verif.Spec.Grammar
import Verif.Spec.Parse

/-!
# The parse functions and their nonterminals
-/

namespace Verif
open Rx

/-- The parse functions of the grammar and what each of them is to read.  (Not listed: the input rules,
decorators and lambdas, see `Props/Grammar.lean`; `typedArgsList` and `patternsMatch`, which the program
leaves unwritten.) -/
def readsAs : List (Fn × Rx) :=
  [(.varArgsAssignments, G.vararg),
    (.elifStmt, G.elifPart),
    (.elseStmt, G.elsePart),
    (.finallyStmt, G.finallyPart),
    (.exceptStmt, G.exceptPart),
    (.tfpDefAssign, G.typedarg),
    (.atom, n .atom),
    (.atomExpr, n .atom_expr),
    (.power, n .power),
    (.factor, n .factor),
    (.term, n .term),
    (.arith, n .arith_expr),
    (.shift, n .shift_expr),
    (.andExpr, n .and_expr),
    (.xorExpr, n .xor_expr),
    (.expr, n .expr),
    (.starExpr, n .star_expr),
    (.comparison, n .comparison),
    (.notTest, n .not_test),
    (.andTest, n .and_test),
    (.orTest, n .or_test),
    (.noCondTest, n .test_nocond),
    (.test, n .test),
    (.namedExpression, n .namedexpr_test),
    (.testlistComp, n .testlist_comp),
    (.trailer, n .trailer),
    (.subscriptList, n .subscriptlist),
    (.subscript, n .subscript),
    (.exprlist, n .exprlist),
    (.testlist, n .testlist),
    (.dictorsetMaker, n .dictorsetmaker),
    (.arglist, n .arglist),
    (.argument, n .argument),
    (.compIter, n .comp_iter),
    (.syncCompFor, n .sync_comp_for),
    (.compFor, n .comp_for),
    (.compIf, n .comp_if),
    (.yieldExpr, n .yield_expr),
    (.testlistStarExpr, n .testlist_star_expr),
    (.varArgsList, n .varargslist),
    (.vfpDef, n .vfpdef),
    (.stmt, n .stmt),
    (.simpleStmt, n .simple_stmt),
    (.smallStmt, n .small_stmt),
    (.exprStmt, n .expr_stmt),
    (.delStmt, n .del_stmt),
    (.passStmt, n .pass_stmt),
    (.flowStmt, n .flow_stmt),
    (.breakStmt, n .break_stmt),
    (.continueStmt, n .continue_stmt),
    (.returnStmt, n .return_stmt),
    (.yieldStmt, n .yield_stmt),
    (.raiseStmt, n .raise_stmt),
    (.importStmt, n .import_stmt),
    (.importName, n .import_name),
    (.importFrom, n .import_from),
    (.importAsName, n .import_as_name),
    (.dottedAsName, n .dotted_as_name),
    (.importAsNames, n .import_as_names),
    (.dottedAsNames, n .dotted_as_names),
    (.dottedName, n .dotted_name),
    (.globalStmt, n .global_stmt),
    (.nonlocalStmt, n .nonlocal_stmt),
    (.assertStmt, n .assert_stmt),
    (.compoundStmt, n .compound_stmt),
    (.asyncStmt, n .async_stmt),
    (.ifStmt, n .if_stmt),
    (.whileStmt, n .while_stmt),
    (.forStmt, n .for_stmt),
    (.tryStmt, n .try_stmt),
    (.withStmt, n .with_stmt),
    (.withItem, n .with_item),
    (.exceptClause, n .except_clause),
    (.suite, n .suite),
    (.asyncFuncDef, n .async_funcdef),
    (.funcDef, n .funcdef),
    (.parameters, n .parameters),
    (.tfpDef, n .tfpdef),
    (.funcBodySuite, n .func_body_suite),
    (.funcType, n .func_type),
    (.typeList, n .typelist),
    (.classDef, n .classdef)]

end Verif
