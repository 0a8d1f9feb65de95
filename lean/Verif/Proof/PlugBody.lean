import Verif.Proof.PlugStep
import Verif.Proof.PlugPre1
import Verif.Proof.PlugPre2
import Verif.Proof.PlugAt

/-!
# All functions
-/
set_option linter.unusedSimpArgs false
set_option linter.unusedVariables false
namespace Verif
open Prog Plug
theorem q_body [Plug] {o} {f g : Fn} (h : Fn.LikeQ f g) : RelQ (.pre o) (body f) (body g) := by
  cases h
  case atom => exact q_atom 
  case atomStrLoop => exact q_atomStrLoop _ _ _ _ (by assumption)
  case atomExpr => exact q_atomExpr 
  case trailerLoop => exact q_trailerLoop _ _ _ _ _ _ _ _ (by assumption) (by assumption) (by assumption)
  case power => exact q_power 
  case factor => exact q_factor 
  case term => exact q_term 
  case termLoop => exact q_termLoop _ _ _ _ (by assumption)
  case arith => exact q_arith 
  case arithLoop => exact q_arithLoop _ _ _ _ (by assumption)
  case shift => exact q_shift 
  case shiftLoop => exact q_shiftLoop _ _ _ _ (by assumption)
  case andExpr => exact q_andExpr 
  case andExprLoop => exact q_andExprLoop _ _ _ _ (by assumption)
  case xorExpr => exact q_xorExpr 
  case xorExprLoop => exact q_xorExprLoop _ _ _ _ (by assumption)
  case expr => exact q_expr 
  case exprLoop => exact q_exprLoop _ _ _ _ (by assumption)
  case starExpr => exact q_starExpr 
  case comparison => exact q_comparison 
  case comparisonLoop => exact q_comparisonLoop _ _ _ _ (by assumption)
  case notTest => exact q_notTest 
  case andTest => exact q_andTest 
  case andTestLoop => exact q_andTestLoop _ _ _ _ (by assumption)
  case orTest => exact q_orTest 
  case orTestLoop => exact q_orTestLoop _ _ _ _ (by assumption)
  case lambdaDef => exact q_lambdaDef _
  case noCondTest => exact q_noCondTest 
  case test => exact q_test 
  case namedExpression => exact q_namedExpression 
  case testlistComp => exact q_testlistComp 
  case testlistCompLoop => exact q_testlistCompLoop _ _ _ _ _ _ (by assumption) (by assumption)
  case trailer => exact q_trailer 
  case subscriptList => exact q_subscriptList 
  case subscriptListLoop => exact q_subscriptListLoop _ _ _ _ _ _ (by assumption) (by assumption)
  case subscript => exact q_subscript 
  case exprlist => exact q_exprlist 
  case exprlistLoop => exact q_exprlistLoop _ _ _ _ _ _ (by assumption) (by assumption)
  case testlist => exact q_testlist 
  case testlistLoop => exact q_testlistLoop _ _ _ _ _ _ (by assumption) (by assumption)
  case dictorsetMaker => exact q_dictorsetMaker 
  case setLoop => exact q_setLoop _ _ _ _ _ _ (by assumption) (by assumption)
  case arglist => exact q_arglist 
  case arglistLoop => exact q_arglistLoop _ _ _ _ _ _ (by assumption) (by assumption)
  case argument => exact q_argument 
  case compIter => exact q_compIter 
  case syncCompFor => exact q_syncCompFor 
  case compFor => exact q_compFor 
  case compIf => exact q_compIf 
  case yieldExpr => exact q_yieldExpr 
  case testlistStarExpr => exact q_testlistStarExpr 
  case testlistStarExprLoop => exact q_testlistStarExprLoop _ _ _ _ _ _ (by assumption) (by assumption)
  case varArgsList => exact q_varArgsList 
  case varArgsMainLoop => exact q_varArgsMainLoop _ _ _ _ (by assumption)
  case varArgsStarLoop => exact q_varArgsStarLoop _ _ _ _ (by assumption)
  case varArgsDivLoop => exact q_varArgsDivLoop _ _ _ _ (by assumption)
  case varArgsAssignments => exact q_varArgsAssignments 
  case vfpDef => exact q_vfpDef 
  case stmt => exact q_stmt 
  case simpleStmt => exact q_simpleStmt 
  case simpleStmtLoop => exact q_simpleStmtLoop _ _ _ _ _ _ (by assumption) (by assumption)
  case smallStmt => exact q_smallStmt 
  case exprStmt => exact q_exprStmt 
  case assignLoop => exact q_assignLoop _ _ _ _ _ _ (by assumption) (by assumption)
  case annAssign => exact q_annAssign _ _ _ _ (by assumption)
  case delStmt => exact q_delStmt 
  case passStmt => exact q_passStmt 
  case flowStmt => exact q_flowStmt 
  case breakStmt => exact q_breakStmt 
  case continueStmt => exact q_continueStmt 
  case returnStmt => exact q_returnStmt 
  case yieldStmt => exact q_yieldStmt 
  case raiseStmt => exact q_raiseStmt 
  case importStmt => exact q_importStmt 
  case importName => exact q_importName 
  case importFrom => exact q_importFrom 
  case importDotLoop => exact q_importDotLoop _ _ _ _ _ _ (by assumption) (by assumption)
  case importAsName => exact q_importAsName 
  case dottedAsName => exact q_dottedAsName 
  case importAsNames => exact q_importAsNames 
  case importAsNamesLoop => exact q_importAsNamesLoop _ _ _ _ _ _ (by assumption) (by assumption)
  case dottedAsNames => exact q_dottedAsNames 
  case dottedAsNamesLoop => exact q_dottedAsNamesLoop _ _ _ _ _ _ (by assumption) (by assumption)
  case dottedName => exact q_dottedName 
  case dottedNameLoop => exact q_dottedNameLoop _ _ _ _ _ _ (by assumption) (by assumption)
  case globalStmt => exact q_globalStmt 
  case globalLoop => exact q_globalLoop _ _ _ _ _ _ _ _ (by assumption) (by assumption) (by assumption)
  case nonlocalStmt => exact q_nonlocalStmt 
  case nonlocalLoop => exact q_nonlocalLoop _ _ _ _ _ _ _ _ (by assumption) (by assumption) (by assumption)
  case assertStmt => exact q_assertStmt 
  case compoundStmt => exact q_compoundStmt 
  case asyncStmt => exact q_asyncStmt 
  case ifStmt => exact q_ifStmt 
  case ifLoop => exact q_ifLoop _ _ _ _ _ _ _ _ _ _ _ _ (by assumption) (by assumption) (by assumption) (by assumption) (by assumption)
  case elifStmt => exact q_elifStmt 
  case elseStmt => exact q_elseStmt 
  case whileStmt => exact q_whileStmt 
  case forStmt => exact q_forStmt 
  case tryStmt => exact q_tryStmt 
  case tryLoop => exact q_tryLoop _ _ _ _ _ _ _ _ _ _ (by assumption) (by assumption) (by assumption) (by assumption)
  case finallyStmt => exact q_finallyStmt 
  case withStmt => exact q_withStmt 
  case withParenLoop => exact q_withParenLoop _ _ _ _ _ _ _ _ _ _ (by assumption) (by assumption) (by assumption) (by assumption)
  case withLoop => exact q_withLoop _ _ _ _ _ _ _ _ (by assumption) (by assumption) (by assumption)
  case withItem => exact q_withItem 
  case exceptStmt => exact q_exceptStmt 
  case exceptClause => exact q_exceptClause 
  case suite => exact q_suite 
  case suiteLoop => exact q_suiteLoop _ _ _ _ _ _ _ _ (by assumption) (by assumption) (by assumption)
  case evalLoop => exact q_evalLoop _ _ _ _ _ _ (by assumption) (by assumption)
  case fileLoop => exact q_fileLoop _ _ _ _ _ _ (by assumption) (by assumption)
  case funcTypeLoop => exact q_funcTypeLoop _ _ _ _ _ _ (by assumption) (by assumption)
  case decorator => exact q_decorator 
  case decorators => exact q_decorators 
  case decoratorsLoop => exact q_decoratorsLoop _ _ _ _ (by assumption)
  case decorated => exact q_decorated 
  case asyncFuncDef => exact q_asyncFuncDef 
  case funcDef => exact q_funcDef 
  case parameters => exact q_parameters 
  case typedArgsList => exact q_typedArgsList 
  case tfpDefAssign => exact q_tfpDefAssign 
  case tfpDef => exact q_tfpDef 
  case funcBodySuite => exact q_funcBodySuite 
  case funcBodyLoop => exact q_funcBodyLoop _ _ _ _ _ _ _ _ _ _ _ _ (by assumption) (by assumption) (by assumption) (by assumption) (by assumption)
  case classDef => exact q_classDef 
  case funcType => exact q_funcType 
  case typeList => exact q_typeList 
  case typeListMainLoop => exact q_typeListMainLoop _ _ _ _ (by assumption)
  case typeListStarLoop => exact q_typeListStarLoop _ _ _ _ (by assumption)
  case evalInput => exact q_evalInput 
  case fileInput => exact q_fileInput 
  case singleInput => exact q_singleInput 
  case funcTypeInput => exact q_funcTypeInput 
  case patternsMatch => exact q_patternsMatch 

theorem qa_body [Plug] {f g : Fn} (h : Fn.LikeQ f g) (hs : FnSafe f = true) (ha : f ≠ .atom) : RelQ .at (body f) (body g) := by
  cases h
  case atom => exact absurd rfl ha
  case atomStrLoop => exact qa_atomStrLoop _ _ _ _ (by assumption)
  case atomExpr => exact qa_atomExpr 
  case trailerLoop => cases hs
  case power => exact qa_power 
  case factor => exact qa_factor 
  case term => exact qa_term 
  case termLoop => cases hs
  case arith => exact qa_arith 
  case arithLoop => cases hs
  case shift => exact qa_shift 
  case shiftLoop => cases hs
  case andExpr => exact qa_andExpr 
  case andExprLoop => cases hs
  case xorExpr => exact qa_xorExpr 
  case xorExprLoop => cases hs
  case expr => exact qa_expr 
  case exprLoop => cases hs
  case starExpr => exact qa_starExpr 
  case comparison => exact qa_comparison 
  case comparisonLoop => cases hs
  case notTest => exact qa_notTest 
  case andTest => exact qa_andTest 
  case andTestLoop => cases hs
  case orTest => exact qa_orTest 
  case orTestLoop => cases hs
  case lambdaDef => cases hs
  case noCondTest => exact qa_noCondTest 
  case test => exact qa_test 
  case namedExpression => exact qa_namedExpression 
  case testlistComp => exact qa_testlistComp 
  case testlistCompLoop => exact qa_testlistCompLoop _ _ _ _ _ _ (by assumption) (by assumption)
  case trailer => cases hs
  case subscriptList => exact qa_subscriptList 
  case subscriptListLoop => exact qa_subscriptListLoop _ _ _ _ _ _ (by assumption) (by assumption)
  case subscript => exact qa_subscript 
  case exprlist => exact qa_exprlist 
  case exprlistLoop => exact qa_exprlistLoop _ _ _ _ _ _ (by assumption) (by assumption)
  case testlist => exact qa_testlist 
  case testlistLoop => exact qa_testlistLoop _ _ _ _ _ _ (by assumption) (by assumption)
  case dictorsetMaker => exact qa_dictorsetMaker 
  case setLoop => exact qa_setLoop _ _ _ _ _ _ (by assumption) (by assumption)
  case arglist => exact qa_arglist 
  case arglistLoop => exact qa_arglistLoop _ _ _ _ _ _ (by assumption) (by assumption)
  case argument => exact qa_argument 
  case compIter => exact qa_compIter 
  case syncCompFor => exact qa_syncCompFor 
  case compFor => exact qa_compFor 
  case compIf => exact qa_compIf 
  case yieldExpr => exact qa_yieldExpr 
  case testlistStarExpr => exact qa_testlistStarExpr 
  case testlistStarExprLoop => exact qa_testlistStarExprLoop _ _ _ _ _ _ (by assumption) (by assumption)
  case varArgsList => exact qa_varArgsList 
  case varArgsMainLoop => exact qa_varArgsMainLoop _ _ _ _ (by assumption)
  case varArgsStarLoop => exact qa_varArgsStarLoop _ _ _ _ (by assumption)
  case varArgsDivLoop => exact qa_varArgsDivLoop _ _ _ _ (by assumption)
  case varArgsAssignments => exact qa_varArgsAssignments 
  case vfpDef => exact qa_vfpDef 
  case stmt => exact qa_stmt 
  case simpleStmt => exact qa_simpleStmt 
  case simpleStmtLoop => exact qa_simpleStmtLoop _ _ _ _ _ _ (by assumption) (by assumption)
  case smallStmt => exact qa_smallStmt 
  case exprStmt => exact qa_exprStmt 
  case assignLoop => exact qa_assignLoop _ _ _ _ _ _ (by assumption) (by assumption)
  case annAssign => exact qa_annAssign _ _ _ _ (by assumption)
  case delStmt => exact qa_delStmt 
  case passStmt => exact qa_passStmt 
  case flowStmt => exact qa_flowStmt 
  case breakStmt => exact qa_breakStmt 
  case continueStmt => exact qa_continueStmt 
  case returnStmt => exact qa_returnStmt 
  case yieldStmt => exact qa_yieldStmt 
  case raiseStmt => exact qa_raiseStmt 
  case importStmt => exact qa_importStmt 
  case importName => exact qa_importName 
  case importFrom => exact qa_importFrom 
  case importDotLoop => exact qa_importDotLoop _ _ _ _ _ _ (by assumption) (by assumption)
  case importAsName => exact qa_importAsName 
  case dottedAsName => exact qa_dottedAsName 
  case importAsNames => exact qa_importAsNames 
  case importAsNamesLoop => exact qa_importAsNamesLoop _ _ _ _ _ _ (by assumption) (by assumption)
  case dottedAsNames => exact qa_dottedAsNames 
  case dottedAsNamesLoop => exact qa_dottedAsNamesLoop _ _ _ _ _ _ (by assumption) (by assumption)
  case dottedName => exact qa_dottedName 
  case dottedNameLoop => exact qa_dottedNameLoop _ _ _ _ _ _ (by assumption) (by assumption)
  case globalStmt => exact qa_globalStmt 
  case globalLoop => exact qa_globalLoop _ _ _ _ _ _ _ _ (by assumption) (by assumption) (by assumption)
  case nonlocalStmt => exact qa_nonlocalStmt 
  case nonlocalLoop => exact qa_nonlocalLoop _ _ _ _ _ _ _ _ (by assumption) (by assumption) (by assumption)
  case assertStmt => exact qa_assertStmt 
  case compoundStmt => exact qa_compoundStmt 
  case asyncStmt => exact qa_asyncStmt 
  case ifStmt => exact qa_ifStmt 
  case ifLoop => exact qa_ifLoop _ _ _ _ _ _ _ _ _ _ _ _ (by assumption) (by assumption) (by assumption) (by assumption) (by assumption)
  case elifStmt => exact qa_elifStmt 
  case elseStmt => exact qa_elseStmt 
  case whileStmt => exact qa_whileStmt 
  case forStmt => exact qa_forStmt 
  case tryStmt => exact qa_tryStmt 
  case tryLoop => exact qa_tryLoop _ _ _ _ _ _ _ _ _ _ (by assumption) (by assumption) (by assumption) (by assumption)
  case finallyStmt => exact qa_finallyStmt 
  case withStmt => exact qa_withStmt 
  case withParenLoop => exact qa_withParenLoop _ _ _ _ _ _ _ _ _ _ (by assumption) (by assumption) (by assumption) (by assumption)
  case withLoop => exact qa_withLoop _ _ _ _ _ _ _ _ (by assumption) (by assumption) (by assumption)
  case withItem => exact qa_withItem 
  case exceptStmt => exact qa_exceptStmt 
  case exceptClause => exact qa_exceptClause 
  case suite => exact qa_suite 
  case suiteLoop => exact qa_suiteLoop _ _ _ _ _ _ _ _ (by assumption) (by assumption) (by assumption)
  case evalLoop => exact qa_evalLoop _ _ _ _ _ _ (by assumption) (by assumption)
  case fileLoop => exact qa_fileLoop _ _ _ _ _ _ (by assumption) (by assumption)
  case funcTypeLoop => exact qa_funcTypeLoop _ _ _ _ _ _ (by assumption) (by assumption)
  case decorator => exact qa_decorator 
  case decorators => exact qa_decorators 
  case decoratorsLoop => exact qa_decoratorsLoop _ _ _ _ (by assumption)
  case decorated => exact qa_decorated 
  case asyncFuncDef => exact qa_asyncFuncDef 
  case funcDef => exact qa_funcDef 
  case parameters => exact qa_parameters 
  case typedArgsList => exact qa_typedArgsList 
  case tfpDefAssign => exact qa_tfpDefAssign 
  case tfpDef => exact qa_tfpDef 
  case funcBodySuite => exact qa_funcBodySuite 
  case funcBodyLoop => exact qa_funcBodyLoop _ _ _ _ _ _ _ _ _ _ _ _ (by assumption) (by assumption) (by assumption) (by assumption) (by assumption)
  case classDef => exact qa_classDef 
  case funcType => exact qa_funcType 
  case typeList => exact qa_typeList 
  case typeListMainLoop => exact qa_typeListMainLoop _ _ _ _ (by assumption)
  case typeListStarLoop => exact qa_typeListStarLoop _ _ _ _ (by assumption)
  case evalInput => cases hs
  case fileInput => cases hs
  case singleInput => cases hs
  case funcTypeInput => cases hs
  case patternsMatch => exact qa_patternsMatch 

end Verif
