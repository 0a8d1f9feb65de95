import Verif.Proof.Message

namespace Verif
open Prog
set_option maxRecDepth 2000
variable {s0 : Except LexErr Token}

theorem hon_atom : Honest (atomBody) s0 := by
  unfold atomBody
  hon
theorem hon_atomStrLoop {s} {l} : Honest (atomStrLoopBody s l) s0 := by
  unfold atomStrLoopBody
  hon
theorem hon_atomExpr : Honest (atomExprBody) s0 := by
  unfold atomExprBody
  hon
theorem hon_trailerLoop {s} {a} {r} {l} : Honest (trailerLoopBody s a r l) s0 := by
  unfold trailerLoopBody
  simp only [trailerLoopBody.fin]
  hon
theorem hon_power : Honest (powerBody) s0 := by
  unfold powerBody
  hon
theorem hon_factor : Honest (factorBody) s0 := by
  unfold factorBody
  hon
theorem hon_term : Honest (termBody) s0 := by
  unfold termBody
  hon
theorem hon_termLoop {s} {l} : Honest (termLoopBody s l) s0 := by
  unfold termLoopBody
  simp only [leftLoopBody]
  hon
theorem hon_arith : Honest (arithBody) s0 := by
  unfold arithBody
  hon
theorem hon_arithLoop {s} {l} : Honest (arithLoopBody s l) s0 := by
  unfold arithLoopBody
  simp only [leftLoopBody]
  hon
theorem hon_shift : Honest (shiftBody) s0 := by
  unfold shiftBody
  hon
theorem hon_shiftLoop {s} {l} : Honest (shiftLoopBody s l) s0 := by
  unfold shiftLoopBody
  simp only [leftLoopBody]
  hon
theorem hon_andExpr : Honest (andExprBody) s0 := by
  unfold andExprBody
  hon
theorem hon_andExprLoop {s} {l} : Honest (andExprLoopBody s l) s0 := by
  unfold andExprLoopBody
  simp only [leftLoopBody]
  hon
theorem hon_xorExpr : Honest (xorExprBody) s0 := by
  unfold xorExprBody
  hon
theorem hon_xorExprLoop {s} {l} : Honest (xorExprLoopBody s l) s0 := by
  unfold xorExprLoopBody
  simp only [leftLoopBody]
  hon
theorem hon_expr : Honest (exprBody) s0 := by
  unfold exprBody
  hon
theorem hon_exprLoop {s} {l} : Honest (exprLoopBody s l) s0 := by
  unfold exprLoopBody
  simp only [leftLoopBody]
  hon
theorem hon_starExpr : Honest (starExprBody) s0 := by
  unfold starExprBody
  hon
theorem hon_comparison : Honest (comparisonBody) s0 := by
  unfold comparisonBody
  hon
theorem hon_comparisonLoop {s} {l} : Honest (comparisonLoopBody s l) s0 := by
  unfold comparisonLoopBody
  hon
theorem hon_notTest : Honest (notTestBody) s0 := by
  unfold notTestBody
  hon
theorem hon_andTest : Honest (andTestBody) s0 := by
  unfold andTestBody
  hon
theorem hon_andTestLoop {s} {l} : Honest (andTestLoopBody s l) s0 := by
  unfold andTestLoopBody
  simp only [leftLoopBody]
  hon
theorem hon_orTest : Honest (orTestBody) s0 := by
  unfold orTestBody
  hon
theorem hon_orTestLoop {s} {l} : Honest (orTestLoopBody s l) s0 := by
  unfold orTestLoopBody
  simp only [leftLoopBody]
  hon
theorem hon_lambdaDef {c} : Honest (lambdaDefBody c) s0 := by
  unfold lambdaDefBody
  hon
theorem hon_noCondTest : Honest (noCondTestBody) s0 := by
  unfold noCondTestBody
  hon
theorem hon_test : Honest (testBody) s0 := by
  unfold testBody
  hon
theorem hon_namedExpression : Honest (namedExpressionBody) s0 := by
  unfold namedExpressionBody
  hon
theorem hon_testlistComp : Honest (testlistCompBody) s0 := by
  unfold testlistCompBody
  simp only [starOrNamed]
  hon
theorem hon_testlistCompLoop {s} {n} {p} : Honest (testlistCompLoopBody s n p) s0 := by
  unfold testlistCompLoopBody
  simp only [starOrNamed]
  hon
theorem hon_trailer : Honest (trailerBody) s0 := by
  unfold trailerBody
  hon
theorem hon_subscriptList : Honest (subscriptListBody) s0 := by
  unfold subscriptListBody
  hon
theorem hon_subscriptListLoop {s} {n} {p} : Honest (subscriptListLoopBody s n p) s0 := by
  unfold subscriptListLoopBody
  hon
theorem hon_subscript : Honest (subscriptBody) s0 := by
  unfold subscriptBody
  hon
theorem hon_exprlist : Honest (exprlistBody) s0 := by
  unfold exprlistBody
  simp only [starOrNamed]
  hon
theorem hon_exprlistLoop {s} {n} {p} : Honest (exprlistLoopBody s n p) s0 := by
  unfold exprlistLoopBody
  simp only [listResult]
  hon
theorem hon_testlist : Honest (testlistBody) s0 := by
  unfold testlistBody
  hon
theorem hon_testlistLoop {s} {n} {p} : Honest (testlistLoopBody s n p) s0 := by
  unfold testlistLoopBody
  simp only [listResult]
  hon
theorem hon_dictorsetMaker : Honest (dictorsetMakerBody) s0 := by
  unfold dictorsetMakerBody
  simp only [dictRest, dictRest.fin]
  hon
theorem hon_setLoop {s} {n} {p} : Honest (setLoopBody s n p) s0 := by
  unfold setLoopBody
  hon
theorem hon_arglist : Honest (arglistBody) s0 := by
  unfold arglistBody
  hon
theorem hon_arglistLoop {s} {n} {p} : Honest (arglistLoopBody s n p) s0 := by
  unfold arglistLoopBody
  hon
theorem hon_argument : Honest (argumentBody) s0 := by
  unfold argumentBody
  hon
theorem hon_compIter : Honest (compIterBody) s0 := by
  unfold compIterBody
  hon
theorem hon_syncCompFor : Honest (syncCompForBody) s0 := by
  unfold syncCompForBody
  hon
theorem hon_compFor : Honest (compForBody) s0 := by
  unfold compForBody
  hon
theorem hon_compIf : Honest (compIfBody) s0 := by
  unfold compIfBody
  hon
theorem hon_yieldExpr : Honest (yieldExprBody) s0 := by
  unfold yieldExprBody
  hon
theorem hon_testlistStarExpr : Honest (testlistStarExprBody) s0 := by
  unfold testlistStarExprBody
  hon
theorem hon_testlistStarExprLoop {s} {n} {p} : Honest (testlistStarExprLoopBody s n p) s0 := by
  unfold testlistStarExprLoopBody
  simp only [testlistStarExprResult]
  hon
theorem hon_varArgsList : Honest (varArgsListBody) s0 := by
  unfold varArgsListBody
  simp only [vaMsg, varArgsMul, varArgsPower, varArgsResult]
  hon
theorem hon_varArgsMainLoop {s} {v} : Honest (varArgsMainLoopBody s v) s0 := by
  unfold varArgsMainLoopBody
  simp only [vaMsg, varArgsMul, varArgsPower, varArgsResult]
  hon
theorem hon_varArgsStarLoop {s} {v} : Honest (varArgsStarLoopBody s v) s0 := by
  unfold varArgsStarLoopBody
  simp only [vaMsg, varArgsPower, varArgsResult]
  hon
theorem hon_varArgsDivLoop {s} {v} : Honest (varArgsDivLoopBody s v) s0 := by
  unfold varArgsDivLoopBody
  simp only [vaMsg, varArgsMul, varArgsPower, varArgsResult]
  hon
theorem hon_varArgsAssignments : Honest (varArgsAssignmentsBody) s0 := by
  unfold varArgsAssignmentsBody
  hon
theorem hon_vfpDef : Honest (vfpDefBody) s0 := by
  unfold vfpDefBody
  hon
theorem hon_stmt : Honest (stmtBody) s0 := by
  unfold stmtBody
  hon
theorem hon_simpleStmt : Honest (simpleStmtBody) s0 := by
  unfold simpleStmtBody
  hon
theorem hon_simpleStmtLoop {s} {n} {p} : Honest (simpleStmtLoopBody s n p) s0 := by
  unfold simpleStmtLoopBody
  simp only [simpleStmtLoopBody.fin]
  hon
theorem hon_smallStmt : Honest (smallStmtBody) s0 := by
  unfold smallStmtBody
  hon
theorem hon_exprStmt : Honest (exprStmtBody) s0 := by
  unfold exprStmtBody
  simp only [yieldOrTestlist]
  hon
theorem hon_assignLoop {s} {l} {n} : Honest (assignLoopBody s l n) s0 := by
  unfold assignLoopBody
  simp only [yieldOrTestlist]
  hon
theorem hon_annAssign {s} {l} : Honest (annAssignBody s l) s0 := by
  unfold annAssignBody
  simp only [yieldOrTestlist]
  hon
theorem hon_delStmt : Honest (delStmtBody) s0 := by
  unfold delStmtBody
  hon
theorem hon_passStmt : Honest (passStmtBody) s0 := by
  unfold passStmtBody
  hon
theorem hon_flowStmt : Honest (flowStmtBody) s0 := by
  unfold flowStmtBody
  hon
theorem hon_breakStmt : Honest (breakStmtBody) s0 := by
  unfold breakStmtBody
  hon
theorem hon_continueStmt : Honest (continueStmtBody) s0 := by
  unfold continueStmtBody
  hon
theorem hon_returnStmt : Honest (returnStmtBody) s0 := by
  unfold returnStmtBody
  hon
theorem hon_yieldStmt : Honest (yieldStmtBody) s0 := by
  unfold yieldStmtBody
  hon
theorem hon_raiseStmt : Honest (raiseStmtBody) s0 := by
  unfold raiseStmtBody
  hon
theorem hon_importStmt : Honest (importStmtBody) s0 := by
  unfold importStmtBody
  hon
theorem hon_importName : Honest (importNameBody) s0 := by
  unfold importNameBody
  hon
theorem hon_importFrom : Honest (importFromBody) s0 := by
  unfold importFromBody
  hon
theorem hon_importDotLoop {s} {t} {d} : Honest (importDotLoopBody s t d) s0 := by
  unfold importDotLoopBody
  simp only [importFromRest]
  hon
theorem hon_importAsName : Honest (importAsNameBody) s0 := by
  unfold importAsNameBody
  hon
theorem hon_dottedAsName : Honest (dottedAsNameBody) s0 := by
  unfold dottedAsNameBody
  hon
theorem hon_importAsNames : Honest (importAsNamesBody) s0 := by
  unfold importAsNamesBody
  hon
theorem hon_importAsNamesLoop {s} {n} {p} : Honest (importAsNamesLoopBody s n p) s0 := by
  unfold importAsNamesLoopBody
  hon
theorem hon_dottedAsNames : Honest (dottedAsNamesBody) s0 := by
  unfold dottedAsNamesBody
  hon
theorem hon_dottedAsNamesLoop {s} {n} {p} : Honest (dottedAsNamesLoopBody s n p) s0 := by
  unfold dottedAsNamesLoopBody
  hon
theorem hon_dottedName : Honest (dottedNameBody) s0 := by
  unfold dottedNameBody
  hon
theorem hon_dottedNameLoop {s} {n} {p} : Honest (dottedNameLoopBody s n p) s0 := by
  unfold dottedNameLoopBody
  hon
theorem hon_globalStmt : Honest (globalStmtBody) s0 := by
  unfold globalStmtBody
  hon
theorem hon_globalLoop {s} {t} {n} {p} : Honest (globalLoopBody s t n p) s0 := by
  unfold globalLoopBody
  hon
theorem hon_nonlocalStmt : Honest (nonlocalStmtBody) s0 := by
  unfold nonlocalStmtBody
  hon
theorem hon_nonlocalLoop {s} {t} {n} {p} : Honest (nonlocalLoopBody s t n p) s0 := by
  unfold nonlocalLoopBody
  hon
theorem hon_assertStmt : Honest (assertStmtBody) s0 := by
  unfold assertStmtBody
  hon
theorem hon_compoundStmt : Honest (compoundStmtBody) s0 := by
  unfold compoundStmtBody
  hon
theorem hon_asyncStmt : Honest (asyncStmtBody) s0 := by
  unfold asyncStmtBody
  hon
theorem hon_ifStmt : Honest (ifStmtBody) s0 := by
  unfold ifStmtBody
  hon
theorem hon_ifLoop {s} {t} {l} {t2} {r} {n} : Honest (ifLoopBody s t l t2 r n) s0 := by
  unfold ifLoopBody
  hon
theorem hon_elifStmt : Honest (elifStmtBody) s0 := by
  unfold elifStmtBody
  hon
theorem hon_elseStmt : Honest (elseStmtBody) s0 := by
  unfold elseStmtBody
  hon
theorem hon_whileStmt : Honest (whileStmtBody) s0 := by
  unfold whileStmtBody
  hon
theorem hon_forStmt : Honest (forStmtBody) s0 := by
  unfold forStmtBody
  hon
theorem hon_tryStmt : Honest (tryStmtBody) s0 := by
  unfold tryStmtBody
  hon
theorem hon_tryLoop {s} {t} {t2} {l} {n} : Honest (tryLoopBody s t t2 l n) s0 := by
  unfold tryLoopBody
  hon
theorem hon_finallyStmt : Honest (finallyStmtBody) s0 := by
  unfold finallyStmtBody
  hon
theorem hon_withStmt : Honest (withStmtBody) s0 := by
  unfold withStmtBody
  hon
theorem hon_withParenLoop {s} {t} {l} {n} {p} : Honest (withParenLoopBody s t l n p) s0 := by
  unfold withParenLoopBody
  simp only [withParenEnd, withRest]
  hon
theorem hon_withLoop {s} {t} {n} {p} : Honest (withLoopBody s t n p) s0 := by
  unfold withLoopBody
  simp only [withRest]
  hon
theorem hon_withItem : Honest (withItemBody) s0 := by
  unfold withItemBody
  hon
theorem hon_exceptStmt : Honest (exceptStmtBody) s0 := by
  unfold exceptStmtBody
  hon
theorem hon_exceptClause : Honest (exceptClauseBody) s0 := by
  unfold exceptClauseBody
  simp only [exceptStar]
  hon
theorem hon_suite : Honest (suiteBody) s0 := by
  unfold suiteBody
  hon
theorem hon_suiteLoop {s} {t} {t2} {n} : Honest (suiteLoopBody s t t2 n) s0 := by
  unfold suiteLoopBody
  hon
theorem hon_evalInput : Honest (evalInputBody) s0 := by
  unfold evalInputBody
  hon
theorem hon_evalLoop {s} {r} {p} : Honest (evalLoopBody s r p) s0 := by
  unfold evalLoopBody
  hon
theorem hon_fileInput : Honest (fileInputBody) s0 := by
  unfold fileInputBody
  hon
theorem hon_fileLoop {s} {n} {p} : Honest (fileLoopBody s n p) s0 := by
  unfold fileLoopBody
  hon
theorem hon_singleInput : Honest (singleInputBody) s0 := by
  unfold singleInputBody
  simp only [singleNewline]
  hon
theorem hon_funcTypeInput : Honest (funcTypeInputBody) s0 := by
  unfold funcTypeInputBody
  hon
theorem hon_funcTypeLoop {s} {r} {p} : Honest (funcTypeLoopBody s r p) s0 := by
  unfold funcTypeLoopBody
  hon
theorem hon_decorator : Honest (decoratorBody) s0 := by
  unfold decoratorBody
  simp only [decoratorEnd]
  hon
theorem hon_decorators : Honest (decoratorsBody) s0 := by
  unfold decoratorsBody
  hon
theorem hon_decoratorsLoop {s} {n} : Honest (decoratorsLoopBody s n) s0 := by
  unfold decoratorsLoopBody
  hon
theorem hon_decorated : Honest (decoratedBody) s0 := by
  unfold decoratedBody
  hon
theorem hon_asyncFuncDef : Honest (asyncFuncDefBody) s0 := by
  unfold asyncFuncDefBody
  hon
theorem hon_funcDef : Honest (funcDefBody) s0 := by
  unfold funcDefBody
  hon
theorem hon_parameters : Honest (parametersBody) s0 := by
  unfold parametersBody
  hon
theorem hon_typedArgsList : Honest (typedArgsListBody) s0 := by
  unfold typedArgsListBody
  hon
theorem hon_tfpDefAssign : Honest (tfpDefAssignBody) s0 := by
  unfold tfpDefAssignBody
  hon
theorem hon_tfpDef : Honest (tfpDefBody) s0 := by
  unfold tfpDefBody
  hon
theorem hon_funcBodySuite : Honest (funcBodySuiteBody) s0 := by
  unfold funcBodySuiteBody
  simp only [funcBodyIndent]
  hon
theorem hon_funcBodyLoop {s} {t} {tc} {tn} {t4} {n} : Honest (funcBodyLoopBody s t tc tn t4 n) s0 := by
  unfold funcBodyLoopBody
  hon
theorem hon_classDef : Honest (classDefBody) s0 := by
  unfold classDefBody
  simp only [classRest]
  hon
theorem hon_funcType : Honest (funcTypeBody) s0 := by
  unfold funcTypeBody
  hon
theorem hon_typeList : Honest (typeListBody) s0 := by
  unfold typeListBody
  simp only [tlMsg, typeListMul, typeListPower, typeListResult]
  hon
theorem hon_typeListMainLoop {s} {v} : Honest (typeListMainLoopBody s v) s0 := by
  unfold typeListMainLoopBody
  simp only [tlMsg, typeListMul, typeListPower, typeListResult]
  hon
theorem hon_typeListStarLoop {s} {v} : Honest (typeListStarLoopBody s v) s0 := by
  unfold typeListStarLoopBody
  simp only [tlMsg, typeListPower, typeListResult]
  hon
theorem hon_patternsMatch : Honest (patternsMatchBody) s0 := by
  unfold patternsMatchBody
  hon

theorem hon_body (f : Fn) : Honest (body f) s0 := by
  cases f
  · exact hon_atom
  · exact hon_atomStrLoop
  · exact hon_atomExpr
  · exact hon_trailerLoop
  · exact hon_power
  · exact hon_factor
  · exact hon_term
  · exact hon_termLoop
  · exact hon_arith
  · exact hon_arithLoop
  · exact hon_shift
  · exact hon_shiftLoop
  · exact hon_andExpr
  · exact hon_andExprLoop
  · exact hon_xorExpr
  · exact hon_xorExprLoop
  · exact hon_expr
  · exact hon_exprLoop
  · exact hon_starExpr
  · exact hon_comparison
  · exact hon_comparisonLoop
  · exact hon_notTest
  · exact hon_andTest
  · exact hon_andTestLoop
  · exact hon_orTest
  · exact hon_orTestLoop
  · exact hon_lambdaDef
  · exact hon_noCondTest
  · exact hon_test
  · exact hon_namedExpression
  · exact hon_testlistComp
  · exact hon_testlistCompLoop
  · exact hon_trailer
  · exact hon_subscriptList
  · exact hon_subscriptListLoop
  · exact hon_subscript
  · exact hon_exprlist
  · exact hon_exprlistLoop
  · exact hon_testlist
  · exact hon_testlistLoop
  · exact hon_dictorsetMaker
  · exact hon_setLoop
  · exact hon_arglist
  · exact hon_arglistLoop
  · exact hon_argument
  · exact hon_compIter
  · exact hon_syncCompFor
  · exact hon_compFor
  · exact hon_compIf
  · exact hon_yieldExpr
  · exact hon_testlistStarExpr
  · exact hon_testlistStarExprLoop
  · exact hon_varArgsList
  · exact hon_varArgsMainLoop
  · exact hon_varArgsStarLoop
  · exact hon_varArgsDivLoop
  · exact hon_varArgsAssignments
  · exact hon_vfpDef
  · exact hon_stmt
  · exact hon_simpleStmt
  · exact hon_simpleStmtLoop
  · exact hon_smallStmt
  · exact hon_exprStmt
  · exact hon_assignLoop
  · exact hon_annAssign
  · exact hon_delStmt
  · exact hon_passStmt
  · exact hon_flowStmt
  · exact hon_breakStmt
  · exact hon_continueStmt
  · exact hon_returnStmt
  · exact hon_yieldStmt
  · exact hon_raiseStmt
  · exact hon_importStmt
  · exact hon_importName
  · exact hon_importFrom
  · exact hon_importDotLoop
  · exact hon_importAsName
  · exact hon_dottedAsName
  · exact hon_importAsNames
  · exact hon_importAsNamesLoop
  · exact hon_dottedAsNames
  · exact hon_dottedAsNamesLoop
  · exact hon_dottedName
  · exact hon_dottedNameLoop
  · exact hon_globalStmt
  · exact hon_globalLoop
  · exact hon_nonlocalStmt
  · exact hon_nonlocalLoop
  · exact hon_assertStmt
  · exact hon_compoundStmt
  · exact hon_asyncStmt
  · exact hon_ifStmt
  · exact hon_ifLoop
  · exact hon_elifStmt
  · exact hon_elseStmt
  · exact hon_whileStmt
  · exact hon_forStmt
  · exact hon_tryStmt
  · exact hon_tryLoop
  · exact hon_finallyStmt
  · exact hon_withStmt
  · exact hon_withParenLoop
  · exact hon_withLoop
  · exact hon_withItem
  · exact hon_exceptStmt
  · exact hon_exceptClause
  · exact hon_suite
  · exact hon_suiteLoop
  · exact hon_evalInput
  · exact hon_evalLoop
  · exact hon_fileInput
  · exact hon_fileLoop
  · exact hon_singleInput
  · exact hon_funcTypeInput
  · exact hon_funcTypeLoop
  · exact hon_decorator
  · exact hon_decorators
  · exact hon_decoratorsLoop
  · exact hon_decorated
  · exact hon_asyncFuncDef
  · exact hon_funcDef
  · exact hon_parameters
  · exact hon_typedArgsList
  · exact hon_tfpDefAssign
  · exact hon_tfpDef
  · exact hon_funcBodySuite
  · exact hon_funcBodyLoop
  · exact hon_classDef
  · exact hon_funcType
  · exact hon_typeList
  · exact hon_typeListMainLoop
  · exact hon_typeListStarLoop
  · exact hon_patternsMatch

end Verif
