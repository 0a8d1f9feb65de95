import Verif.Proof.PlugStep

/-!
# Functions that start at the number
-/
set_option linter.unusedSimpArgs false
set_option linter.unusedVariables false
namespace Verif
open Prog Plug
theorem qa_atomStrLoop [Plug] (s s' : Nat) (toks toks' : List Token) (h0 : toks.map Token.bare = toks'.map Token.bare) : RelQ .at (atomStrLoopBody s toks) (atomStrLoopBody s' toks') := by
  unfold atomStrLoopBody; q_auto
theorem qa_atomExpr [Plug]  : RelQ .at (atomExprBody) (atomExprBody) := by
  unfold atomExprBody; q_auto
theorem qa_power [Plug]  : RelQ .at (powerBody) (powerBody) := by
  unfold powerBody; q_auto
theorem qa_factor [Plug]  : RelQ .at (factorBody) (factorBody) := by
  unfold factorBody; q_auto
theorem qa_term [Plug]  : RelQ .at (termBody) (termBody) := by
  unfold termBody; q_auto
theorem qa_arith [Plug]  : RelQ .at (arithBody) (arithBody) := by
  unfold arithBody; q_auto
theorem qa_shift [Plug]  : RelQ .at (shiftBody) (shiftBody) := by
  unfold shiftBody; q_auto
theorem qa_andExpr [Plug]  : RelQ .at (andExprBody) (andExprBody) := by
  unfold andExprBody; q_auto
theorem qa_xorExpr [Plug]  : RelQ .at (xorExprBody) (xorExprBody) := by
  unfold xorExprBody; q_auto
theorem qa_expr [Plug]  : RelQ .at (exprBody) (exprBody) := by
  unfold exprBody; q_auto
theorem qa_starExpr [Plug]  : RelQ .at (starExprBody) (starExprBody) := by
  unfold starExprBody; q_auto
theorem qa_comparison [Plug]  : RelQ .at (comparisonBody) (comparisonBody) := by
  unfold comparisonBody; q_auto
theorem qa_notTest [Plug]  : RelQ .at (notTestBody) (notTestBody) := by
  unfold notTestBody; q_auto
theorem qa_andTest [Plug]  : RelQ .at (andTestBody) (andTestBody) := by
  unfold andTestBody; q_auto
theorem qa_orTest [Plug]  : RelQ .at (orTestBody) (orTestBody) := by
  unfold orTestBody; q_auto
theorem qa_noCondTest [Plug]  : RelQ .at (noCondTestBody) (noCondTestBody) := by
  unfold noCondTestBody; q_auto
theorem qa_test [Plug]  : RelQ .at (testBody) (testBody) := by
  unfold testBody; q_auto
theorem qa_namedExpression [Plug]  : RelQ .at (namedExpressionBody) (namedExpressionBody) := by
  unfold namedExpressionBody; q_auto
theorem qa_testlistComp [Plug]  : RelQ .at (testlistCompBody) (testlistCompBody) := by
  unfold testlistCompBody starOrNamed; q_auto
theorem qa_testlistCompLoop [Plug] (s s' : Nat) (nodes nodes' : List Tree) (seps seps' : List Token) (h0 : PL nodes nodes') (h1 : seps.map Token.bare = seps'.map Token.bare) : RelQ .at (testlistCompLoopBody s nodes seps) (testlistCompLoopBody s' nodes' seps') := by
  unfold testlistCompLoopBody starOrNamed; q_auto
theorem qa_subscriptList [Plug]  : RelQ .at (subscriptListBody) (subscriptListBody) := by
  unfold subscriptListBody; q_auto
theorem qa_subscriptListLoop [Plug] (s s' : Nat) (nodes nodes' : List Tree) (seps seps' : List Token) (h0 : PL nodes nodes') (h1 : seps.map Token.bare = seps'.map Token.bare) : RelQ .at (subscriptListLoopBody s nodes seps) (subscriptListLoopBody s' nodes' seps') := by
  unfold subscriptListLoopBody; q_auto
theorem qa_subscript [Plug]  : RelQ .at (subscriptBody) (subscriptBody) := by
  unfold subscriptBody; q_auto
theorem qa_exprlist [Plug]  : RelQ .at (exprlistBody) (exprlistBody) := by
  unfold exprlistBody starOrNamed; q_auto
theorem qa_exprlistLoop [Plug] (s s' : Nat) (nodes nodes' : List Tree) (seps seps' : List Token) (h0 : PL nodes nodes') (h1 : seps.map Token.bare = seps'.map Token.bare) : RelQ .at (exprlistLoopBody s nodes seps) (exprlistLoopBody s' nodes' seps') := by
  unfold exprlistLoopBody; q_auto
theorem qa_testlist [Plug]  : RelQ .at (testlistBody) (testlistBody) := by
  unfold testlistBody; q_auto
theorem qa_testlistLoop [Plug] (s s' : Nat) (nodes nodes' : List Tree) (seps seps' : List Token) (h0 : PL nodes nodes') (h1 : seps.map Token.bare = seps'.map Token.bare) : RelQ .at (testlistLoopBody s nodes seps) (testlistLoopBody s' nodes' seps') := by
  unfold testlistLoopBody; q_auto
theorem qa_dictorsetMaker [Plug]  : RelQ .at (dictorsetMakerBody) (dictorsetMakerBody) := by
  unfold dictorsetMakerBody dictRest dictRest.fin; q_auto
theorem qa_setLoop [Plug] (s s' : Nat) (nodes nodes' : List Tree) (seps seps' : List Token) (h0 : PL nodes nodes') (h1 : seps.map Token.bare = seps'.map Token.bare) : RelQ .at (setLoopBody s nodes seps) (setLoopBody s' nodes' seps') := by
  unfold setLoopBody; q_auto
theorem qa_arglist [Plug]  : RelQ .at (arglistBody) (arglistBody) := by
  unfold arglistBody; q_auto
theorem qa_arglistLoop [Plug] (s s' : Nat) (nodes nodes' : List Tree) (seps seps' : List Token) (h0 : PL nodes nodes') (h1 : seps.map Token.bare = seps'.map Token.bare) : RelQ .at (arglistLoopBody s nodes seps) (arglistLoopBody s' nodes' seps') := by
  unfold arglistLoopBody; q_auto
theorem qa_argument [Plug]  : RelQ .at (argumentBody) (argumentBody) := by
  unfold argumentBody; q_auto
theorem qa_compIter [Plug]  : RelQ .at (compIterBody) (compIterBody) := by
  unfold compIterBody; q_auto
theorem qa_syncCompFor [Plug]  : RelQ .at (syncCompForBody) (syncCompForBody) := by
  unfold syncCompForBody; q_auto
theorem qa_compFor [Plug]  : RelQ .at (compForBody) (compForBody) := by
  unfold compForBody; q_auto
theorem qa_compIf [Plug]  : RelQ .at (compIfBody) (compIfBody) := by
  unfold compIfBody; q_auto
theorem qa_yieldExpr [Plug]  : RelQ .at (yieldExprBody) (yieldExprBody) := by
  unfold yieldExprBody; q_auto
theorem qa_testlistStarExpr [Plug]  : RelQ .at (testlistStarExprBody) (testlistStarExprBody) := by
  unfold testlistStarExprBody; q_auto
theorem qa_testlistStarExprLoop [Plug] (s s' : Nat) (nodes nodes' : List Tree) (seps seps' : List Token) (h0 : PL nodes nodes') (h1 : seps.map Token.bare = seps'.map Token.bare) : RelQ .at (testlistStarExprLoopBody s nodes seps) (testlistStarExprLoopBody s' nodes' seps') := by
  unfold testlistStarExprLoopBody; q_auto
theorem qa_varArgsList [Plug]  : RelQ .at (varArgsListBody) (varArgsListBody) := by
  unfold varArgsListBody varArgsMul varArgsPower varArgsResult; q_auto
theorem qa_varArgsMainLoop [Plug] (s s' : Nat) (v v' : VA) (h0 : PV v v') : RelQ .at (varArgsMainLoopBody s v) (varArgsMainLoopBody s' v') := by
  obtain ⟨_, _, _, _, _, _, _⟩ := id h0
  unfold varArgsMainLoopBody varArgsMul varArgsPower varArgsResult; q_auto
theorem qa_varArgsStarLoop [Plug] (s s' : Nat) (v v' : VA) (h0 : PV v v') : RelQ .at (varArgsStarLoopBody s v) (varArgsStarLoopBody s' v') := by
  obtain ⟨_, _, _, _, _, _, _⟩ := id h0
  unfold varArgsStarLoopBody varArgsPower varArgsResult; q_auto
theorem qa_varArgsDivLoop [Plug] (s s' : Nat) (v v' : VA) (h0 : PV v v') : RelQ .at (varArgsDivLoopBody s v) (varArgsDivLoopBody s' v') := by
  obtain ⟨_, _, _, _, _, _, _⟩ := id h0
  unfold varArgsDivLoopBody varArgsMul varArgsPower varArgsResult; q_auto
theorem qa_varArgsAssignments [Plug]  : RelQ .at (varArgsAssignmentsBody) (varArgsAssignmentsBody) := by
  unfold varArgsAssignmentsBody; q_auto
theorem qa_vfpDef [Plug]  : RelQ .at (vfpDefBody) (vfpDefBody) := by
  unfold vfpDefBody; q_auto
theorem qa_stmt [Plug]  : RelQ .at (stmtBody) (stmtBody) := by
  unfold stmtBody; q_auto
theorem qa_simpleStmt [Plug]  : RelQ .at (simpleStmtBody) (simpleStmtBody) := by
  unfold simpleStmtBody; q_auto
theorem qa_simpleStmtLoop [Plug] (s s' : Nat) (nodes nodes' : List Tree) (seps seps' : List Token) (h0 : PL nodes nodes') (h1 : seps.map Token.bare = seps'.map Token.bare) : RelQ .at (simpleStmtLoopBody s nodes seps) (simpleStmtLoopBody s' nodes' seps') := by
  unfold simpleStmtLoopBody simpleStmtLoopBody.fin; q_auto
theorem qa_smallStmt [Plug]  : RelQ .at (smallStmtBody) (smallStmtBody) := by
  unfold smallStmtBody; q_auto
theorem qa_exprStmt [Plug]  : RelQ .at (exprStmtBody) (exprStmtBody) := by
  unfold exprStmtBody yieldOrTestlist; q_auto
  rename_i t u _ _ hk _ _ _
  rw [hk]
  cases hop : augOp u.kind with
  | none => q_auto
  | some tag =>
    have htag : tag ≠ .AtomNumber := fun e => augOp_ne _ (e ▸ hop)
    q_auto
theorem qa_assignLoop [Plug] (s s' : Nat) (left left' : Tree) (nodes nodes' : List Tree) (h0 : PT left left') (h1 : PL nodes nodes') : RelQ .at (assignLoopBody s left nodes) (assignLoopBody s' left' nodes') := by
  unfold assignLoopBody yieldOrTestlist; q_auto
theorem qa_annAssign [Plug] (s s' : Nat) (left left' : Tree) (h0 : PT left left') : RelQ .at (annAssignBody s left) (annAssignBody s' left') := by
  unfold annAssignBody yieldOrTestlist; q_auto
theorem qa_delStmt [Plug]  : RelQ .at (delStmtBody) (delStmtBody) := by
  unfold delStmtBody; q_auto
theorem qa_passStmt [Plug]  : RelQ .at (passStmtBody) (passStmtBody) := by
  unfold passStmtBody; q_auto
theorem qa_flowStmt [Plug]  : RelQ .at (flowStmtBody) (flowStmtBody) := by
  unfold flowStmtBody; q_auto
theorem qa_breakStmt [Plug]  : RelQ .at (breakStmtBody) (breakStmtBody) := by
  unfold breakStmtBody; q_auto
theorem qa_continueStmt [Plug]  : RelQ .at (continueStmtBody) (continueStmtBody) := by
  unfold continueStmtBody; q_auto
theorem qa_returnStmt [Plug]  : RelQ .at (returnStmtBody) (returnStmtBody) := by
  unfold returnStmtBody; q_auto
theorem qa_yieldStmt [Plug]  : RelQ .at (yieldStmtBody) (yieldStmtBody) := by
  unfold yieldStmtBody; q_auto
theorem qa_raiseStmt [Plug]  : RelQ .at (raiseStmtBody) (raiseStmtBody) := by
  unfold raiseStmtBody; q_auto
theorem qa_importStmt [Plug]  : RelQ .at (importStmtBody) (importStmtBody) := by
  unfold importStmtBody; q_auto
theorem qa_importName [Plug]  : RelQ .at (importNameBody) (importNameBody) := by
  unfold importNameBody; q_auto
theorem qa_importFrom [Plug]  : RelQ .at (importFromBody) (importFromBody) := by
  unfold importFromBody; q_auto
theorem qa_importDotLoop [Plug] (s s' : Nat) (sym1 sym1' : Token) (dots dots' : List Token) (h0 : sym1.bare = sym1'.bare) (h1 : dots.map Token.bare = dots'.map Token.bare) : RelQ .at (importDotLoopBody s sym1 dots) (importDotLoopBody s' sym1' dots') := by
  unfold importDotLoopBody importFromRest; q_auto
theorem qa_importAsName [Plug]  : RelQ .at (importAsNameBody) (importAsNameBody) := by
  unfold importAsNameBody; q_auto
theorem qa_dottedAsName [Plug]  : RelQ .at (dottedAsNameBody) (dottedAsNameBody) := by
  unfold dottedAsNameBody; q_auto
theorem qa_importAsNames [Plug]  : RelQ .at (importAsNamesBody) (importAsNamesBody) := by
  unfold importAsNamesBody; q_auto
theorem qa_importAsNamesLoop [Plug] (s s' : Nat) (nodes nodes' : List Tree) (seps seps' : List Token) (h0 : PL nodes nodes') (h1 : seps.map Token.bare = seps'.map Token.bare) : RelQ .at (importAsNamesLoopBody s nodes seps) (importAsNamesLoopBody s' nodes' seps') := by
  unfold importAsNamesLoopBody; q_auto
theorem qa_dottedAsNames [Plug]  : RelQ .at (dottedAsNamesBody) (dottedAsNamesBody) := by
  unfold dottedAsNamesBody; q_auto
theorem qa_dottedAsNamesLoop [Plug] (s s' : Nat) (nodes nodes' : List Tree) (seps seps' : List Token) (h0 : PL nodes nodes') (h1 : seps.map Token.bare = seps'.map Token.bare) : RelQ .at (dottedAsNamesLoopBody s nodes seps) (dottedAsNamesLoopBody s' nodes' seps') := by
  unfold dottedAsNamesLoopBody; q_auto
theorem qa_dottedName [Plug]  : RelQ .at (dottedNameBody) (dottedNameBody) := by
  unfold dottedNameBody; q_auto
theorem qa_dottedNameLoop [Plug] (s s' : Nat) (nodes nodes' : List Token) (seps seps' : List Token) (h0 : nodes.map Token.bare = nodes'.map Token.bare) (h1 : seps.map Token.bare = seps'.map Token.bare) : RelQ .at (dottedNameLoopBody s nodes seps) (dottedNameLoopBody s' nodes' seps') := by
  unfold dottedNameLoopBody; q_auto
theorem qa_globalStmt [Plug]  : RelQ .at (globalStmtBody) (globalStmtBody) := by
  unfold globalStmtBody; q_auto
theorem qa_globalLoop [Plug] (s s' : Nat) (sym sym' : Token) (nodes nodes' : List Token) (seps seps' : List Token) (h0 : sym.bare = sym'.bare) (h1 : nodes.map Token.bare = nodes'.map Token.bare) (h2 : seps.map Token.bare = seps'.map Token.bare) : RelQ .at (globalLoopBody s sym nodes seps) (globalLoopBody s' sym' nodes' seps') := by
  unfold globalLoopBody; q_auto
theorem qa_nonlocalStmt [Plug]  : RelQ .at (nonlocalStmtBody) (nonlocalStmtBody) := by
  unfold nonlocalStmtBody; q_auto
theorem qa_nonlocalLoop [Plug] (s s' : Nat) (sym sym' : Token) (nodes nodes' : List Token) (seps seps' : List Token) (h0 : sym.bare = sym'.bare) (h1 : nodes.map Token.bare = nodes'.map Token.bare) (h2 : seps.map Token.bare = seps'.map Token.bare) : RelQ .at (nonlocalLoopBody s sym nodes seps) (nonlocalLoopBody s' sym' nodes' seps') := by
  unfold nonlocalLoopBody; q_auto
theorem qa_assertStmt [Plug]  : RelQ .at (assertStmtBody) (assertStmtBody) := by
  unfold assertStmtBody; q_auto
theorem qa_compoundStmt [Plug]  : RelQ .at (compoundStmtBody) (compoundStmtBody) := by
  unfold compoundStmtBody; q_auto
theorem qa_asyncStmt [Plug]  : RelQ .at (asyncStmtBody) (asyncStmtBody) := by
  unfold asyncStmtBody; q_auto
theorem qa_ifStmt [Plug]  : RelQ .at (ifStmtBody) (ifStmtBody) := by
  unfold ifStmtBody; q_auto
theorem qa_ifLoop [Plug] (s s' : Nat) (sym1 sym1' : Token) (left left' : Tree) (sym2 sym2' : Token) (right right' : Tree) (nodes nodes' : List Tree) (h0 : sym1.bare = sym1'.bare) (h1 : PT left left') (h2 : sym2.bare = sym2'.bare) (h3 : PT right right') (h4 : PL nodes nodes') : RelQ .at (ifLoopBody s sym1 left sym2 right nodes) (ifLoopBody s' sym1' left' sym2' right' nodes') := by
  unfold ifLoopBody; q_auto
theorem qa_elifStmt [Plug]  : RelQ .at (elifStmtBody) (elifStmtBody) := by
  unfold elifStmtBody; q_auto
theorem qa_elseStmt [Plug]  : RelQ .at (elseStmtBody) (elseStmtBody) := by
  unfold elseStmtBody; q_auto
theorem qa_whileStmt [Plug]  : RelQ .at (whileStmtBody) (whileStmtBody) := by
  unfold whileStmtBody; q_auto
theorem qa_forStmt [Plug]  : RelQ .at (forStmtBody) (forStmtBody) := by
  unfold forStmtBody; q_auto
theorem qa_tryStmt [Plug]  : RelQ .at (tryStmtBody) (tryStmtBody) := by
  unfold tryStmtBody; q_auto
theorem qa_tryLoop [Plug] (s s' : Nat) (sym1 sym1' : Token) (sym2 sym2' : Token) (left left' : Tree) (nodes nodes' : List Tree) (h0 : sym1.bare = sym1'.bare) (h1 : sym2.bare = sym2'.bare) (h2 : PT left left') (h3 : PL nodes nodes') : RelQ .at (tryLoopBody s sym1 sym2 left nodes) (tryLoopBody s' sym1' sym2' left' nodes') := by
  unfold tryLoopBody; q_auto
theorem qa_finallyStmt [Plug]  : RelQ .at (finallyStmtBody) (finallyStmtBody) := by
  unfold finallyStmtBody; q_auto
theorem qa_withStmt [Plug]  : RelQ .at (withStmtBody) (withStmtBody) := by
  unfold withStmtBody; q_auto
theorem qa_withParenLoop [Plug] (s s' : Nat) (sym1 sym1' : Token) (lpar lpar' : Token) (nodes nodes' : List Tree) (seps seps' : List Token) (h0 : sym1.bare = sym1'.bare) (h1 : lpar.bare = lpar'.bare) (h2 : PL nodes nodes') (h3 : seps.map Token.bare = seps'.map Token.bare) : RelQ .at (withParenLoopBody s sym1 lpar nodes seps) (withParenLoopBody s' sym1' lpar' nodes' seps') := by
  unfold withParenLoopBody withParenEnd withRest; q_auto
theorem qa_withLoop [Plug] (s s' : Nat) (sym1 sym1' : Token) (nodes nodes' : List Tree) (seps seps' : List Token) (h0 : sym1.bare = sym1'.bare) (h1 : PL nodes nodes') (h2 : seps.map Token.bare = seps'.map Token.bare) : RelQ .at (withLoopBody s sym1 nodes seps) (withLoopBody s' sym1' nodes' seps') := by
  unfold withLoopBody withRest; q_auto
theorem qa_withItem [Plug]  : RelQ .at (withItemBody) (withItemBody) := by
  unfold withItemBody; q_auto
theorem qa_exceptStmt [Plug]  : RelQ .at (exceptStmtBody) (exceptStmtBody) := by
  unfold exceptStmtBody; q_auto
theorem qa_exceptClause [Plug]  : RelQ .at (exceptClauseBody) (exceptClauseBody) := by
  unfold exceptClauseBody exceptStar; q_auto
theorem qa_suite [Plug]  : RelQ .at (suiteBody) (suiteBody) := by
  unfold suiteBody; q_auto
theorem qa_suiteLoop [Plug] (s s' : Nat) (sym1 sym1' : Token) (sym2 sym2' : Token) (nodes nodes' : List Tree) (h0 : sym1.bare = sym1'.bare) (h1 : sym2.bare = sym2'.bare) (h2 : PL nodes nodes') : RelQ .at (suiteLoopBody s sym1 sym2 nodes) (suiteLoopBody s' sym1' sym2' nodes') := by
  unfold suiteLoopBody; q_auto
theorem qa_evalLoop [Plug] (s s' : Nat) (right right' : Tree) (seps seps' : List Token) (h0 : PT right right') (h1 : seps.map Token.bare = seps'.map Token.bare) : RelQ .at (evalLoopBody s right seps) (evalLoopBody s' right' seps') := by
  unfold evalLoopBody; q_auto
theorem qa_fileLoop [Plug] (s s' : Nat) (nodes nodes' : List Tree) (seps seps' : List Token) (h0 : PL nodes nodes') (h1 : seps.map Token.bare = seps'.map Token.bare) : RelQ .at (fileLoopBody s nodes seps) (fileLoopBody s' nodes' seps') := by
  unfold fileLoopBody; q_auto
theorem qa_funcTypeLoop [Plug] (s s' : Nat) (right right' : Tree) (seps seps' : List Token) (h0 : PT right right') (h1 : seps.map Token.bare = seps'.map Token.bare) : RelQ .at (funcTypeLoopBody s right seps) (funcTypeLoopBody s' right' seps') := by
  unfold funcTypeLoopBody; q_auto
theorem qa_decorator [Plug]  : RelQ .at (decoratorBody) (decoratorBody) := by
  unfold decoratorBody decoratorEnd; q_auto
theorem qa_decorators [Plug]  : RelQ .at (decoratorsBody) (decoratorsBody) := by
  unfold decoratorsBody; q_auto
theorem qa_decoratorsLoop [Plug] (s s' : Nat) (nodes nodes' : List Tree) (h0 : PL nodes nodes') : RelQ .at (decoratorsLoopBody s nodes) (decoratorsLoopBody s' nodes') := by
  unfold decoratorsLoopBody; q_auto
theorem qa_decorated [Plug]  : RelQ .at (decoratedBody) (decoratedBody) := by
  unfold decoratedBody; q_auto
theorem qa_asyncFuncDef [Plug]  : RelQ .at (asyncFuncDefBody) (asyncFuncDefBody) := by
  unfold asyncFuncDefBody; q_auto
theorem qa_funcDef [Plug]  : RelQ .at (funcDefBody) (funcDefBody) := by
  unfold funcDefBody; q_auto
theorem qa_parameters [Plug]  : RelQ .at (parametersBody) (parametersBody) := by
  unfold parametersBody; q_auto
theorem qa_typedArgsList [Plug]  : RelQ .at (typedArgsListBody) (typedArgsListBody) := by
  unfold typedArgsListBody; q_auto
theorem qa_tfpDefAssign [Plug]  : RelQ .at (tfpDefAssignBody) (tfpDefAssignBody) := by
  unfold tfpDefAssignBody; q_auto
theorem qa_tfpDef [Plug]  : RelQ .at (tfpDefBody) (tfpDefBody) := by
  unfold tfpDefBody; q_auto
theorem qa_funcBodySuite [Plug]  : RelQ .at (funcBodySuiteBody) (funcBodySuiteBody) := by
  unfold funcBodySuiteBody funcBodyIndent; q_auto
theorem qa_funcBodyLoop [Plug] (s s' : Nat) (sym1 sym1' : Token) (tc tc' : Tree) (tcnl tcnl' : Tree) (sym2 sym2' : Token) (nodes nodes' : List Tree) (h0 : sym1.bare = sym1'.bare) (h1 : PT tc tc') (h2 : PT tcnl tcnl') (h3 : sym2.bare = sym2'.bare) (h4 : PL nodes nodes') : RelQ .at (funcBodyLoopBody s sym1 tc tcnl sym2 nodes) (funcBodyLoopBody s' sym1' tc' tcnl' sym2' nodes') := by
  unfold funcBodyLoopBody; q_auto
theorem qa_classDef [Plug]  : RelQ .at (classDefBody) (classDefBody) := by
  unfold classDefBody classRest; q_auto
theorem qa_funcType [Plug]  : RelQ .at (funcTypeBody) (funcTypeBody) := by
  unfold funcTypeBody; q_auto
theorem qa_typeList [Plug]  : RelQ .at (typeListBody) (typeListBody) := by
  unfold typeListBody typeListMul typeListPower typeListResult; q_auto
theorem qa_typeListMainLoop [Plug] (s s' : Nat) (v v' : VA) (h0 : PV v v') : RelQ .at (typeListMainLoopBody s v) (typeListMainLoopBody s' v') := by
  obtain ⟨_, _, _, _, _, _, _⟩ := id h0
  unfold typeListMainLoopBody typeListMul typeListPower typeListResult; q_auto
theorem qa_typeListStarLoop [Plug] (s s' : Nat) (v v' : VA) (h0 : PV v v') : RelQ .at (typeListStarLoopBody s v) (typeListStarLoopBody s' v') := by
  obtain ⟨_, _, _, _, _, _, _⟩ := id h0
  unfold typeListStarLoopBody typeListPower typeListResult; q_auto
theorem qa_patternsMatch [Plug]  : RelQ .at (patternsMatchBody) (patternsMatchBody) := by
  unfold patternsMatchBody; q_auto

end Verif
