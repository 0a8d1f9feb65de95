import Verif.Proof.Cost

/-!
# Every parse function obeys the logic of steps
-/

namespace Verif
open Prog

attribute [local irreducible] KWP PSt.advance

macro "k_simp" : tactic => `(tactic| simp only [kwp_bind, kwp_pure, kwp_ret, kwp_fail, kwp_panic, kwp_failHere, kwp_here, kwp_next,
  kwp_parse, kwp_symAt, kwp_symHere, kwp_sym?, kwp_mk, kwp_getExc, kwp_setExc, kwp_ite, Fn.failCost, Fn.okCost, Fn.rank, Fn.input, Fn.moves,
  implies_true, and_true, true_and, reduceIte, Bool.false_eq_true, forall_const, Bool.true_eq_false])

macro "k_step" : tactic => `(tactic| first
  | trivial
  | (refine Or.inl ?_; omega)
  | (refine Or.inr ⟨rfl, _, by assumption, by assumption⟩)
  | (intro (d : PSt) (w : Int) hle hlt
     first
      | (refine (have hlt' := hlt ?_; ?_)
         · neof)
      | skip)
  | intro _
  | refine ⟨_, by assumption, ?_⟩
  | constructor
  | omega
  | (split <;> try k_simp)
  | (exfalso; refine ‹¬ Stuck _ _› ⟨rfl, _, by assumption, by assumption⟩)
  | (exfalso; simp_all; done))

macro "k_auto" : tactic => `(tactic| (repeat' k_step))

theorem k_atom [Uni] : KOk (.atom) := by
  intro st; show KWP _ (atomBody) _ _ _; unfold atomBody ; k_simp; k_auto
theorem k_atomStrLoop [Uni] (s l) : KOk (.atomStrLoop s l) := by
  intro st; show KWP _ (atomStrLoopBody s l) _ _ _; unfold atomStrLoopBody ; k_simp; k_auto
theorem k_atomExpr [Uni] : KOk (.atomExpr) := by
  intro st; show KWP _ (atomExprBody) _ _ _; unfold atomExprBody ; k_simp; k_auto
theorem k_trailerLoop [Uni] (s a r l) : KOk (.trailerLoop s a r l) := by
  intro st; show KWP _ (trailerLoopBody s a r l) _ _ _; unfold trailerLoopBody trailerLoopBody.fin; k_simp; k_auto
theorem k_power [Uni] : KOk (.power) := by
  intro st; show KWP _ (powerBody) _ _ _; unfold powerBody ; k_simp; k_auto
theorem k_factor [Uni] : KOk (.factor) := by
  intro st; show KWP _ (factorBody) _ _ _; unfold factorBody ; k_simp; k_auto
theorem k_term [Uni] : KOk (.term) := by
  intro st; show KWP _ (termBody) _ _ _; unfold termBody ; k_simp; k_auto
theorem k_termLoop [Uni] (s l) : KOk (.termLoop s l) := by
  intro st; show KWP _ (termLoopBody s l) _ _ _; unfold termLoopBody leftLoopBody; k_simp; k_auto
theorem k_arith [Uni] : KOk (.arith) := by
  intro st; show KWP _ (arithBody) _ _ _; unfold arithBody ; k_simp; k_auto
theorem k_arithLoop [Uni] (s l) : KOk (.arithLoop s l) := by
  intro st; show KWP _ (arithLoopBody s l) _ _ _; unfold arithLoopBody leftLoopBody; k_simp; k_auto
theorem k_shift [Uni] : KOk (.shift) := by
  intro st; show KWP _ (shiftBody) _ _ _; unfold shiftBody ; k_simp; k_auto
theorem k_shiftLoop [Uni] (s l) : KOk (.shiftLoop s l) := by
  intro st; show KWP _ (shiftLoopBody s l) _ _ _; unfold shiftLoopBody leftLoopBody; k_simp; k_auto
theorem k_andExpr [Uni] : KOk (.andExpr) := by
  intro st; show KWP _ (andExprBody) _ _ _; unfold andExprBody ; k_simp; k_auto
theorem k_andExprLoop [Uni] (s l) : KOk (.andExprLoop s l) := by
  intro st; show KWP _ (andExprLoopBody s l) _ _ _; unfold andExprLoopBody leftLoopBody; k_simp; k_auto
theorem k_xorExpr [Uni] : KOk (.xorExpr) := by
  intro st; show KWP _ (xorExprBody) _ _ _; unfold xorExprBody ; k_simp; k_auto
theorem k_xorExprLoop [Uni] (s l) : KOk (.xorExprLoop s l) := by
  intro st; show KWP _ (xorExprLoopBody s l) _ _ _; unfold xorExprLoopBody leftLoopBody; k_simp; k_auto
theorem k_expr [Uni] : KOk (.expr) := by
  intro st; show KWP _ (exprBody) _ _ _; unfold exprBody ; k_simp; k_auto
theorem k_exprLoop [Uni] (s l) : KOk (.exprLoop s l) := by
  intro st; show KWP _ (exprLoopBody s l) _ _ _; unfold exprLoopBody leftLoopBody; k_simp; k_auto
theorem k_starExpr [Uni] : KOk (.starExpr) := by
  intro st; show KWP _ (starExprBody) _ _ _; unfold starExprBody ; k_simp; k_auto
theorem k_comparison [Uni] : KOk (.comparison) := by
  intro st; show KWP _ (comparisonBody) _ _ _; unfold comparisonBody ; k_simp; k_auto
theorem k_comparisonLoop [Uni] (s l) : KOk (.comparisonLoop s l) := by
  intro st; show KWP _ (comparisonLoopBody s l) _ _ _; unfold comparisonLoopBody ; k_simp; k_auto
theorem k_notTest [Uni] : KOk (.notTest) := by
  intro st; show KWP _ (notTestBody) _ _ _; unfold notTestBody ; k_simp; k_auto
theorem k_andTest [Uni] : KOk (.andTest) := by
  intro st; show KWP _ (andTestBody) _ _ _; unfold andTestBody ; k_simp; k_auto
theorem k_andTestLoop [Uni] (s l) : KOk (.andTestLoop s l) := by
  intro st; show KWP _ (andTestLoopBody s l) _ _ _; unfold andTestLoopBody leftLoopBody; k_simp; k_auto
theorem k_orTest [Uni] : KOk (.orTest) := by
  intro st; show KWP _ (orTestBody) _ _ _; unfold orTestBody ; k_simp; k_auto
theorem k_orTestLoop [Uni] (s l) : KOk (.orTestLoop s l) := by
  intro st; show KWP _ (orTestLoopBody s l) _ _ _; unfold orTestLoopBody leftLoopBody; k_simp; k_auto
theorem k_lambdaDef [Uni] (c) : KOk (.lambdaDef c) := by
  intro st; show KWP _ (lambdaDefBody c) _ _ _; unfold lambdaDefBody ; k_simp; k_auto
theorem k_noCondTest [Uni] : KOk (.noCondTest) := by
  intro st; show KWP _ (noCondTestBody) _ _ _; unfold noCondTestBody ; k_simp; k_auto
theorem k_test [Uni] : KOk (.test) := by
  intro st; show KWP _ (testBody) _ _ _; unfold testBody ; k_simp; k_auto
theorem k_namedExpression [Uni] : KOk (.namedExpression) := by
  intro st; show KWP _ (namedExpressionBody) _ _ _; unfold namedExpressionBody ; k_simp; k_auto
theorem k_testlistComp [Uni] : KOk (.testlistComp) := by
  intro st; show KWP _ (testlistCompBody) _ _ _; unfold testlistCompBody starOrNamed; k_simp; k_auto
theorem k_testlistCompLoop [Uni] (s n p) : KOk (.testlistCompLoop s n p) := by
  intro st; show KWP _ (testlistCompLoopBody s n p) _ _ _; unfold testlistCompLoopBody starOrNamed; k_simp; k_auto
theorem k_trailer [Uni] : KOk (.trailer) := by
  intro st; show KWP _ (trailerBody) _ _ _; unfold trailerBody ; k_simp; k_auto
theorem k_subscriptList [Uni] : KOk (.subscriptList) := by
  intro st; show KWP _ (subscriptListBody) _ _ _; unfold subscriptListBody ; k_simp; k_auto
theorem k_subscriptListLoop [Uni] (s n p) : KOk (.subscriptListLoop s n p) := by
  intro st; show KWP _ (subscriptListLoopBody s n p) _ _ _; unfold subscriptListLoopBody ; k_simp; k_auto
theorem k_subscript [Uni] : KOk (.subscript) := by
  intro st; show KWP _ (subscriptBody) _ _ _; unfold subscriptBody ; k_simp; k_auto
theorem k_exprlist [Uni] : KOk (.exprlist) := by
  intro st; show KWP _ (exprlistBody) _ _ _; unfold exprlistBody starOrNamed; k_simp; k_auto
theorem k_exprlistLoop [Uni] (s n p) : KOk (.exprlistLoop s n p) := by
  intro st; show KWP _ (exprlistLoopBody s n p) _ _ _; unfold exprlistLoopBody listResult; k_simp; k_auto
theorem k_testlist [Uni] : KOk (.testlist) := by
  intro st; show KWP _ (testlistBody) _ _ _; unfold testlistBody ; k_simp; k_auto
theorem k_testlistLoop [Uni] (s n p) : KOk (.testlistLoop s n p) := by
  intro st; show KWP _ (testlistLoopBody s n p) _ _ _; unfold testlistLoopBody listResult; k_simp; k_auto
theorem k_dictorsetMaker [Uni] : KOk (.dictorsetMaker) := by
  intro st; show KWP _ (dictorsetMakerBody) _ _ _; unfold dictorsetMakerBody dictRest dictRest.fin; k_simp; k_auto
theorem k_setLoop [Uni] (s n p) : KOk (.setLoop s n p) := by
  intro st; show KWP _ (setLoopBody s n p) _ _ _; unfold setLoopBody ; k_simp; k_auto
theorem k_arglist [Uni] : KOk (.arglist) := by
  intro st; show KWP _ (arglistBody) _ _ _; unfold arglistBody ; k_simp; k_auto
theorem k_arglistLoop [Uni] (s n p) : KOk (.arglistLoop s n p) := by
  intro st; show KWP _ (arglistLoopBody s n p) _ _ _; unfold arglistLoopBody ; k_simp; k_auto
theorem k_argument [Uni] : KOk (.argument) := by
  intro st; show KWP _ (argumentBody) _ _ _; unfold argumentBody ; k_simp; k_auto
theorem k_compIter [Uni] : KOk (.compIter) := by
  intro st; show KWP _ (compIterBody) _ _ _; unfold compIterBody ; k_simp; k_auto
theorem k_syncCompFor [Uni] : KOk (.syncCompFor) := by
  intro st; show KWP _ (syncCompForBody) _ _ _; unfold syncCompForBody ; k_simp; k_auto
theorem k_compFor [Uni] : KOk (.compFor) := by
  intro st; show KWP _ (compForBody) _ _ _; unfold compForBody ; k_simp; k_auto
theorem k_compIf [Uni] : KOk (.compIf) := by
  intro st; show KWP _ (compIfBody) _ _ _; unfold compIfBody ; k_simp; k_auto
theorem k_yieldExpr [Uni] : KOk (.yieldExpr) := by
  intro st; show KWP _ (yieldExprBody) _ _ _; unfold yieldExprBody ; k_simp; k_auto
theorem k_testlistStarExpr [Uni] : KOk (.testlistStarExpr) := by
  intro st; show KWP _ (testlistStarExprBody) _ _ _; unfold testlistStarExprBody ; k_simp; k_auto
theorem k_testlistStarExprLoop [Uni] (s n p) : KOk (.testlistStarExprLoop s n p) := by
  intro st; show KWP _ (testlistStarExprLoopBody s n p) _ _ _; unfold testlistStarExprLoopBody testlistStarExprResult; k_simp; k_auto
theorem k_varArgsList [Uni] : KOk (.varArgsList) := by
  intro st; show KWP _ (varArgsListBody) _ _ _; unfold varArgsListBody varArgsMul varArgsPower varArgsResult; k_simp; k_auto
theorem k_varArgsMainLoop [Uni] (s v) : KOk (.varArgsMainLoop s v) := by
  intro st; show KWP _ (varArgsMainLoopBody s v) _ _ _; unfold varArgsMainLoopBody varArgsMul varArgsPower varArgsResult; k_simp; k_auto
theorem k_varArgsStarLoop [Uni] (s v) : KOk (.varArgsStarLoop s v) := by
  intro st; show KWP _ (varArgsStarLoopBody s v) _ _ _; unfold varArgsStarLoopBody varArgsPower varArgsResult; k_simp; k_auto
theorem k_varArgsDivLoop [Uni] (s v) : KOk (.varArgsDivLoop s v) := by
  intro st; show KWP _ (varArgsDivLoopBody s v) _ _ _; unfold varArgsDivLoopBody varArgsMul varArgsPower varArgsResult; k_simp; k_auto
theorem k_varArgsAssignments [Uni] : KOk (.varArgsAssignments) := by
  intro st; show KWP _ (varArgsAssignmentsBody) _ _ _; unfold varArgsAssignmentsBody ; k_simp; k_auto
theorem k_vfpDef [Uni] : KOk (.vfpDef) := by
  intro st; show KWP _ (vfpDefBody) _ _ _; unfold vfpDefBody ; k_simp; k_auto
theorem k_stmt [Uni] : KOk (.stmt) := by
  intro st; show KWP _ (stmtBody) _ _ _; unfold stmtBody ; k_simp; k_auto
theorem k_simpleStmt [Uni] : KOk (.simpleStmt) := by
  intro st; show KWP _ (simpleStmtBody) _ _ _; unfold simpleStmtBody ; k_simp; k_auto
theorem k_simpleStmtLoop [Uni] (s n p) : KOk (.simpleStmtLoop s n p) := by
  intro st; show KWP _ (simpleStmtLoopBody s n p) _ _ _; unfold simpleStmtLoopBody simpleStmtLoopBody.fin; k_simp; k_auto
theorem k_smallStmt [Uni] : KOk (.smallStmt) := by
  intro st; show KWP _ (smallStmtBody) _ _ _; unfold smallStmtBody ; k_simp; k_auto
theorem k_exprStmt [Uni] : KOk (.exprStmt) := by
  intro st; show KWP _ (exprStmtBody) _ _ _; unfold exprStmtBody yieldOrTestlist; k_simp; k_auto
theorem k_assignLoop [Uni] (s l n) : KOk (.assignLoop s l n) := by
  intro st; show KWP _ (assignLoopBody s l n) _ _ _; unfold assignLoopBody yieldOrTestlist; k_simp; k_auto
theorem k_annAssign [Uni] (s l) : KOk (.annAssign s l) := by
  intro st; show KWP _ (annAssignBody s l) _ _ _; unfold annAssignBody yieldOrTestlist; k_simp; k_auto
theorem k_delStmt [Uni] : KOk (.delStmt) := by
  intro st; show KWP _ (delStmtBody) _ _ _; unfold delStmtBody ; k_simp; k_auto
theorem k_passStmt [Uni] : KOk (.passStmt) := by
  intro st; show KWP _ (passStmtBody) _ _ _; unfold passStmtBody ; k_simp; k_auto
theorem k_flowStmt [Uni] : KOk (.flowStmt) := by
  intro st; show KWP _ (flowStmtBody) _ _ _; unfold flowStmtBody ; k_simp; k_auto
theorem k_breakStmt [Uni] : KOk (.breakStmt) := by
  intro st; show KWP _ (breakStmtBody) _ _ _; unfold breakStmtBody ; k_simp; k_auto
theorem k_continueStmt [Uni] : KOk (.continueStmt) := by
  intro st; show KWP _ (continueStmtBody) _ _ _; unfold continueStmtBody ; k_simp; k_auto
theorem k_returnStmt [Uni] : KOk (.returnStmt) := by
  intro st; show KWP _ (returnStmtBody) _ _ _; unfold returnStmtBody ; k_simp; k_auto
theorem k_yieldStmt [Uni] : KOk (.yieldStmt) := by
  intro st; show KWP _ (yieldStmtBody) _ _ _; unfold yieldStmtBody ; k_simp; k_auto
theorem k_raiseStmt [Uni] : KOk (.raiseStmt) := by
  intro st; show KWP _ (raiseStmtBody) _ _ _; unfold raiseStmtBody ; k_simp; k_auto
theorem k_importStmt [Uni] : KOk (.importStmt) := by
  intro st; show KWP _ (importStmtBody) _ _ _; unfold importStmtBody ; k_simp; k_auto
theorem k_importName [Uni] : KOk (.importName) := by
  intro st; show KWP _ (importNameBody) _ _ _; unfold importNameBody ; k_simp; k_auto
theorem k_importFrom [Uni] : KOk (.importFrom) := by
  intro st; show KWP _ (importFromBody) _ _ _; unfold importFromBody ; k_simp; k_auto
theorem k_importDotLoop [Uni] (s t d) : KOk (.importDotLoop s t d) := by
  intro st; show KWP _ (importDotLoopBody s t d) _ _ _; unfold importDotLoopBody importFromRest; k_simp; k_auto
theorem k_importAsName [Uni] : KOk (.importAsName) := by
  intro st; show KWP _ (importAsNameBody) _ _ _; unfold importAsNameBody ; k_simp; k_auto
theorem k_dottedAsName [Uni] : KOk (.dottedAsName) := by
  intro st; show KWP _ (dottedAsNameBody) _ _ _; unfold dottedAsNameBody ; k_simp; k_auto
theorem k_importAsNames [Uni] : KOk (.importAsNames) := by
  intro st; show KWP _ (importAsNamesBody) _ _ _; unfold importAsNamesBody ; k_simp; k_auto
theorem k_importAsNamesLoop [Uni] (s n p) : KOk (.importAsNamesLoop s n p) := by
  intro st; show KWP _ (importAsNamesLoopBody s n p) _ _ _; unfold importAsNamesLoopBody ; k_simp; k_auto
theorem k_dottedAsNames [Uni] : KOk (.dottedAsNames) := by
  intro st; show KWP _ (dottedAsNamesBody) _ _ _; unfold dottedAsNamesBody ; k_simp; k_auto
theorem k_dottedAsNamesLoop [Uni] (s n p) : KOk (.dottedAsNamesLoop s n p) := by
  intro st; show KWP _ (dottedAsNamesLoopBody s n p) _ _ _; unfold dottedAsNamesLoopBody ; k_simp; k_auto
theorem k_dottedName [Uni] : KOk (.dottedName) := by
  intro st; show KWP _ (dottedNameBody) _ _ _; unfold dottedNameBody ; k_simp; k_auto
theorem k_dottedNameLoop [Uni] (s n p) : KOk (.dottedNameLoop s n p) := by
  intro st; show KWP _ (dottedNameLoopBody s n p) _ _ _; unfold dottedNameLoopBody ; k_simp; k_auto
theorem k_globalStmt [Uni] : KOk (.globalStmt) := by
  intro st; show KWP _ (globalStmtBody) _ _ _; unfold globalStmtBody ; k_simp; k_auto
theorem k_globalLoop [Uni] (s t n p) : KOk (.globalLoop s t n p) := by
  intro st; show KWP _ (globalLoopBody s t n p) _ _ _; unfold globalLoopBody ; k_simp; k_auto
theorem k_nonlocalStmt [Uni] : KOk (.nonlocalStmt) := by
  intro st; show KWP _ (nonlocalStmtBody) _ _ _; unfold nonlocalStmtBody ; k_simp; k_auto
theorem k_nonlocalLoop [Uni] (s t n p) : KOk (.nonlocalLoop s t n p) := by
  intro st; show KWP _ (nonlocalLoopBody s t n p) _ _ _; unfold nonlocalLoopBody ; k_simp; k_auto
theorem k_assertStmt [Uni] : KOk (.assertStmt) := by
  intro st; show KWP _ (assertStmtBody) _ _ _; unfold assertStmtBody ; k_simp; k_auto
theorem k_compoundStmt [Uni] : KOk (.compoundStmt) := by
  intro st; show KWP _ (compoundStmtBody) _ _ _; unfold compoundStmtBody ; k_simp; k_auto
theorem k_asyncStmt [Uni] : KOk (.asyncStmt) := by
  intro st; show KWP _ (asyncStmtBody) _ _ _; unfold asyncStmtBody ; k_simp; k_auto
theorem k_ifStmt [Uni] : KOk (.ifStmt) := by
  intro st; show KWP _ (ifStmtBody) _ _ _; unfold ifStmtBody ; k_simp; k_auto
theorem k_ifLoop [Uni] (s t l t2 r n) : KOk (.ifLoop s t l t2 r n) := by
  intro st; show KWP _ (ifLoopBody s t l t2 r n) _ _ _; unfold ifLoopBody ; k_simp; k_auto
theorem k_elifStmt [Uni] : KOk (.elifStmt) := by
  intro st; show KWP _ (elifStmtBody) _ _ _; unfold elifStmtBody ; k_simp; k_auto
theorem k_elseStmt [Uni] : KOk (.elseStmt) := by
  intro st; show KWP _ (elseStmtBody) _ _ _; unfold elseStmtBody ; k_simp; k_auto
theorem k_whileStmt [Uni] : KOk (.whileStmt) := by
  intro st; show KWP _ (whileStmtBody) _ _ _; unfold whileStmtBody ; k_simp; k_auto
theorem k_forStmt [Uni] : KOk (.forStmt) := by
  intro st; show KWP _ (forStmtBody) _ _ _; unfold forStmtBody ; k_simp; k_auto
theorem k_tryStmt [Uni] : KOk (.tryStmt) := by
  intro st; show KWP _ (tryStmtBody) _ _ _; unfold tryStmtBody ; k_simp; k_auto
theorem k_tryLoop [Uni] (s t t2 l n) : KOk (.tryLoop s t t2 l n) := by
  intro st; show KWP _ (tryLoopBody s t t2 l n) _ _ _; unfold tryLoopBody ; k_simp; k_auto
theorem k_finallyStmt [Uni] : KOk (.finallyStmt) := by
  intro st; show KWP _ (finallyStmtBody) _ _ _; unfold finallyStmtBody ; k_simp; k_auto
theorem k_withStmt [Uni] : KOk (.withStmt) := by
  intro st; show KWP _ (withStmtBody) _ _ _; unfold withStmtBody ; k_simp; k_auto
theorem k_withParenLoop [Uni] (s t l n p) : KOk (.withParenLoop s t l n p) := by
  intro st; show KWP _ (withParenLoopBody s t l n p) _ _ _; unfold withParenLoopBody withParenEnd withRest; k_simp; k_auto
theorem k_withLoop [Uni] (s t n p) : KOk (.withLoop s t n p) := by
  intro st; show KWP _ (withLoopBody s t n p) _ _ _; unfold withLoopBody withRest; k_simp; k_auto
theorem k_withItem [Uni] : KOk (.withItem) := by
  intro st; show KWP _ (withItemBody) _ _ _; unfold withItemBody ; k_simp; k_auto
theorem k_exceptStmt [Uni] : KOk (.exceptStmt) := by
  intro st; show KWP _ (exceptStmtBody) _ _ _; unfold exceptStmtBody ; k_simp; k_auto
theorem k_exceptClause [Uni] : KOk (.exceptClause) := by
  intro st; show KWP _ (exceptClauseBody) _ _ _; unfold exceptClauseBody exceptStar; k_simp; k_auto
theorem k_suite [Uni] : KOk (.suite) := by
  intro st; show KWP _ (suiteBody) _ _ _; unfold suiteBody ; k_simp; k_auto
theorem k_suiteLoop [Uni] (s t t2 n) : KOk (.suiteLoop s t t2 n) := by
  intro st; show KWP _ (suiteLoopBody s t t2 n) _ _ _; unfold suiteLoopBody ; k_simp; k_auto
theorem k_evalLoop [Uni] (s r p) : KOk (.evalLoop s r p) := by
  intro st; show KWP _ (evalLoopBody s r p) _ _ _; unfold evalLoopBody ; k_simp; k_auto
theorem k_fileLoop [Uni] (s n p) : KOk (.fileLoop s n p) := by
  intro st; show KWP _ (fileLoopBody s n p) _ _ _; unfold fileLoopBody ; k_simp; k_auto
theorem k_funcTypeLoop [Uni] (s r p) : KOk (.funcTypeLoop s r p) := by
  intro st; show KWP _ (funcTypeLoopBody s r p) _ _ _; unfold funcTypeLoopBody ; k_simp; k_auto
theorem k_decorator [Uni] : KOk (.decorator) := by
  intro st; show KWP _ (decoratorBody) _ _ _; unfold decoratorBody decoratorEnd; k_simp; k_auto
theorem k_decorators [Uni] : KOk (.decorators) := by
  intro st; show KWP _ (decoratorsBody) _ _ _; unfold decoratorsBody ; k_simp; k_auto
theorem k_decoratorsLoop [Uni] (s n) : KOk (.decoratorsLoop s n) := by
  intro st; show KWP _ (decoratorsLoopBody s n) _ _ _; unfold decoratorsLoopBody ; k_simp; k_auto
theorem k_decorated [Uni] : KOk (.decorated) := by
  intro st; show KWP _ (decoratedBody) _ _ _; unfold decoratedBody ; k_simp; k_auto
theorem k_asyncFuncDef [Uni] : KOk (.asyncFuncDef) := by
  intro st; show KWP _ (asyncFuncDefBody) _ _ _; unfold asyncFuncDefBody ; k_simp; k_auto
theorem k_funcDef [Uni] : KOk (.funcDef) := by
  intro st; show KWP _ (funcDefBody) _ _ _; unfold funcDefBody ; k_simp; k_auto
theorem k_parameters [Uni] : KOk (.parameters) := by
  intro st; show KWP _ (parametersBody) _ _ _; unfold parametersBody ; k_simp; k_auto
theorem k_typedArgsList [Uni] : KOk (.typedArgsList) := by
  intro st; show KWP _ (typedArgsListBody) _ _ _; unfold typedArgsListBody ; k_simp; k_auto
theorem k_tfpDefAssign [Uni] : KOk (.tfpDefAssign) := by
  intro st; show KWP _ (tfpDefAssignBody) _ _ _; unfold tfpDefAssignBody ; k_simp; k_auto
theorem k_tfpDef [Uni] : KOk (.tfpDef) := by
  intro st; show KWP _ (tfpDefBody) _ _ _; unfold tfpDefBody ; k_simp; k_auto
theorem k_funcBodySuite [Uni] : KOk (.funcBodySuite) := by
  intro st; show KWP _ (funcBodySuiteBody) _ _ _; unfold funcBodySuiteBody funcBodyIndent; k_simp; k_auto
theorem k_funcBodyLoop [Uni] (s t tc tn t4 n) : KOk (.funcBodyLoop s t tc tn t4 n) := by
  intro st; show KWP _ (funcBodyLoopBody s t tc tn t4 n) _ _ _; unfold funcBodyLoopBody ; k_simp; k_auto
theorem k_classDef [Uni] : KOk (.classDef) := by
  intro st; show KWP _ (classDefBody) _ _ _; unfold classDefBody classRest; k_simp; k_auto
theorem k_funcType [Uni] : KOk (.funcType) := by
  intro st; show KWP _ (funcTypeBody) _ _ _; unfold funcTypeBody ; k_simp; k_auto
theorem k_typeList [Uni] : KOk (.typeList) := by
  intro st; show KWP _ (typeListBody) _ _ _; unfold typeListBody typeListMul typeListPower typeListResult; k_simp; k_auto
theorem k_typeListMainLoop [Uni] (s v) : KOk (.typeListMainLoop s v) := by
  intro st; show KWP _ (typeListMainLoopBody s v) _ _ _; unfold typeListMainLoopBody typeListMul typeListPower typeListResult; k_simp; k_auto
theorem k_typeListStarLoop [Uni] (s v) : KOk (.typeListStarLoop s v) := by
  intro st; show KWP _ (typeListStarLoopBody s v) _ _ _; unfold typeListStarLoopBody typeListPower typeListResult; k_simp; k_auto
theorem k_patternsMatch [Uni] : KOk (.patternsMatch) := by
  intro st; show KWP _ (patternsMatchBody) _ _ _; rw [patternsMatchBody, kwp_panic]; decide

theorem k_all [Uni] (f : Fn) (hf : f.input = false) : KOk f := by
  cases f with
  | atom => exact k_atom
  | atomStrLoop s l => exact k_atomStrLoop s l
  | atomExpr => exact k_atomExpr
  | trailerLoop s a r l => exact k_trailerLoop s a r l
  | power => exact k_power
  | factor => exact k_factor
  | term => exact k_term
  | termLoop s l => exact k_termLoop s l
  | arith => exact k_arith
  | arithLoop s l => exact k_arithLoop s l
  | shift => exact k_shift
  | shiftLoop s l => exact k_shiftLoop s l
  | andExpr => exact k_andExpr
  | andExprLoop s l => exact k_andExprLoop s l
  | xorExpr => exact k_xorExpr
  | xorExprLoop s l => exact k_xorExprLoop s l
  | expr => exact k_expr
  | exprLoop s l => exact k_exprLoop s l
  | starExpr => exact k_starExpr
  | comparison => exact k_comparison
  | comparisonLoop s l => exact k_comparisonLoop s l
  | notTest => exact k_notTest
  | andTest => exact k_andTest
  | andTestLoop s l => exact k_andTestLoop s l
  | orTest => exact k_orTest
  | orTestLoop s l => exact k_orTestLoop s l
  | lambdaDef c => exact k_lambdaDef c
  | noCondTest => exact k_noCondTest
  | test => exact k_test
  | namedExpression => exact k_namedExpression
  | testlistComp => exact k_testlistComp
  | testlistCompLoop s n p => exact k_testlistCompLoop s n p
  | trailer => exact k_trailer
  | subscriptList => exact k_subscriptList
  | subscriptListLoop s n p => exact k_subscriptListLoop s n p
  | subscript => exact k_subscript
  | exprlist => exact k_exprlist
  | exprlistLoop s n p => exact k_exprlistLoop s n p
  | testlist => exact k_testlist
  | testlistLoop s n p => exact k_testlistLoop s n p
  | dictorsetMaker => exact k_dictorsetMaker
  | setLoop s n p => exact k_setLoop s n p
  | arglist => exact k_arglist
  | arglistLoop s n p => exact k_arglistLoop s n p
  | argument => exact k_argument
  | compIter => exact k_compIter
  | syncCompFor => exact k_syncCompFor
  | compFor => exact k_compFor
  | compIf => exact k_compIf
  | yieldExpr => exact k_yieldExpr
  | testlistStarExpr => exact k_testlistStarExpr
  | testlistStarExprLoop s n p => exact k_testlistStarExprLoop s n p
  | varArgsList => exact k_varArgsList
  | varArgsMainLoop s v => exact k_varArgsMainLoop s v
  | varArgsStarLoop s v => exact k_varArgsStarLoop s v
  | varArgsDivLoop s v => exact k_varArgsDivLoop s v
  | varArgsAssignments => exact k_varArgsAssignments
  | vfpDef => exact k_vfpDef
  | stmt => exact k_stmt
  | simpleStmt => exact k_simpleStmt
  | simpleStmtLoop s n p => exact k_simpleStmtLoop s n p
  | smallStmt => exact k_smallStmt
  | exprStmt => exact k_exprStmt
  | assignLoop s l n => exact k_assignLoop s l n
  | annAssign s l => exact k_annAssign s l
  | delStmt => exact k_delStmt
  | passStmt => exact k_passStmt
  | flowStmt => exact k_flowStmt
  | breakStmt => exact k_breakStmt
  | continueStmt => exact k_continueStmt
  | returnStmt => exact k_returnStmt
  | yieldStmt => exact k_yieldStmt
  | raiseStmt => exact k_raiseStmt
  | importStmt => exact k_importStmt
  | importName => exact k_importName
  | importFrom => exact k_importFrom
  | importDotLoop s t d => exact k_importDotLoop s t d
  | importAsName => exact k_importAsName
  | dottedAsName => exact k_dottedAsName
  | importAsNames => exact k_importAsNames
  | importAsNamesLoop s n p => exact k_importAsNamesLoop s n p
  | dottedAsNames => exact k_dottedAsNames
  | dottedAsNamesLoop s n p => exact k_dottedAsNamesLoop s n p
  | dottedName => exact k_dottedName
  | dottedNameLoop s n p => exact k_dottedNameLoop s n p
  | globalStmt => exact k_globalStmt
  | globalLoop s t n p => exact k_globalLoop s t n p
  | nonlocalStmt => exact k_nonlocalStmt
  | nonlocalLoop s t n p => exact k_nonlocalLoop s t n p
  | assertStmt => exact k_assertStmt
  | compoundStmt => exact k_compoundStmt
  | asyncStmt => exact k_asyncStmt
  | ifStmt => exact k_ifStmt
  | ifLoop s t l t2 r n => exact k_ifLoop s t l t2 r n
  | elifStmt => exact k_elifStmt
  | elseStmt => exact k_elseStmt
  | whileStmt => exact k_whileStmt
  | forStmt => exact k_forStmt
  | tryStmt => exact k_tryStmt
  | tryLoop s t t2 l n => exact k_tryLoop s t t2 l n
  | finallyStmt => exact k_finallyStmt
  | withStmt => exact k_withStmt
  | withParenLoop s t l n p => exact k_withParenLoop s t l n p
  | withLoop s t n p => exact k_withLoop s t n p
  | withItem => exact k_withItem
  | exceptStmt => exact k_exceptStmt
  | exceptClause => exact k_exceptClause
  | suite => exact k_suite
  | suiteLoop s t t2 n => exact k_suiteLoop s t t2 n
  | evalInput => simp [Fn.input] at hf
  | evalLoop s r p => exact k_evalLoop s r p
  | fileInput => simp [Fn.input] at hf
  | fileLoop s n p => exact k_fileLoop s n p
  | singleInput => simp [Fn.input] at hf
  | funcTypeInput => simp [Fn.input] at hf
  | funcTypeLoop s r p => exact k_funcTypeLoop s r p
  | decorator => exact k_decorator
  | decorators => exact k_decorators
  | decoratorsLoop s n => exact k_decoratorsLoop s n
  | decorated => exact k_decorated
  | asyncFuncDef => exact k_asyncFuncDef
  | funcDef => exact k_funcDef
  | parameters => exact k_parameters
  | typedArgsList => exact k_typedArgsList
  | tfpDefAssign => exact k_tfpDefAssign
  | tfpDef => exact k_tfpDef
  | funcBodySuite => exact k_funcBodySuite
  | funcBodyLoop s t tc tn t4 n => exact k_funcBodyLoop s t tc tn t4 n
  | classDef => exact k_classDef
  | funcType => exact k_funcType
  | typeList => exact k_typeList
  | typeListMainLoop s v => exact k_typeListMainLoop s v
  | typeListStarLoop s v => exact k_typeListStarLoop s v
  | patternsMatch => exact k_patternsMatch

end Verif
