import Verif.Proof.Panic

/-!
# No parse function but `patterns_match` panics itself
-/

namespace Verif
open Prog

attribute [local irreducible] CWP

/-- The body of `f` does not panic, and makes only the calls of `MatchCall`. -/
def COk [Uni] (f : Fn) : Prop := ∀ c, CWP MatchCall (body f) c (fun _ _ => True)

macro "c_simp" : tactic => `(tactic| simp only [cwp_bind, cwp_pure, cwp_ret, cwp_fail, cwp_failHere, cwp_here, cwp_next,
  cwp_parse, cwp_symAt, cwp_symHere, cwp_sym?, cwp_mk, cwp_getExc, cwp_setExc, cwp_ite, MatchCall, Fn.input, reduceCtorEq, false_implies,
  implies_true, and_true, true_and, and_self, reduceIte, Bool.false_eq_true, forall_const])

macro "c_step" : tactic => `(tactic| first
  | trivial
  | intro _
  | constructor
  | exact ⟨_, by assumption, by assumption⟩
  | (split <;> try c_simp))

macro "c_auto" : tactic => `(tactic| ((try c_simp); repeat' c_step))

theorem c_atom [Uni] : COk (.atom) := by
  intro st; show CWP _ (atomBody) _ _; unfold atomBody ; c_auto
theorem c_atomStrLoop [Uni] (s l) : COk (.atomStrLoop s l) := by
  intro st; show CWP _ (atomStrLoopBody s l) _ _; unfold atomStrLoopBody ; c_auto
theorem c_atomExpr [Uni] : COk (.atomExpr) := by
  intro st; show CWP _ (atomExprBody) _ _; unfold atomExprBody ; c_auto
theorem c_trailerLoop [Uni] (s a r l) : COk (.trailerLoop s a r l) := by
  intro st; show CWP _ (trailerLoopBody s a r l) _ _; unfold trailerLoopBody trailerLoopBody.fin; c_auto
theorem c_power [Uni] : COk (.power) := by
  intro st; show CWP _ (powerBody) _ _; unfold powerBody ; c_auto
theorem c_factor [Uni] : COk (.factor) := by
  intro st; show CWP _ (factorBody) _ _; unfold factorBody ; c_auto
theorem c_term [Uni] : COk (.term) := by
  intro st; show CWP _ (termBody) _ _; unfold termBody ; c_auto
theorem c_termLoop [Uni] (s l) : COk (.termLoop s l) := by
  intro st; show CWP _ (termLoopBody s l) _ _; unfold termLoopBody leftLoopBody; c_auto
theorem c_arith [Uni] : COk (.arith) := by
  intro st; show CWP _ (arithBody) _ _; unfold arithBody ; c_auto
theorem c_arithLoop [Uni] (s l) : COk (.arithLoop s l) := by
  intro st; show CWP _ (arithLoopBody s l) _ _; unfold arithLoopBody leftLoopBody; c_auto
theorem c_shift [Uni] : COk (.shift) := by
  intro st; show CWP _ (shiftBody) _ _; unfold shiftBody ; c_auto
theorem c_shiftLoop [Uni] (s l) : COk (.shiftLoop s l) := by
  intro st; show CWP _ (shiftLoopBody s l) _ _; unfold shiftLoopBody leftLoopBody; c_auto
theorem c_andExpr [Uni] : COk (.andExpr) := by
  intro st; show CWP _ (andExprBody) _ _; unfold andExprBody ; c_auto
theorem c_andExprLoop [Uni] (s l) : COk (.andExprLoop s l) := by
  intro st; show CWP _ (andExprLoopBody s l) _ _; unfold andExprLoopBody leftLoopBody; c_auto
theorem c_xorExpr [Uni] : COk (.xorExpr) := by
  intro st; show CWP _ (xorExprBody) _ _; unfold xorExprBody ; c_auto
theorem c_xorExprLoop [Uni] (s l) : COk (.xorExprLoop s l) := by
  intro st; show CWP _ (xorExprLoopBody s l) _ _; unfold xorExprLoopBody leftLoopBody; c_auto
theorem c_expr [Uni] : COk (.expr) := by
  intro st; show CWP _ (exprBody) _ _; unfold exprBody ; c_auto
theorem c_exprLoop [Uni] (s l) : COk (.exprLoop s l) := by
  intro st; show CWP _ (exprLoopBody s l) _ _; unfold exprLoopBody leftLoopBody; c_auto
theorem c_starExpr [Uni] : COk (.starExpr) := by
  intro st; show CWP _ (starExprBody) _ _; unfold starExprBody ; c_auto
theorem c_comparison [Uni] : COk (.comparison) := by
  intro st; show CWP _ (comparisonBody) _ _; unfold comparisonBody ; c_auto
theorem c_comparisonLoop [Uni] (s l) : COk (.comparisonLoop s l) := by
  intro st; show CWP _ (comparisonLoopBody s l) _ _; unfold comparisonLoopBody ; c_auto
theorem c_notTest [Uni] : COk (.notTest) := by
  intro st; show CWP _ (notTestBody) _ _; unfold notTestBody ; c_auto
theorem c_andTest [Uni] : COk (.andTest) := by
  intro st; show CWP _ (andTestBody) _ _; unfold andTestBody ; c_auto
theorem c_andTestLoop [Uni] (s l) : COk (.andTestLoop s l) := by
  intro st; show CWP _ (andTestLoopBody s l) _ _; unfold andTestLoopBody leftLoopBody; c_auto
theorem c_orTest [Uni] : COk (.orTest) := by
  intro st; show CWP _ (orTestBody) _ _; unfold orTestBody ; c_auto
theorem c_orTestLoop [Uni] (s l) : COk (.orTestLoop s l) := by
  intro st; show CWP _ (orTestLoopBody s l) _ _; unfold orTestLoopBody leftLoopBody; c_auto
theorem c_lambdaDef [Uni] (c) : COk (.lambdaDef c) := by
  intro st; show CWP _ (lambdaDefBody c) _ _; unfold lambdaDefBody ; c_auto
theorem c_noCondTest [Uni] : COk (.noCondTest) := by
  intro st; show CWP _ (noCondTestBody) _ _; unfold noCondTestBody ; c_auto
theorem c_test [Uni] : COk (.test) := by
  intro st; show CWP _ (testBody) _ _; unfold testBody ; c_auto
theorem c_namedExpression [Uni] : COk (.namedExpression) := by
  intro st; show CWP _ (namedExpressionBody) _ _; unfold namedExpressionBody ; c_auto
theorem c_testlistComp [Uni] : COk (.testlistComp) := by
  intro st; show CWP _ (testlistCompBody) _ _; unfold testlistCompBody starOrNamed; c_auto
theorem c_testlistCompLoop [Uni] (s n p) : COk (.testlistCompLoop s n p) := by
  intro st; show CWP _ (testlistCompLoopBody s n p) _ _; unfold testlistCompLoopBody starOrNamed; c_auto
theorem c_trailer [Uni] : COk (.trailer) := by
  intro st; show CWP _ (trailerBody) _ _; unfold trailerBody ; c_auto
theorem c_subscriptList [Uni] : COk (.subscriptList) := by
  intro st; show CWP _ (subscriptListBody) _ _; unfold subscriptListBody ; c_auto
theorem c_subscriptListLoop [Uni] (s n p) : COk (.subscriptListLoop s n p) := by
  intro st; show CWP _ (subscriptListLoopBody s n p) _ _; unfold subscriptListLoopBody ; c_auto
theorem c_subscript [Uni] : COk (.subscript) := by
  intro st; show CWP _ (subscriptBody) _ _; unfold subscriptBody ; c_auto
theorem c_exprlist [Uni] : COk (.exprlist) := by
  intro st; show CWP _ (exprlistBody) _ _; unfold exprlistBody starOrNamed; c_auto
theorem c_exprlistLoop [Uni] (s n p) : COk (.exprlistLoop s n p) := by
  intro st; show CWP _ (exprlistLoopBody s n p) _ _; unfold exprlistLoopBody listResult; c_auto
theorem c_testlist [Uni] : COk (.testlist) := by
  intro st; show CWP _ (testlistBody) _ _; unfold testlistBody ; c_auto
theorem c_testlistLoop [Uni] (s n p) : COk (.testlistLoop s n p) := by
  intro st; show CWP _ (testlistLoopBody s n p) _ _; unfold testlistLoopBody listResult; c_auto
theorem c_dictorsetMaker [Uni] : COk (.dictorsetMaker) := by
  intro st; show CWP _ (dictorsetMakerBody) _ _; unfold dictorsetMakerBody dictRest dictRest.fin; c_auto
theorem c_setLoop [Uni] (s n p) : COk (.setLoop s n p) := by
  intro st; show CWP _ (setLoopBody s n p) _ _; unfold setLoopBody ; c_auto
theorem c_arglist [Uni] : COk (.arglist) := by
  intro st; show CWP _ (arglistBody) _ _; unfold arglistBody ; c_auto
theorem c_arglistLoop [Uni] (s n p) : COk (.arglistLoop s n p) := by
  intro st; show CWP _ (arglistLoopBody s n p) _ _; unfold arglistLoopBody ; c_auto
theorem c_argument [Uni] : COk (.argument) := by
  intro st; show CWP _ (argumentBody) _ _; unfold argumentBody ; c_auto
theorem c_compIter [Uni] : COk (.compIter) := by
  intro st; show CWP _ (compIterBody) _ _; unfold compIterBody ; c_auto
theorem c_syncCompFor [Uni] : COk (.syncCompFor) := by
  intro st; show CWP _ (syncCompForBody) _ _; unfold syncCompForBody ; c_auto
theorem c_compFor [Uni] : COk (.compFor) := by
  intro st; show CWP _ (compForBody) _ _; unfold compForBody ; c_auto
theorem c_compIf [Uni] : COk (.compIf) := by
  intro st; show CWP _ (compIfBody) _ _; unfold compIfBody ; c_auto
theorem c_yieldExpr [Uni] : COk (.yieldExpr) := by
  intro st; show CWP _ (yieldExprBody) _ _; unfold yieldExprBody ; c_auto
theorem c_testlistStarExpr [Uni] : COk (.testlistStarExpr) := by
  intro st; show CWP _ (testlistStarExprBody) _ _; unfold testlistStarExprBody ; c_auto
theorem c_testlistStarExprLoop [Uni] (s n p) : COk (.testlistStarExprLoop s n p) := by
  intro st; show CWP _ (testlistStarExprLoopBody s n p) _ _; unfold testlistStarExprLoopBody testlistStarExprResult; c_auto
theorem c_varArgsList [Uni] : COk (.varArgsList) := by
  intro st; show CWP _ (varArgsListBody) _ _; unfold varArgsListBody varArgsMul varArgsPower varArgsResult; c_auto
theorem c_varArgsMainLoop [Uni] (s v) : COk (.varArgsMainLoop s v) := by
  intro st; show CWP _ (varArgsMainLoopBody s v) _ _; unfold varArgsMainLoopBody varArgsMul varArgsPower varArgsResult; c_auto
theorem c_varArgsStarLoop [Uni] (s v) : COk (.varArgsStarLoop s v) := by
  intro st; show CWP _ (varArgsStarLoopBody s v) _ _; unfold varArgsStarLoopBody varArgsPower varArgsResult; c_auto
theorem c_varArgsDivLoop [Uni] (s v) : COk (.varArgsDivLoop s v) := by
  intro st; show CWP _ (varArgsDivLoopBody s v) _ _; unfold varArgsDivLoopBody varArgsMul varArgsPower varArgsResult; c_auto
theorem c_varArgsAssignments [Uni] : COk (.varArgsAssignments) := by
  intro st; show CWP _ (varArgsAssignmentsBody) _ _; unfold varArgsAssignmentsBody ; c_auto
theorem c_vfpDef [Uni] : COk (.vfpDef) := by
  intro st; show CWP _ (vfpDefBody) _ _; unfold vfpDefBody ; c_auto
theorem c_stmt [Uni] : COk (.stmt) := by
  intro st; show CWP _ (stmtBody) _ _; unfold stmtBody ; c_auto
theorem c_simpleStmt [Uni] : COk (.simpleStmt) := by
  intro st; show CWP _ (simpleStmtBody) _ _; unfold simpleStmtBody ; c_auto
theorem c_simpleStmtLoop [Uni] (s n p) : COk (.simpleStmtLoop s n p) := by
  intro st; show CWP _ (simpleStmtLoopBody s n p) _ _; unfold simpleStmtLoopBody simpleStmtLoopBody.fin; c_auto
theorem c_smallStmt [Uni] : COk (.smallStmt) := by
  intro st; show CWP _ (smallStmtBody) _ _; unfold smallStmtBody ; c_auto
theorem c_exprStmt [Uni] : COk (.exprStmt) := by
  intro st; show CWP _ (exprStmtBody) _ _; unfold exprStmtBody yieldOrTestlist; c_auto
theorem c_assignLoop [Uni] (s l n) : COk (.assignLoop s l n) := by
  intro st; show CWP _ (assignLoopBody s l n) _ _; unfold assignLoopBody yieldOrTestlist; c_auto
theorem c_annAssign [Uni] (s l) : COk (.annAssign s l) := by
  intro st; show CWP _ (annAssignBody s l) _ _; unfold annAssignBody yieldOrTestlist; c_auto
theorem c_delStmt [Uni] : COk (.delStmt) := by
  intro st; show CWP _ (delStmtBody) _ _; unfold delStmtBody ; c_auto
theorem c_passStmt [Uni] : COk (.passStmt) := by
  intro st; show CWP _ (passStmtBody) _ _; unfold passStmtBody ; c_auto
theorem c_flowStmt [Uni] : COk (.flowStmt) := by
  intro st; show CWP _ (flowStmtBody) _ _; unfold flowStmtBody ; c_auto
theorem c_breakStmt [Uni] : COk (.breakStmt) := by
  intro st; show CWP _ (breakStmtBody) _ _; unfold breakStmtBody ; c_auto
theorem c_continueStmt [Uni] : COk (.continueStmt) := by
  intro st; show CWP _ (continueStmtBody) _ _; unfold continueStmtBody ; c_auto
theorem c_returnStmt [Uni] : COk (.returnStmt) := by
  intro st; show CWP _ (returnStmtBody) _ _; unfold returnStmtBody ; c_auto
theorem c_yieldStmt [Uni] : COk (.yieldStmt) := by
  intro st; show CWP _ (yieldStmtBody) _ _; unfold yieldStmtBody ; c_auto
theorem c_raiseStmt [Uni] : COk (.raiseStmt) := by
  intro st; show CWP _ (raiseStmtBody) _ _; unfold raiseStmtBody ; c_auto
theorem c_importStmt [Uni] : COk (.importStmt) := by
  intro st; show CWP _ (importStmtBody) _ _; unfold importStmtBody ; c_auto
theorem c_importName [Uni] : COk (.importName) := by
  intro st; show CWP _ (importNameBody) _ _; unfold importNameBody ; c_auto
theorem c_importFrom [Uni] : COk (.importFrom) := by
  intro st; show CWP _ (importFromBody) _ _; unfold importFromBody ; c_auto
theorem c_importDotLoop [Uni] (s t d) : COk (.importDotLoop s t d) := by
  intro st; show CWP _ (importDotLoopBody s t d) _ _; unfold importDotLoopBody importFromRest; c_auto
theorem c_importAsName [Uni] : COk (.importAsName) := by
  intro st; show CWP _ (importAsNameBody) _ _; unfold importAsNameBody ; c_auto
theorem c_dottedAsName [Uni] : COk (.dottedAsName) := by
  intro st; show CWP _ (dottedAsNameBody) _ _; unfold dottedAsNameBody ; c_auto
theorem c_importAsNames [Uni] : COk (.importAsNames) := by
  intro st; show CWP _ (importAsNamesBody) _ _; unfold importAsNamesBody ; c_auto
theorem c_importAsNamesLoop [Uni] (s n p) : COk (.importAsNamesLoop s n p) := by
  intro st; show CWP _ (importAsNamesLoopBody s n p) _ _; unfold importAsNamesLoopBody ; c_auto
theorem c_dottedAsNames [Uni] : COk (.dottedAsNames) := by
  intro st; show CWP _ (dottedAsNamesBody) _ _; unfold dottedAsNamesBody ; c_auto
theorem c_dottedAsNamesLoop [Uni] (s n p) : COk (.dottedAsNamesLoop s n p) := by
  intro st; show CWP _ (dottedAsNamesLoopBody s n p) _ _; unfold dottedAsNamesLoopBody ; c_auto
theorem c_dottedName [Uni] : COk (.dottedName) := by
  intro st; show CWP _ (dottedNameBody) _ _; unfold dottedNameBody ; c_auto
theorem c_dottedNameLoop [Uni] (s n p) : COk (.dottedNameLoop s n p) := by
  intro st; show CWP _ (dottedNameLoopBody s n p) _ _; unfold dottedNameLoopBody ; c_auto
theorem c_globalStmt [Uni] : COk (.globalStmt) := by
  intro st; show CWP _ (globalStmtBody) _ _; unfold globalStmtBody ; c_auto
theorem c_globalLoop [Uni] (s t n p) : COk (.globalLoop s t n p) := by
  intro st; show CWP _ (globalLoopBody s t n p) _ _; unfold globalLoopBody ; c_auto
theorem c_nonlocalStmt [Uni] : COk (.nonlocalStmt) := by
  intro st; show CWP _ (nonlocalStmtBody) _ _; unfold nonlocalStmtBody ; c_auto
theorem c_nonlocalLoop [Uni] (s t n p) : COk (.nonlocalLoop s t n p) := by
  intro st; show CWP _ (nonlocalLoopBody s t n p) _ _; unfold nonlocalLoopBody ; c_auto
theorem c_assertStmt [Uni] : COk (.assertStmt) := by
  intro st; show CWP _ (assertStmtBody) _ _; unfold assertStmtBody ; c_auto
theorem c_compoundStmt [Uni] : COk (.compoundStmt) := by
  intro st; show CWP _ (compoundStmtBody) _ _; unfold compoundStmtBody ; c_auto
theorem c_asyncStmt [Uni] : COk (.asyncStmt) := by
  intro st; show CWP _ (asyncStmtBody) _ _; unfold asyncStmtBody ; c_auto
theorem c_ifStmt [Uni] : COk (.ifStmt) := by
  intro st; show CWP _ (ifStmtBody) _ _; unfold ifStmtBody ; c_auto
theorem c_ifLoop [Uni] (s t l t2 r n) : COk (.ifLoop s t l t2 r n) := by
  intro st; show CWP _ (ifLoopBody s t l t2 r n) _ _; unfold ifLoopBody ; c_auto
theorem c_elifStmt [Uni] : COk (.elifStmt) := by
  intro st; show CWP _ (elifStmtBody) _ _; unfold elifStmtBody ; c_auto
theorem c_elseStmt [Uni] : COk (.elseStmt) := by
  intro st; show CWP _ (elseStmtBody) _ _; unfold elseStmtBody ; c_auto
theorem c_whileStmt [Uni] : COk (.whileStmt) := by
  intro st; show CWP _ (whileStmtBody) _ _; unfold whileStmtBody ; c_auto
theorem c_forStmt [Uni] : COk (.forStmt) := by
  intro st; show CWP _ (forStmtBody) _ _; unfold forStmtBody ; c_auto
theorem c_tryStmt [Uni] : COk (.tryStmt) := by
  intro st; show CWP _ (tryStmtBody) _ _; unfold tryStmtBody ; c_auto
theorem c_tryLoop [Uni] (s t t2 l n) : COk (.tryLoop s t t2 l n) := by
  intro st; show CWP _ (tryLoopBody s t t2 l n) _ _; unfold tryLoopBody ; c_auto
theorem c_finallyStmt [Uni] : COk (.finallyStmt) := by
  intro st; show CWP _ (finallyStmtBody) _ _; unfold finallyStmtBody ; c_auto
theorem c_withStmt [Uni] : COk (.withStmt) := by
  intro st; show CWP _ (withStmtBody) _ _; unfold withStmtBody ; c_auto
theorem c_withParenLoop [Uni] (s t l n p) : COk (.withParenLoop s t l n p) := by
  intro st; show CWP _ (withParenLoopBody s t l n p) _ _; unfold withParenLoopBody withParenEnd withRest; c_auto
theorem c_withLoop [Uni] (s t n p) : COk (.withLoop s t n p) := by
  intro st; show CWP _ (withLoopBody s t n p) _ _; unfold withLoopBody withRest; c_auto
theorem c_withItem [Uni] : COk (.withItem) := by
  intro st; show CWP _ (withItemBody) _ _; unfold withItemBody ; c_auto
theorem c_exceptStmt [Uni] : COk (.exceptStmt) := by
  intro st; show CWP _ (exceptStmtBody) _ _; unfold exceptStmtBody ; c_auto
theorem c_exceptClause [Uni] : COk (.exceptClause) := by
  intro st; show CWP _ (exceptClauseBody) _ _; unfold exceptClauseBody exceptStar; c_auto
theorem c_suite [Uni] : COk (.suite) := by
  intro st; show CWP _ (suiteBody) _ _; unfold suiteBody ; c_auto
theorem c_suiteLoop [Uni] (s t t2 n) : COk (.suiteLoop s t t2 n) := by
  intro st; show CWP _ (suiteLoopBody s t t2 n) _ _; unfold suiteLoopBody ; c_auto
theorem c_evalLoop [Uni] (s r p) : COk (.evalLoop s r p) := by
  intro st; show CWP _ (evalLoopBody s r p) _ _; unfold evalLoopBody ; c_auto
theorem c_fileLoop [Uni] (s n p) : COk (.fileLoop s n p) := by
  intro st; show CWP _ (fileLoopBody s n p) _ _; unfold fileLoopBody ; c_auto
theorem c_funcTypeLoop [Uni] (s r p) : COk (.funcTypeLoop s r p) := by
  intro st; show CWP _ (funcTypeLoopBody s r p) _ _; unfold funcTypeLoopBody ; c_auto
theorem c_decorator [Uni] : COk (.decorator) := by
  intro st; show CWP _ (decoratorBody) _ _; unfold decoratorBody decoratorEnd; c_auto
theorem c_decorators [Uni] : COk (.decorators) := by
  intro st; show CWP _ (decoratorsBody) _ _; unfold decoratorsBody ; c_auto
theorem c_decoratorsLoop [Uni] (s n) : COk (.decoratorsLoop s n) := by
  intro st; show CWP _ (decoratorsLoopBody s n) _ _; unfold decoratorsLoopBody ; c_auto
theorem c_decorated [Uni] : COk (.decorated) := by
  intro st; show CWP _ (decoratedBody) _ _; unfold decoratedBody ; c_auto
theorem c_asyncFuncDef [Uni] : COk (.asyncFuncDef) := by
  intro st; show CWP _ (asyncFuncDefBody) _ _; unfold asyncFuncDefBody ; c_auto
theorem c_funcDef [Uni] : COk (.funcDef) := by
  intro st; show CWP _ (funcDefBody) _ _; unfold funcDefBody ; c_auto
theorem c_parameters [Uni] : COk (.parameters) := by
  intro st; show CWP _ (parametersBody) _ _; unfold parametersBody ; c_auto
theorem c_typedArgsList [Uni] : COk (.typedArgsList) := by
  intro st; show CWP _ (typedArgsListBody) _ _; unfold typedArgsListBody ; c_auto
theorem c_tfpDefAssign [Uni] : COk (.tfpDefAssign) := by
  intro st; show CWP _ (tfpDefAssignBody) _ _; unfold tfpDefAssignBody ; c_auto
theorem c_tfpDef [Uni] : COk (.tfpDef) := by
  intro st; show CWP _ (tfpDefBody) _ _; unfold tfpDefBody ; c_auto
theorem c_funcBodySuite [Uni] : COk (.funcBodySuite) := by
  intro st; show CWP _ (funcBodySuiteBody) _ _; unfold funcBodySuiteBody funcBodyIndent; c_auto
theorem c_funcBodyLoop [Uni] (s t tc tn t4 n) : COk (.funcBodyLoop s t tc tn t4 n) := by
  intro st; show CWP _ (funcBodyLoopBody s t tc tn t4 n) _ _; unfold funcBodyLoopBody ; c_auto
theorem c_classDef [Uni] : COk (.classDef) := by
  intro st; show CWP _ (classDefBody) _ _; unfold classDefBody classRest; c_auto
theorem c_funcType [Uni] : COk (.funcType) := by
  intro st; show CWP _ (funcTypeBody) _ _; unfold funcTypeBody ; c_auto
theorem c_typeList [Uni] : COk (.typeList) := by
  intro st; show CWP _ (typeListBody) _ _; unfold typeListBody typeListMul typeListPower typeListResult; c_auto
theorem c_typeListMainLoop [Uni] (s v) : COk (.typeListMainLoop s v) := by
  intro st; show CWP _ (typeListMainLoopBody s v) _ _; unfold typeListMainLoopBody typeListMul typeListPower typeListResult; c_auto
theorem c_typeListStarLoop [Uni] (s v) : COk (.typeListStarLoop s v) := by
  intro st; show CWP _ (typeListStarLoopBody s v) _ _; unfold typeListStarLoopBody typeListPower typeListResult; c_auto
theorem c_evalInput [Uni] : COk (.evalInput) := by
  intro st; show CWP _ (evalInputBody) _ _; unfold evalInputBody; c_auto
theorem c_fileInput [Uni] : COk (.fileInput) := by
  intro st; show CWP _ (fileInputBody) _ _; unfold fileInputBody; c_auto
theorem c_singleInput [Uni] : COk (.singleInput) := by
  intro st; show CWP _ (singleInputBody) _ _; unfold singleInputBody singleNewline; c_auto
theorem c_funcTypeInput [Uni] : COk (.funcTypeInput) := by
  intro st; show CWP _ (funcTypeInputBody) _ _; unfold funcTypeInputBody; c_auto

theorem c_all [Uni] (f : Fn) (hf : f ≠ .patternsMatch) : COk f := by
  cases f with
  | atom => exact c_atom
  | atomStrLoop s l => exact c_atomStrLoop s l
  | atomExpr => exact c_atomExpr
  | trailerLoop s a r l => exact c_trailerLoop s a r l
  | power => exact c_power
  | factor => exact c_factor
  | term => exact c_term
  | termLoop s l => exact c_termLoop s l
  | arith => exact c_arith
  | arithLoop s l => exact c_arithLoop s l
  | shift => exact c_shift
  | shiftLoop s l => exact c_shiftLoop s l
  | andExpr => exact c_andExpr
  | andExprLoop s l => exact c_andExprLoop s l
  | xorExpr => exact c_xorExpr
  | xorExprLoop s l => exact c_xorExprLoop s l
  | expr => exact c_expr
  | exprLoop s l => exact c_exprLoop s l
  | starExpr => exact c_starExpr
  | comparison => exact c_comparison
  | comparisonLoop s l => exact c_comparisonLoop s l
  | notTest => exact c_notTest
  | andTest => exact c_andTest
  | andTestLoop s l => exact c_andTestLoop s l
  | orTest => exact c_orTest
  | orTestLoop s l => exact c_orTestLoop s l
  | lambdaDef c => exact c_lambdaDef c
  | noCondTest => exact c_noCondTest
  | test => exact c_test
  | namedExpression => exact c_namedExpression
  | testlistComp => exact c_testlistComp
  | testlistCompLoop s n p => exact c_testlistCompLoop s n p
  | trailer => exact c_trailer
  | subscriptList => exact c_subscriptList
  | subscriptListLoop s n p => exact c_subscriptListLoop s n p
  | subscript => exact c_subscript
  | exprlist => exact c_exprlist
  | exprlistLoop s n p => exact c_exprlistLoop s n p
  | testlist => exact c_testlist
  | testlistLoop s n p => exact c_testlistLoop s n p
  | dictorsetMaker => exact c_dictorsetMaker
  | setLoop s n p => exact c_setLoop s n p
  | arglist => exact c_arglist
  | arglistLoop s n p => exact c_arglistLoop s n p
  | argument => exact c_argument
  | compIter => exact c_compIter
  | syncCompFor => exact c_syncCompFor
  | compFor => exact c_compFor
  | compIf => exact c_compIf
  | yieldExpr => exact c_yieldExpr
  | testlistStarExpr => exact c_testlistStarExpr
  | testlistStarExprLoop s n p => exact c_testlistStarExprLoop s n p
  | varArgsList => exact c_varArgsList
  | varArgsMainLoop s v => exact c_varArgsMainLoop s v
  | varArgsStarLoop s v => exact c_varArgsStarLoop s v
  | varArgsDivLoop s v => exact c_varArgsDivLoop s v
  | varArgsAssignments => exact c_varArgsAssignments
  | vfpDef => exact c_vfpDef
  | stmt => exact c_stmt
  | simpleStmt => exact c_simpleStmt
  | simpleStmtLoop s n p => exact c_simpleStmtLoop s n p
  | smallStmt => exact c_smallStmt
  | exprStmt => exact c_exprStmt
  | assignLoop s l n => exact c_assignLoop s l n
  | annAssign s l => exact c_annAssign s l
  | delStmt => exact c_delStmt
  | passStmt => exact c_passStmt
  | flowStmt => exact c_flowStmt
  | breakStmt => exact c_breakStmt
  | continueStmt => exact c_continueStmt
  | returnStmt => exact c_returnStmt
  | yieldStmt => exact c_yieldStmt
  | raiseStmt => exact c_raiseStmt
  | importStmt => exact c_importStmt
  | importName => exact c_importName
  | importFrom => exact c_importFrom
  | importDotLoop s t d => exact c_importDotLoop s t d
  | importAsName => exact c_importAsName
  | dottedAsName => exact c_dottedAsName
  | importAsNames => exact c_importAsNames
  | importAsNamesLoop s n p => exact c_importAsNamesLoop s n p
  | dottedAsNames => exact c_dottedAsNames
  | dottedAsNamesLoop s n p => exact c_dottedAsNamesLoop s n p
  | dottedName => exact c_dottedName
  | dottedNameLoop s n p => exact c_dottedNameLoop s n p
  | globalStmt => exact c_globalStmt
  | globalLoop s t n p => exact c_globalLoop s t n p
  | nonlocalStmt => exact c_nonlocalStmt
  | nonlocalLoop s t n p => exact c_nonlocalLoop s t n p
  | assertStmt => exact c_assertStmt
  | compoundStmt => exact c_compoundStmt
  | asyncStmt => exact c_asyncStmt
  | ifStmt => exact c_ifStmt
  | ifLoop s t l t2 r n => exact c_ifLoop s t l t2 r n
  | elifStmt => exact c_elifStmt
  | elseStmt => exact c_elseStmt
  | whileStmt => exact c_whileStmt
  | forStmt => exact c_forStmt
  | tryStmt => exact c_tryStmt
  | tryLoop s t t2 l n => exact c_tryLoop s t t2 l n
  | finallyStmt => exact c_finallyStmt
  | withStmt => exact c_withStmt
  | withParenLoop s t l n p => exact c_withParenLoop s t l n p
  | withLoop s t n p => exact c_withLoop s t n p
  | withItem => exact c_withItem
  | exceptStmt => exact c_exceptStmt
  | exceptClause => exact c_exceptClause
  | suite => exact c_suite
  | suiteLoop s t t2 n => exact c_suiteLoop s t t2 n
  | evalLoop s r p => exact c_evalLoop s r p
  | fileLoop s n p => exact c_fileLoop s n p
  | funcTypeLoop s r p => exact c_funcTypeLoop s r p
  | decorator => exact c_decorator
  | decorators => exact c_decorators
  | decoratorsLoop s n => exact c_decoratorsLoop s n
  | decorated => exact c_decorated
  | asyncFuncDef => exact c_asyncFuncDef
  | funcDef => exact c_funcDef
  | parameters => exact c_parameters
  | typedArgsList => exact c_typedArgsList
  | tfpDefAssign => exact c_tfpDefAssign
  | tfpDef => exact c_tfpDef
  | funcBodySuite => exact c_funcBodySuite
  | funcBodyLoop s t tc tn t4 n => exact c_funcBodyLoop s t tc tn t4 n
  | classDef => exact c_classDef
  | funcType => exact c_funcType
  | typeList => exact c_typeList
  | typeListMainLoop s v => exact c_typeListMainLoop s v
  | typeListStarLoop s v => exact c_typeListStarLoop s v
  | evalInput => exact c_evalInput
  | fileInput => exact c_fileInput
  | singleInput => exact c_singleInput
  | funcTypeInput => exact c_funcTypeInput
  | patternsMatch => exact absurd rfl hf

end Verif
