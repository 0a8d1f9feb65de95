import Verif.Proof.Term

/-!
# Every parse function obeys the termination logic
-/

namespace Verif
open Prog

attribute [local irreducible] TWP PSt.advance PSt.left

theorem weight_def (f : Fn) (c : PSt) : f.weight c = 100 * c.left + f.rank := rfl

/-- Not the end of the text. -/
macro "neof" : tactic => `(tactic| first
  | (intro e; simp only [e, reduceCtorEq] at *; done)
  | (intro e; simp [e, termOp, arithOp, shiftOp, andExprOp, xorExprOp, exprOp, compOp, andTestOp, orTestOp, augOp] at *; done))

macro "t_simp" : tactic => `(tactic| simp only [twp_bind, twp_pure, twp_ret, twp_fail, twp_panic, twp_failHere, twp_here, twp_next,
  twp_parse, twp_symAt, twp_symHere, twp_sym?, twp_mk, twp_getExc, twp_setExc, twp_ite, weight_def, Fn.rank, Fn.input, Fn.step, Fn.moves,
  implies_true, and_true, true_and, reduceIte, Bool.false_eq_true, forall_const, Nat.add_zero, Bool.true_eq_false])

macro "t_step" : tactic => `(tactic| first
  | trivial
  | (refine Or.inl ?_; omega)
  | (refine Or.inr ⟨rfl, _, by assumption, by assumption⟩)
  | (intro (d : PSt) hg hle hlt
     first
      | (refine (have hlt' := hlt ?_; ?_)
         · neof)
      | skip)
  | intro _
  | refine ⟨_, by assumption, ?_⟩
  | constructor
  | omega
  | (split <;> try t_simp)
  | (exfalso; simp_all; done))

macro "t_auto" : tactic => `(tactic| (repeat' t_step))

theorem t_atom [Uni] (src) : TOk src (.atom) := by
  intro st hst; show TWP _ _ (atomBody) _ _; unfold atomBody ; t_simp; t_auto
theorem t_atomStrLoop [Uni] (src) (s l) : TOk src (.atomStrLoop s l) := by
  intro st hst; show TWP _ _ (atomStrLoopBody s l) _ _; unfold atomStrLoopBody ; t_simp; t_auto
theorem t_atomExpr [Uni] (src) : TOk src (.atomExpr) := by
  intro st hst; show TWP _ _ (atomExprBody) _ _; unfold atomExprBody ; t_simp; t_auto
theorem t_trailerLoop [Uni] (src) (s a r l) : TOk src (.trailerLoop s a r l) := by
  intro st hst; show TWP _ _ (trailerLoopBody s a r l) _ _; unfold trailerLoopBody trailerLoopBody.fin; t_simp; t_auto
theorem t_power [Uni] (src) : TOk src (.power) := by
  intro st hst; show TWP _ _ (powerBody) _ _; unfold powerBody ; t_simp; t_auto
theorem t_factor [Uni] (src) : TOk src (.factor) := by
  intro st hst; show TWP _ _ (factorBody) _ _; unfold factorBody ; t_simp; t_auto
theorem t_term [Uni] (src) : TOk src (.term) := by
  intro st hst; show TWP _ _ (termBody) _ _; unfold termBody ; t_simp; t_auto
theorem t_termLoop [Uni] (src) (s l) : TOk src (.termLoop s l) := by
  intro st hst; show TWP _ _ (termLoopBody s l) _ _; unfold termLoopBody leftLoopBody; t_simp; t_auto
theorem t_arith [Uni] (src) : TOk src (.arith) := by
  intro st hst; show TWP _ _ (arithBody) _ _; unfold arithBody ; t_simp; t_auto
theorem t_arithLoop [Uni] (src) (s l) : TOk src (.arithLoop s l) := by
  intro st hst; show TWP _ _ (arithLoopBody s l) _ _; unfold arithLoopBody leftLoopBody; t_simp; t_auto
theorem t_shift [Uni] (src) : TOk src (.shift) := by
  intro st hst; show TWP _ _ (shiftBody) _ _; unfold shiftBody ; t_simp; t_auto
theorem t_shiftLoop [Uni] (src) (s l) : TOk src (.shiftLoop s l) := by
  intro st hst; show TWP _ _ (shiftLoopBody s l) _ _; unfold shiftLoopBody leftLoopBody; t_simp; t_auto
theorem t_andExpr [Uni] (src) : TOk src (.andExpr) := by
  intro st hst; show TWP _ _ (andExprBody) _ _; unfold andExprBody ; t_simp; t_auto
theorem t_andExprLoop [Uni] (src) (s l) : TOk src (.andExprLoop s l) := by
  intro st hst; show TWP _ _ (andExprLoopBody s l) _ _; unfold andExprLoopBody leftLoopBody; t_simp; t_auto
theorem t_xorExpr [Uni] (src) : TOk src (.xorExpr) := by
  intro st hst; show TWP _ _ (xorExprBody) _ _; unfold xorExprBody ; t_simp; t_auto
theorem t_xorExprLoop [Uni] (src) (s l) : TOk src (.xorExprLoop s l) := by
  intro st hst; show TWP _ _ (xorExprLoopBody s l) _ _; unfold xorExprLoopBody leftLoopBody; t_simp; t_auto
theorem t_expr [Uni] (src) : TOk src (.expr) := by
  intro st hst; show TWP _ _ (exprBody) _ _; unfold exprBody ; t_simp; t_auto
theorem t_exprLoop [Uni] (src) (s l) : TOk src (.exprLoop s l) := by
  intro st hst; show TWP _ _ (exprLoopBody s l) _ _; unfold exprLoopBody leftLoopBody; t_simp; t_auto
theorem t_starExpr [Uni] (src) : TOk src (.starExpr) := by
  intro st hst; show TWP _ _ (starExprBody) _ _; unfold starExprBody ; t_simp; t_auto
theorem t_comparison [Uni] (src) : TOk src (.comparison) := by
  intro st hst; show TWP _ _ (comparisonBody) _ _; unfold comparisonBody ; t_simp; t_auto
theorem t_comparisonLoop [Uni] (src) (s l) : TOk src (.comparisonLoop s l) := by
  intro st hst; show TWP _ _ (comparisonLoopBody s l) _ _; unfold comparisonLoopBody ; t_simp; t_auto
theorem t_notTest [Uni] (src) : TOk src (.notTest) := by
  intro st hst; show TWP _ _ (notTestBody) _ _; unfold notTestBody ; t_simp; t_auto
theorem t_andTest [Uni] (src) : TOk src (.andTest) := by
  intro st hst; show TWP _ _ (andTestBody) _ _; unfold andTestBody ; t_simp; t_auto
theorem t_andTestLoop [Uni] (src) (s l) : TOk src (.andTestLoop s l) := by
  intro st hst; show TWP _ _ (andTestLoopBody s l) _ _; unfold andTestLoopBody leftLoopBody; t_simp; t_auto
theorem t_orTest [Uni] (src) : TOk src (.orTest) := by
  intro st hst; show TWP _ _ (orTestBody) _ _; unfold orTestBody ; t_simp; t_auto
theorem t_orTestLoop [Uni] (src) (s l) : TOk src (.orTestLoop s l) := by
  intro st hst; show TWP _ _ (orTestLoopBody s l) _ _; unfold orTestLoopBody leftLoopBody; t_simp; t_auto
theorem t_lambdaDef [Uni] (src) (c) : TOk src (.lambdaDef c) := by
  intro st hst; show TWP _ _ (lambdaDefBody c) _ _; unfold lambdaDefBody ; t_simp; t_auto
theorem t_noCondTest [Uni] (src) : TOk src (.noCondTest) := by
  intro st hst; show TWP _ _ (noCondTestBody) _ _; unfold noCondTestBody ; t_simp; t_auto
theorem t_test [Uni] (src) : TOk src (.test) := by
  intro st hst; show TWP _ _ (testBody) _ _; unfold testBody ; t_simp; t_auto
theorem t_namedExpression [Uni] (src) : TOk src (.namedExpression) := by
  intro st hst; show TWP _ _ (namedExpressionBody) _ _; unfold namedExpressionBody ; t_simp; t_auto
theorem t_testlistComp [Uni] (src) : TOk src (.testlistComp) := by
  intro st hst; show TWP _ _ (testlistCompBody) _ _; unfold testlistCompBody starOrNamed; t_simp; t_auto
theorem t_testlistCompLoop [Uni] (src) (s n p) : TOk src (.testlistCompLoop s n p) := by
  intro st hst; show TWP _ _ (testlistCompLoopBody s n p) _ _; unfold testlistCompLoopBody starOrNamed; t_simp; t_auto
theorem t_trailer [Uni] (src) : TOk src (.trailer) := by
  intro st hst; show TWP _ _ (trailerBody) _ _; unfold trailerBody ; t_simp; t_auto
theorem t_subscriptList [Uni] (src) : TOk src (.subscriptList) := by
  intro st hst; show TWP _ _ (subscriptListBody) _ _; unfold subscriptListBody ; t_simp; t_auto
theorem t_subscriptListLoop [Uni] (src) (s n p) : TOk src (.subscriptListLoop s n p) := by
  intro st hst; show TWP _ _ (subscriptListLoopBody s n p) _ _; unfold subscriptListLoopBody ; t_simp; t_auto
theorem t_subscript [Uni] (src) : TOk src (.subscript) := by
  intro st hst; show TWP _ _ (subscriptBody) _ _; unfold subscriptBody ; t_simp; t_auto
theorem t_exprlist [Uni] (src) : TOk src (.exprlist) := by
  intro st hst; show TWP _ _ (exprlistBody) _ _; unfold exprlistBody starOrNamed; t_simp; t_auto
theorem t_exprlistLoop [Uni] (src) (s n p) : TOk src (.exprlistLoop s n p) := by
  intro st hst; show TWP _ _ (exprlistLoopBody s n p) _ _; unfold exprlistLoopBody listResult; t_simp; t_auto
theorem t_testlist [Uni] (src) : TOk src (.testlist) := by
  intro st hst; show TWP _ _ (testlistBody) _ _; unfold testlistBody ; t_simp; t_auto
theorem t_testlistLoop [Uni] (src) (s n p) : TOk src (.testlistLoop s n p) := by
  intro st hst; show TWP _ _ (testlistLoopBody s n p) _ _; unfold testlistLoopBody listResult; t_simp; t_auto
theorem t_dictorsetMaker [Uni] (src) : TOk src (.dictorsetMaker) := by
  intro st hst; show TWP _ _ (dictorsetMakerBody) _ _; unfold dictorsetMakerBody dictRest dictRest.fin; t_simp; t_auto
theorem t_setLoop [Uni] (src) (s n p) : TOk src (.setLoop s n p) := by
  intro st hst; show TWP _ _ (setLoopBody s n p) _ _; unfold setLoopBody ; t_simp; t_auto
theorem t_arglist [Uni] (src) : TOk src (.arglist) := by
  intro st hst; show TWP _ _ (arglistBody) _ _; unfold arglistBody ; t_simp; t_auto
theorem t_arglistLoop [Uni] (src) (s n p) : TOk src (.arglistLoop s n p) := by
  intro st hst; show TWP _ _ (arglistLoopBody s n p) _ _; unfold arglistLoopBody ; t_simp; t_auto
theorem t_argument [Uni] (src) : TOk src (.argument) := by
  intro st hst; show TWP _ _ (argumentBody) _ _; unfold argumentBody ; t_simp; t_auto
theorem t_compIter [Uni] (src) : TOk src (.compIter) := by
  intro st hst; show TWP _ _ (compIterBody) _ _; unfold compIterBody ; t_simp; t_auto
theorem t_syncCompFor [Uni] (src) : TOk src (.syncCompFor) := by
  intro st hst; show TWP _ _ (syncCompForBody) _ _; unfold syncCompForBody ; t_simp; t_auto
theorem t_compFor [Uni] (src) : TOk src (.compFor) := by
  intro st hst; show TWP _ _ (compForBody) _ _; unfold compForBody ; t_simp; t_auto
theorem t_compIf [Uni] (src) : TOk src (.compIf) := by
  intro st hst; show TWP _ _ (compIfBody) _ _; unfold compIfBody ; t_simp; t_auto
theorem t_yieldExpr [Uni] (src) : TOk src (.yieldExpr) := by
  intro st hst; show TWP _ _ (yieldExprBody) _ _; unfold yieldExprBody ; t_simp; t_auto
theorem t_testlistStarExpr [Uni] (src) : TOk src (.testlistStarExpr) := by
  intro st hst; show TWP _ _ (testlistStarExprBody) _ _; unfold testlistStarExprBody ; t_simp; t_auto
theorem t_testlistStarExprLoop [Uni] (src) (s n p) : TOk src (.testlistStarExprLoop s n p) := by
  intro st hst; show TWP _ _ (testlistStarExprLoopBody s n p) _ _; unfold testlistStarExprLoopBody testlistStarExprResult; t_simp; t_auto
theorem t_varArgsList [Uni] (src) : TOk src (.varArgsList) := by
  intro st hst; show TWP _ _ (varArgsListBody) _ _; unfold varArgsListBody varArgsMul varArgsPower varArgsResult; t_simp; t_auto
theorem t_varArgsMainLoop [Uni] (src) (s v) : TOk src (.varArgsMainLoop s v) := by
  intro st hst; show TWP _ _ (varArgsMainLoopBody s v) _ _; unfold varArgsMainLoopBody varArgsMul varArgsPower varArgsResult; t_simp; t_auto
theorem t_varArgsStarLoop [Uni] (src) (s v) : TOk src (.varArgsStarLoop s v) := by
  intro st hst; show TWP _ _ (varArgsStarLoopBody s v) _ _; unfold varArgsStarLoopBody varArgsPower varArgsResult; t_simp; t_auto
theorem t_varArgsDivLoop [Uni] (src) (s v) : TOk src (.varArgsDivLoop s v) := by
  intro st hst; show TWP _ _ (varArgsDivLoopBody s v) _ _; unfold varArgsDivLoopBody varArgsMul varArgsPower varArgsResult; t_simp; t_auto
theorem t_varArgsAssignments [Uni] (src) : TOk src (.varArgsAssignments) := by
  intro st hst; show TWP _ _ (varArgsAssignmentsBody) _ _; unfold varArgsAssignmentsBody ; t_simp; t_auto
theorem t_vfpDef [Uni] (src) : TOk src (.vfpDef) := by
  intro st hst; show TWP _ _ (vfpDefBody) _ _; unfold vfpDefBody ; t_simp; t_auto
theorem t_stmt [Uni] (src) : TOk src (.stmt) := by
  intro st hst; show TWP _ _ (stmtBody) _ _; unfold stmtBody ; t_simp; t_auto
theorem t_simpleStmt [Uni] (src) : TOk src (.simpleStmt) := by
  intro st hst; show TWP _ _ (simpleStmtBody) _ _; unfold simpleStmtBody ; t_simp; t_auto
theorem t_simpleStmtLoop [Uni] (src) (s n p) : TOk src (.simpleStmtLoop s n p) := by
  intro st hst; show TWP _ _ (simpleStmtLoopBody s n p) _ _; unfold simpleStmtLoopBody simpleStmtLoopBody.fin; t_simp; t_auto
theorem t_smallStmt [Uni] (src) : TOk src (.smallStmt) := by
  intro st hst; show TWP _ _ (smallStmtBody) _ _; unfold smallStmtBody ; t_simp; t_auto
theorem t_exprStmt [Uni] (src) : TOk src (.exprStmt) := by
  intro st hst; show TWP _ _ (exprStmtBody) _ _; unfold exprStmtBody yieldOrTestlist; t_simp; t_auto
theorem t_assignLoop [Uni] (src) (s l n) : TOk src (.assignLoop s l n) := by
  intro st hst; show TWP _ _ (assignLoopBody s l n) _ _; unfold assignLoopBody yieldOrTestlist; t_simp; t_auto
theorem t_annAssign [Uni] (src) (s l) : TOk src (.annAssign s l) := by
  intro st hst; show TWP _ _ (annAssignBody s l) _ _; unfold annAssignBody yieldOrTestlist; t_simp; t_auto
theorem t_delStmt [Uni] (src) : TOk src (.delStmt) := by
  intro st hst; show TWP _ _ (delStmtBody) _ _; unfold delStmtBody ; t_simp; t_auto
theorem t_passStmt [Uni] (src) : TOk src (.passStmt) := by
  intro st hst; show TWP _ _ (passStmtBody) _ _; unfold passStmtBody ; t_simp; t_auto
theorem t_flowStmt [Uni] (src) : TOk src (.flowStmt) := by
  intro st hst; show TWP _ _ (flowStmtBody) _ _; unfold flowStmtBody ; t_simp; t_auto
theorem t_breakStmt [Uni] (src) : TOk src (.breakStmt) := by
  intro st hst; show TWP _ _ (breakStmtBody) _ _; unfold breakStmtBody ; t_simp; t_auto
theorem t_continueStmt [Uni] (src) : TOk src (.continueStmt) := by
  intro st hst; show TWP _ _ (continueStmtBody) _ _; unfold continueStmtBody ; t_simp; t_auto
theorem t_returnStmt [Uni] (src) : TOk src (.returnStmt) := by
  intro st hst; show TWP _ _ (returnStmtBody) _ _; unfold returnStmtBody ; t_simp; t_auto
theorem t_yieldStmt [Uni] (src) : TOk src (.yieldStmt) := by
  intro st hst; show TWP _ _ (yieldStmtBody) _ _; unfold yieldStmtBody ; t_simp; t_auto
theorem t_raiseStmt [Uni] (src) : TOk src (.raiseStmt) := by
  intro st hst; show TWP _ _ (raiseStmtBody) _ _; unfold raiseStmtBody ; t_simp; t_auto
theorem t_importStmt [Uni] (src) : TOk src (.importStmt) := by
  intro st hst; show TWP _ _ (importStmtBody) _ _; unfold importStmtBody ; t_simp; t_auto
theorem t_importName [Uni] (src) : TOk src (.importName) := by
  intro st hst; show TWP _ _ (importNameBody) _ _; unfold importNameBody ; t_simp; t_auto
theorem t_importFrom [Uni] (src) : TOk src (.importFrom) := by
  intro st hst; show TWP _ _ (importFromBody) _ _; unfold importFromBody ; t_simp; t_auto
theorem t_importDotLoop [Uni] (src) (s t d) : TOk src (.importDotLoop s t d) := by
  intro st hst; show TWP _ _ (importDotLoopBody s t d) _ _; unfold importDotLoopBody importFromRest; t_simp; t_auto
theorem t_importAsName [Uni] (src) : TOk src (.importAsName) := by
  intro st hst; show TWP _ _ (importAsNameBody) _ _; unfold importAsNameBody ; t_simp; t_auto
theorem t_dottedAsName [Uni] (src) : TOk src (.dottedAsName) := by
  intro st hst; show TWP _ _ (dottedAsNameBody) _ _; unfold dottedAsNameBody ; t_simp; t_auto
theorem t_importAsNames [Uni] (src) : TOk src (.importAsNames) := by
  intro st hst; show TWP _ _ (importAsNamesBody) _ _; unfold importAsNamesBody ; t_simp; t_auto
theorem t_importAsNamesLoop [Uni] (src) (s n p) : TOk src (.importAsNamesLoop s n p) := by
  intro st hst; show TWP _ _ (importAsNamesLoopBody s n p) _ _; unfold importAsNamesLoopBody ; t_simp; t_auto
theorem t_dottedAsNames [Uni] (src) : TOk src (.dottedAsNames) := by
  intro st hst; show TWP _ _ (dottedAsNamesBody) _ _; unfold dottedAsNamesBody ; t_simp; t_auto
theorem t_dottedAsNamesLoop [Uni] (src) (s n p) : TOk src (.dottedAsNamesLoop s n p) := by
  intro st hst; show TWP _ _ (dottedAsNamesLoopBody s n p) _ _; unfold dottedAsNamesLoopBody ; t_simp; t_auto
theorem t_dottedName [Uni] (src) : TOk src (.dottedName) := by
  intro st hst; show TWP _ _ (dottedNameBody) _ _; unfold dottedNameBody ; t_simp; t_auto
theorem t_dottedNameLoop [Uni] (src) (s n p) : TOk src (.dottedNameLoop s n p) := by
  intro st hst; show TWP _ _ (dottedNameLoopBody s n p) _ _; unfold dottedNameLoopBody ; t_simp; t_auto
theorem t_globalStmt [Uni] (src) : TOk src (.globalStmt) := by
  intro st hst; show TWP _ _ (globalStmtBody) _ _; unfold globalStmtBody ; t_simp; t_auto
theorem t_globalLoop [Uni] (src) (s t n p) : TOk src (.globalLoop s t n p) := by
  intro st hst; show TWP _ _ (globalLoopBody s t n p) _ _; unfold globalLoopBody ; t_simp; t_auto
theorem t_nonlocalStmt [Uni] (src) : TOk src (.nonlocalStmt) := by
  intro st hst; show TWP _ _ (nonlocalStmtBody) _ _; unfold nonlocalStmtBody ; t_simp; t_auto
theorem t_nonlocalLoop [Uni] (src) (s t n p) : TOk src (.nonlocalLoop s t n p) := by
  intro st hst; show TWP _ _ (nonlocalLoopBody s t n p) _ _; unfold nonlocalLoopBody ; t_simp; t_auto
theorem t_assertStmt [Uni] (src) : TOk src (.assertStmt) := by
  intro st hst; show TWP _ _ (assertStmtBody) _ _; unfold assertStmtBody ; t_simp; t_auto
theorem t_compoundStmt [Uni] (src) : TOk src (.compoundStmt) := by
  intro st hst; show TWP _ _ (compoundStmtBody) _ _; unfold compoundStmtBody ; t_simp; t_auto
theorem t_asyncStmt [Uni] (src) : TOk src (.asyncStmt) := by
  intro st hst; show TWP _ _ (asyncStmtBody) _ _; unfold asyncStmtBody ; t_simp; t_auto
theorem t_ifStmt [Uni] (src) : TOk src (.ifStmt) := by
  intro st hst; show TWP _ _ (ifStmtBody) _ _; unfold ifStmtBody ; t_simp; t_auto
theorem t_ifLoop [Uni] (src) (s t l t2 r n) : TOk src (.ifLoop s t l t2 r n) := by
  intro st hst; show TWP _ _ (ifLoopBody s t l t2 r n) _ _; unfold ifLoopBody ; t_simp; t_auto
theorem t_elifStmt [Uni] (src) : TOk src (.elifStmt) := by
  intro st hst; show TWP _ _ (elifStmtBody) _ _; unfold elifStmtBody ; t_simp; t_auto
theorem t_elseStmt [Uni] (src) : TOk src (.elseStmt) := by
  intro st hst; show TWP _ _ (elseStmtBody) _ _; unfold elseStmtBody ; t_simp; t_auto
theorem t_whileStmt [Uni] (src) : TOk src (.whileStmt) := by
  intro st hst; show TWP _ _ (whileStmtBody) _ _; unfold whileStmtBody ; t_simp; t_auto
theorem t_forStmt [Uni] (src) : TOk src (.forStmt) := by
  intro st hst; show TWP _ _ (forStmtBody) _ _; unfold forStmtBody ; t_simp; t_auto
theorem t_tryStmt [Uni] (src) : TOk src (.tryStmt) := by
  intro st hst; show TWP _ _ (tryStmtBody) _ _; unfold tryStmtBody ; t_simp; t_auto
theorem t_tryLoop [Uni] (src) (s t t2 l n) : TOk src (.tryLoop s t t2 l n) := by
  intro st hst; show TWP _ _ (tryLoopBody s t t2 l n) _ _; unfold tryLoopBody ; t_simp; t_auto
theorem t_finallyStmt [Uni] (src) : TOk src (.finallyStmt) := by
  intro st hst; show TWP _ _ (finallyStmtBody) _ _; unfold finallyStmtBody ; t_simp; t_auto
theorem t_withStmt [Uni] (src) : TOk src (.withStmt) := by
  intro st hst; show TWP _ _ (withStmtBody) _ _; unfold withStmtBody ; t_simp; t_auto
theorem t_withParenLoop [Uni] (src) (s t l n p) : TOk src (.withParenLoop s t l n p) := by
  intro st hst; show TWP _ _ (withParenLoopBody s t l n p) _ _; unfold withParenLoopBody withParenEnd withRest; t_simp; t_auto
theorem t_withLoop [Uni] (src) (s t n p) : TOk src (.withLoop s t n p) := by
  intro st hst; show TWP _ _ (withLoopBody s t n p) _ _; unfold withLoopBody withRest; t_simp; t_auto
theorem t_withItem [Uni] (src) : TOk src (.withItem) := by
  intro st hst; show TWP _ _ (withItemBody) _ _; unfold withItemBody ; t_simp; t_auto
theorem t_exceptStmt [Uni] (src) : TOk src (.exceptStmt) := by
  intro st hst; show TWP _ _ (exceptStmtBody) _ _; unfold exceptStmtBody ; t_simp; t_auto
theorem t_exceptClause [Uni] (src) : TOk src (.exceptClause) := by
  intro st hst; show TWP _ _ (exceptClauseBody) _ _; unfold exceptClauseBody exceptStar; t_simp; t_auto
theorem t_suite [Uni] (src) : TOk src (.suite) := by
  intro st hst; show TWP _ _ (suiteBody) _ _; unfold suiteBody ; t_simp; t_auto
theorem t_suiteLoop [Uni] (src) (s t t2 n) : TOk src (.suiteLoop s t t2 n) := by
  intro st hst; show TWP _ _ (suiteLoopBody s t t2 n) _ _; unfold suiteLoopBody ; t_simp; t_auto
theorem t_evalLoop [Uni] (src) (s r p) : TOk src (.evalLoop s r p) := by
  intro st hst; show TWP _ _ (evalLoopBody s r p) _ _; unfold evalLoopBody ; t_simp; t_auto
theorem t_fileLoop [Uni] (src) (s n p) : TOk src (.fileLoop s n p) := by
  intro st hst; show TWP _ _ (fileLoopBody s n p) _ _; unfold fileLoopBody ; t_simp; t_auto
theorem t_funcTypeLoop [Uni] (src) (s r p) : TOk src (.funcTypeLoop s r p) := by
  intro st hst; show TWP _ _ (funcTypeLoopBody s r p) _ _; unfold funcTypeLoopBody ; t_simp; t_auto
theorem t_decorator [Uni] (src) : TOk src (.decorator) := by
  intro st hst; show TWP _ _ (decoratorBody) _ _; unfold decoratorBody decoratorEnd; t_simp; t_auto
theorem t_decorators [Uni] (src) : TOk src (.decorators) := by
  intro st hst; show TWP _ _ (decoratorsBody) _ _; unfold decoratorsBody ; t_simp; t_auto
theorem t_decoratorsLoop [Uni] (src) (s n) : TOk src (.decoratorsLoop s n) := by
  intro st hst; show TWP _ _ (decoratorsLoopBody s n) _ _; unfold decoratorsLoopBody ; t_simp; t_auto
theorem t_decorated [Uni] (src) : TOk src (.decorated) := by
  intro st hst; show TWP _ _ (decoratedBody) _ _; unfold decoratedBody ; t_simp; t_auto
theorem t_asyncFuncDef [Uni] (src) : TOk src (.asyncFuncDef) := by
  intro st hst; show TWP _ _ (asyncFuncDefBody) _ _; unfold asyncFuncDefBody ; t_simp; t_auto
theorem t_funcDef [Uni] (src) : TOk src (.funcDef) := by
  intro st hst; show TWP _ _ (funcDefBody) _ _; unfold funcDefBody ; t_simp; t_auto
theorem t_parameters [Uni] (src) : TOk src (.parameters) := by
  intro st hst; show TWP _ _ (parametersBody) _ _; unfold parametersBody ; t_simp; t_auto
theorem t_typedArgsList [Uni] (src) : TOk src (.typedArgsList) := by
  intro st hst; show TWP _ _ (typedArgsListBody) _ _; unfold typedArgsListBody ; t_simp; t_auto
theorem t_tfpDefAssign [Uni] (src) : TOk src (.tfpDefAssign) := by
  intro st hst; show TWP _ _ (tfpDefAssignBody) _ _; unfold tfpDefAssignBody ; t_simp; t_auto
theorem t_tfpDef [Uni] (src) : TOk src (.tfpDef) := by
  intro st hst; show TWP _ _ (tfpDefBody) _ _; unfold tfpDefBody ; t_simp; t_auto
theorem t_funcBodySuite [Uni] (src) : TOk src (.funcBodySuite) := by
  intro st hst; show TWP _ _ (funcBodySuiteBody) _ _; unfold funcBodySuiteBody funcBodyIndent; t_simp; t_auto
theorem t_funcBodyLoop [Uni] (src) (s t tc tn t4 n) : TOk src (.funcBodyLoop s t tc tn t4 n) := by
  intro st hst; show TWP _ _ (funcBodyLoopBody s t tc tn t4 n) _ _; unfold funcBodyLoopBody ; t_simp; t_auto
theorem t_classDef [Uni] (src) : TOk src (.classDef) := by
  intro st hst; show TWP _ _ (classDefBody) _ _; unfold classDefBody classRest; t_simp; t_auto
theorem t_funcType [Uni] (src) : TOk src (.funcType) := by
  intro st hst; show TWP _ _ (funcTypeBody) _ _; unfold funcTypeBody ; t_simp; t_auto
theorem t_typeList [Uni] (src) : TOk src (.typeList) := by
  intro st hst; show TWP _ _ (typeListBody) _ _; unfold typeListBody typeListMul typeListPower typeListResult; t_simp; t_auto
theorem t_typeListMainLoop [Uni] (src) (s v) : TOk src (.typeListMainLoop s v) := by
  intro st hst; show TWP _ _ (typeListMainLoopBody s v) _ _; unfold typeListMainLoopBody typeListMul typeListPower typeListResult; t_simp; t_auto
theorem t_typeListStarLoop [Uni] (src) (s v) : TOk src (.typeListStarLoop s v) := by
  intro st hst; show TWP _ _ (typeListStarLoopBody s v) _ _; unfold typeListStarLoopBody typeListPower typeListResult; t_simp; t_auto
theorem t_patternsMatch [Uni] (src) : TOk src (.patternsMatch) := by
  intro st hst; show TWP _ _ (patternsMatchBody) _ _; rw [patternsMatchBody, twp_panic]; trivial

theorem t_all [Uni] (src) (f : Fn) (hf : f.input = false) : TOk src f := by
  cases f with
  | atom => exact t_atom src
  | atomStrLoop s l => exact t_atomStrLoop src s l
  | atomExpr => exact t_atomExpr src
  | trailerLoop s a r l => exact t_trailerLoop src s a r l
  | power => exact t_power src
  | factor => exact t_factor src
  | term => exact t_term src
  | termLoop s l => exact t_termLoop src s l
  | arith => exact t_arith src
  | arithLoop s l => exact t_arithLoop src s l
  | shift => exact t_shift src
  | shiftLoop s l => exact t_shiftLoop src s l
  | andExpr => exact t_andExpr src
  | andExprLoop s l => exact t_andExprLoop src s l
  | xorExpr => exact t_xorExpr src
  | xorExprLoop s l => exact t_xorExprLoop src s l
  | expr => exact t_expr src
  | exprLoop s l => exact t_exprLoop src s l
  | starExpr => exact t_starExpr src
  | comparison => exact t_comparison src
  | comparisonLoop s l => exact t_comparisonLoop src s l
  | notTest => exact t_notTest src
  | andTest => exact t_andTest src
  | andTestLoop s l => exact t_andTestLoop src s l
  | orTest => exact t_orTest src
  | orTestLoop s l => exact t_orTestLoop src s l
  | lambdaDef c => exact t_lambdaDef src c
  | noCondTest => exact t_noCondTest src
  | test => exact t_test src
  | namedExpression => exact t_namedExpression src
  | testlistComp => exact t_testlistComp src
  | testlistCompLoop s n p => exact t_testlistCompLoop src s n p
  | trailer => exact t_trailer src
  | subscriptList => exact t_subscriptList src
  | subscriptListLoop s n p => exact t_subscriptListLoop src s n p
  | subscript => exact t_subscript src
  | exprlist => exact t_exprlist src
  | exprlistLoop s n p => exact t_exprlistLoop src s n p
  | testlist => exact t_testlist src
  | testlistLoop s n p => exact t_testlistLoop src s n p
  | dictorsetMaker => exact t_dictorsetMaker src
  | setLoop s n p => exact t_setLoop src s n p
  | arglist => exact t_arglist src
  | arglistLoop s n p => exact t_arglistLoop src s n p
  | argument => exact t_argument src
  | compIter => exact t_compIter src
  | syncCompFor => exact t_syncCompFor src
  | compFor => exact t_compFor src
  | compIf => exact t_compIf src
  | yieldExpr => exact t_yieldExpr src
  | testlistStarExpr => exact t_testlistStarExpr src
  | testlistStarExprLoop s n p => exact t_testlistStarExprLoop src s n p
  | varArgsList => exact t_varArgsList src
  | varArgsMainLoop s v => exact t_varArgsMainLoop src s v
  | varArgsStarLoop s v => exact t_varArgsStarLoop src s v
  | varArgsDivLoop s v => exact t_varArgsDivLoop src s v
  | varArgsAssignments => exact t_varArgsAssignments src
  | vfpDef => exact t_vfpDef src
  | stmt => exact t_stmt src
  | simpleStmt => exact t_simpleStmt src
  | simpleStmtLoop s n p => exact t_simpleStmtLoop src s n p
  | smallStmt => exact t_smallStmt src
  | exprStmt => exact t_exprStmt src
  | assignLoop s l n => exact t_assignLoop src s l n
  | annAssign s l => exact t_annAssign src s l
  | delStmt => exact t_delStmt src
  | passStmt => exact t_passStmt src
  | flowStmt => exact t_flowStmt src
  | breakStmt => exact t_breakStmt src
  | continueStmt => exact t_continueStmt src
  | returnStmt => exact t_returnStmt src
  | yieldStmt => exact t_yieldStmt src
  | raiseStmt => exact t_raiseStmt src
  | importStmt => exact t_importStmt src
  | importName => exact t_importName src
  | importFrom => exact t_importFrom src
  | importDotLoop s t d => exact t_importDotLoop src s t d
  | importAsName => exact t_importAsName src
  | dottedAsName => exact t_dottedAsName src
  | importAsNames => exact t_importAsNames src
  | importAsNamesLoop s n p => exact t_importAsNamesLoop src s n p
  | dottedAsNames => exact t_dottedAsNames src
  | dottedAsNamesLoop s n p => exact t_dottedAsNamesLoop src s n p
  | dottedName => exact t_dottedName src
  | dottedNameLoop s n p => exact t_dottedNameLoop src s n p
  | globalStmt => exact t_globalStmt src
  | globalLoop s t n p => exact t_globalLoop src s t n p
  | nonlocalStmt => exact t_nonlocalStmt src
  | nonlocalLoop s t n p => exact t_nonlocalLoop src s t n p
  | assertStmt => exact t_assertStmt src
  | compoundStmt => exact t_compoundStmt src
  | asyncStmt => exact t_asyncStmt src
  | ifStmt => exact t_ifStmt src
  | ifLoop s t l t2 r n => exact t_ifLoop src s t l t2 r n
  | elifStmt => exact t_elifStmt src
  | elseStmt => exact t_elseStmt src
  | whileStmt => exact t_whileStmt src
  | forStmt => exact t_forStmt src
  | tryStmt => exact t_tryStmt src
  | tryLoop s t t2 l n => exact t_tryLoop src s t t2 l n
  | finallyStmt => exact t_finallyStmt src
  | withStmt => exact t_withStmt src
  | withParenLoop s t l n p => exact t_withParenLoop src s t l n p
  | withLoop s t n p => exact t_withLoop src s t n p
  | withItem => exact t_withItem src
  | exceptStmt => exact t_exceptStmt src
  | exceptClause => exact t_exceptClause src
  | suite => exact t_suite src
  | suiteLoop s t t2 n => exact t_suiteLoop src s t t2 n
  | evalInput => simp [Fn.input] at hf
  | evalLoop s r p => exact t_evalLoop src s r p
  | fileInput => simp [Fn.input] at hf
  | fileLoop s n p => exact t_fileLoop src s n p
  | singleInput => simp [Fn.input] at hf
  | funcTypeInput => simp [Fn.input] at hf
  | funcTypeLoop s r p => exact t_funcTypeLoop src s r p
  | decorator => exact t_decorator src
  | decorators => exact t_decorators src
  | decoratorsLoop s n => exact t_decoratorsLoop src s n
  | decorated => exact t_decorated src
  | asyncFuncDef => exact t_asyncFuncDef src
  | funcDef => exact t_funcDef src
  | parameters => exact t_parameters src
  | typedArgsList => exact t_typedArgsList src
  | tfpDefAssign => exact t_tfpDefAssign src
  | tfpDef => exact t_tfpDef src
  | funcBodySuite => exact t_funcBodySuite src
  | funcBodyLoop s t tc tn t4 n => exact t_funcBodyLoop src s t tc tn t4 n
  | classDef => exact t_classDef src
  | funcType => exact t_funcType src
  | typeList => exact t_typeList src
  | typeListMainLoop s v => exact t_typeListMainLoop src s v
  | typeListStarLoop s v => exact t_typeListStarLoop src s v
  | patternsMatch => exact t_patternsMatch src

end Verif
