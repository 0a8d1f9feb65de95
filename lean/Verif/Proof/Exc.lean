import Verif.Proof.Wp
import Verif.Spec.Try

/-!
# The `except` status changes only in `try` statements
-/

namespace Verif
open Prog
set_option linter.unusedVariables false
set_option linter.unusedSimpArgs false

section
variable [Uni]

theorem exc_advance (c : PSt) : c.advance.exc = c.exc := by
  unfold PSt.advance; split <;> rfl

omit [Uni] in
theorem anyTry_append (a b : List Tree) : anyTry (a ++ b) = (anyTry a || anyTry b) := by
  induction a <;> simp_all [anyTry, Bool.or_assoc]
omit [Uni] in
theorem anyTry_reverse (a : List Tree) : anyTry a.reverse = anyTry a := by
  induction a <;> simp_all [anyTry, anyTry_append, Bool.or_comm]
omit [Uni] in
theorem hasTry_toks (l : List Token) : (Tree.toks l).hasTry = false := by
  simp only [Tree.toks, Tree.hasTry]
  induction l <;> simp_all [anyTry, Tree.hasTry]
omit [Uni] in
theorem anyTry_false {l : List Tree} : anyTry l = false ↔ ∀ x ∈ l, x.hasTry = false := by
  induction l <;> simp_all [anyTry]

/-- The status that goes with a clause. -/
def kindOf (b : Bool) : ExcStatus := if b then .exceptMul else .except

/-- Given the status before them, the clauses are of one kind. -/
def Uniform (x : ExcStatus) (l : List Tree) : Prop :=
  match x with
  | .exceptNone => (∀ h ∈ l, h.starred = true) ∨ ∀ h ∈ l, h.starred = false
  | .except => ∀ h ∈ l, h.starred = false
  | .exceptMul => ∀ h ∈ l, h.starred = true

/-- What is proved of each parse function.  Expressions and simple statements never change the status,
the others do only if there is a `try` statement in the result. -/
def ΦE : Fn → PSt → Tree → PSt → Prop
  | .stmt, c, y, c' | .compoundStmt, c, y, c' | .asyncStmt, c, y, c' | .ifStmt, c, y, c' | .elifStmt, c, y, c'
  | .elseStmt, c, y, c' | .whileStmt, c, y, c' | .forStmt, c, y, c' | .finallyStmt, c, y, c' | .withStmt, c, y, c'
  | .suite, c, y, c' | .fileInput, c, y, c' | .singleInput, c, y, c' | .decorated, c, y, c' | .asyncFuncDef, c, y, c'
  | .funcDef, c, y, c' | .funcBodySuite, c, y, c' | .classDef, c, y, c' => y.hasTry = false → c'.exc = c.exc
  | .ifLoop _ _ l _ r ns, c, y, c' => y.hasTry = false → l.hasTry = false ∧ r.hasTry = false ∧ anyTry ns = false ∧ c'.exc = c.exc
  | .withParenLoop _ _ _ ns _, c, y, c' | .withLoop _ _ ns _, c, y, c' | .suiteLoop _ _ _ ns, c, y, c'
  | .funcBodyLoop _ _ _ _ _ ns, c, y, c' | .fileLoop _ ns _, c, y, c' =>
    y.hasTry = false → anyTry ns = false ∧ c'.exc = c.exc
  | .tryLoop s t t2 l ns, c, y, c' => ∃ e els fin more,
    y = .node .TryStmt s e [.tok t, .tok t2, l, .seq (ns ++ more).reverse, els, fin] ∧
    ((∀ h ∈ more.dropLast, h.hasTry = false) → Uniform c.exc more)
  | .tryStmt, c, y, c' => y.hasTry = true ∧ ∃ s e t t2 l els fin, (y = .node .TryStmt s e [t, t2, l, .none, els, fin]) ∨
    ∃ more, y = .node .TryStmt s e [t, t2, l, .seq more.reverse, els, fin] ∧
    ((∀ h ∈ more.dropLast, h.hasTry = false) → Uniform .exceptNone more)
  | .exceptStmt, c, y, c' => (c.exc = .exceptNone ∨ c.exc = kindOf y.starred) ∧
    (y.hasTry = false → c'.exc = kindOf y.starred)
  | .exceptClause, c, y, c' => ∃ s e t m x, y = .node .ExceptClauseStmt s e [t, m, x] ∧
    ((m = .none ∧ (c.exc = .exceptNone ∨ c.exc = .except) ∧ c'.exc = .except) ∨
     (∃ u, m = .tok u ∧ u.kind = .PyMul ∧ (c.exc = .exceptNone ∨ c.exc = .exceptMul) ∧ c'.exc = .exceptMul))
  | .patternsMatch, _, _, _ => False
  | _, c, _, c' => c'.exc = c.exc

/-- The body of `f` keeps the invariant. -/
def XOk (f : Fn) : Prop := ∀ c, WP ΦE (body f) c (ΦE f c)

macro "x_simp" : tactic => `(tactic| simp only [wp_bind, wp_pure, wp_ret, wp_fail, wp_panic, wp_failHere, wp_here, wp_next,
  wp_parse, wp_symAt, wp_symHere, wp_sym?, wp_mk, wp_getExc, wp_setExc, wp_ite, ΦE, exc_advance, implies_true, and_true, true_and, and_self])

macro "x_step" : tactic => `(tactic| first
  | trivial
  | intro _
  | constructor
  | (simp_all only [exc_advance, Tree.hasTry, anyTry, anyTry_append, anyTry_reverse, hasTry_toks, Bool.or_eq_false_iff, Bool.or_false,
      and_true, true_and, and_self, reduceCtorEq, implies_true, forall_const, false_implies]; done)
  | (split <;> try x_simp))

macro "x_auto" : tactic => `(tactic| ((try x_simp); repeat' x_step))

theorem x_atom : XOk (.atom) := by
  intro st; show WP _ (atomBody) _ _; unfold atomBody ; x_auto
theorem x_atomStrLoop (s l) : XOk (.atomStrLoop s l) := by
  intro st; show WP _ (atomStrLoopBody s l) _ _; unfold atomStrLoopBody ; x_auto
theorem x_atomExpr : XOk (.atomExpr) := by
  intro st; show WP _ (atomExprBody) _ _; unfold atomExprBody ; x_auto
theorem x_trailerLoop (s a r l) : XOk (.trailerLoop s a r l) := by
  intro st; show WP _ (trailerLoopBody s a r l) _ _; unfold trailerLoopBody trailerLoopBody.fin; x_auto
theorem x_power : XOk (.power) := by
  intro st; show WP _ (powerBody) _ _; unfold powerBody ; x_auto
theorem x_factor : XOk (.factor) := by
  intro st; show WP _ (factorBody) _ _; unfold factorBody ; x_auto
theorem x_term : XOk (.term) := by
  intro st; show WP _ (termBody) _ _; unfold termBody ; x_auto
theorem x_termLoop (s l) : XOk (.termLoop s l) := by
  intro st; show WP _ (termLoopBody s l) _ _; unfold termLoopBody leftLoopBody; x_auto
theorem x_arith : XOk (.arith) := by
  intro st; show WP _ (arithBody) _ _; unfold arithBody ; x_auto
theorem x_arithLoop (s l) : XOk (.arithLoop s l) := by
  intro st; show WP _ (arithLoopBody s l) _ _; unfold arithLoopBody leftLoopBody; x_auto
theorem x_shift : XOk (.shift) := by
  intro st; show WP _ (shiftBody) _ _; unfold shiftBody ; x_auto
theorem x_shiftLoop (s l) : XOk (.shiftLoop s l) := by
  intro st; show WP _ (shiftLoopBody s l) _ _; unfold shiftLoopBody leftLoopBody; x_auto
theorem x_andExpr : XOk (.andExpr) := by
  intro st; show WP _ (andExprBody) _ _; unfold andExprBody ; x_auto
theorem x_andExprLoop (s l) : XOk (.andExprLoop s l) := by
  intro st; show WP _ (andExprLoopBody s l) _ _; unfold andExprLoopBody leftLoopBody; x_auto
theorem x_xorExpr : XOk (.xorExpr) := by
  intro st; show WP _ (xorExprBody) _ _; unfold xorExprBody ; x_auto
theorem x_xorExprLoop (s l) : XOk (.xorExprLoop s l) := by
  intro st; show WP _ (xorExprLoopBody s l) _ _; unfold xorExprLoopBody leftLoopBody; x_auto
theorem x_expr : XOk (.expr) := by
  intro st; show WP _ (exprBody) _ _; unfold exprBody ; x_auto
theorem x_exprLoop (s l) : XOk (.exprLoop s l) := by
  intro st; show WP _ (exprLoopBody s l) _ _; unfold exprLoopBody leftLoopBody; x_auto
theorem x_starExpr : XOk (.starExpr) := by
  intro st; show WP _ (starExprBody) _ _; unfold starExprBody ; x_auto
theorem x_comparison : XOk (.comparison) := by
  intro st; show WP _ (comparisonBody) _ _; unfold comparisonBody ; x_auto
theorem x_comparisonLoop (s l) : XOk (.comparisonLoop s l) := by
  intro st; show WP _ (comparisonLoopBody s l) _ _; unfold comparisonLoopBody ; x_auto
theorem x_notTest : XOk (.notTest) := by
  intro st; show WP _ (notTestBody) _ _; unfold notTestBody ; x_auto
theorem x_andTest : XOk (.andTest) := by
  intro st; show WP _ (andTestBody) _ _; unfold andTestBody ; x_auto
theorem x_andTestLoop (s l) : XOk (.andTestLoop s l) := by
  intro st; show WP _ (andTestLoopBody s l) _ _; unfold andTestLoopBody leftLoopBody; x_auto
theorem x_orTest : XOk (.orTest) := by
  intro st; show WP _ (orTestBody) _ _; unfold orTestBody ; x_auto
theorem x_orTestLoop (s l) : XOk (.orTestLoop s l) := by
  intro st; show WP _ (orTestLoopBody s l) _ _; unfold orTestLoopBody leftLoopBody; x_auto
theorem x_lambdaDef (b) : XOk (.lambdaDef b) := by
  intro st; show WP _ (lambdaDefBody b) _ _; unfold lambdaDefBody; x_auto
theorem x_noCondTest : XOk (.noCondTest) := by
  intro st; show WP _ (noCondTestBody) _ _; unfold noCondTestBody ; x_auto
theorem x_test : XOk (.test) := by
  intro st; show WP _ (testBody) _ _; unfold testBody ; x_auto
theorem x_namedExpression : XOk (.namedExpression) := by
  intro st; show WP _ (namedExpressionBody) _ _; unfold namedExpressionBody ; x_auto
theorem x_testlistComp : XOk (.testlistComp) := by
  intro st; show WP _ (testlistCompBody) _ _; unfold testlistCompBody starOrNamed; x_auto
theorem x_testlistCompLoop (s n p) : XOk (.testlistCompLoop s n p) := by
  intro st; show WP _ (testlistCompLoopBody s n p) _ _; unfold testlistCompLoopBody starOrNamed; x_auto
theorem x_trailer : XOk (.trailer) := by
  intro st; show WP _ (trailerBody) _ _; unfold trailerBody ; x_auto
theorem x_subscriptList : XOk (.subscriptList) := by
  intro st; show WP _ (subscriptListBody) _ _; unfold subscriptListBody ; x_auto
theorem x_subscriptListLoop (s n p) : XOk (.subscriptListLoop s n p) := by
  intro st; show WP _ (subscriptListLoopBody s n p) _ _; unfold subscriptListLoopBody ; x_auto
theorem x_subscript : XOk (.subscript) := by
  intro st; show WP _ (subscriptBody) _ _; unfold subscriptBody ; x_auto
theorem x_exprlist : XOk (.exprlist) := by
  intro st; show WP _ (exprlistBody) _ _; unfold exprlistBody starOrNamed; x_auto
theorem x_exprlistLoop (s n p) : XOk (.exprlistLoop s n p) := by
  intro st; show WP _ (exprlistLoopBody s n p) _ _; unfold exprlistLoopBody listResult; x_auto
theorem x_testlist : XOk (.testlist) := by
  intro st; show WP _ (testlistBody) _ _; unfold testlistBody ; x_auto
theorem x_testlistLoop (s n p) : XOk (.testlistLoop s n p) := by
  intro st; show WP _ (testlistLoopBody s n p) _ _; unfold testlistLoopBody listResult; x_auto
theorem x_dictorsetMaker : XOk (.dictorsetMaker) := by
  intro st; show WP _ (dictorsetMakerBody) _ _; unfold dictorsetMakerBody dictRest dictRest.fin; x_auto
theorem x_setLoop (s n p) : XOk (.setLoop s n p) := by
  intro st; show WP _ (setLoopBody s n p) _ _; unfold setLoopBody ; x_auto
theorem x_arglist : XOk (.arglist) := by
  intro st; show WP _ (arglistBody) _ _; unfold arglistBody ; x_auto
theorem x_arglistLoop (s n p) : XOk (.arglistLoop s n p) := by
  intro st; show WP _ (arglistLoopBody s n p) _ _; unfold arglistLoopBody ; x_auto
theorem x_argument : XOk (.argument) := by
  intro st; show WP _ (argumentBody) _ _; unfold argumentBody ; x_auto
theorem x_compIter : XOk (.compIter) := by
  intro st; show WP _ (compIterBody) _ _; unfold compIterBody ; x_auto
theorem x_syncCompFor : XOk (.syncCompFor) := by
  intro st; show WP _ (syncCompForBody) _ _; unfold syncCompForBody ; x_auto
theorem x_compFor : XOk (.compFor) := by
  intro st; show WP _ (compForBody) _ _; unfold compForBody ; x_auto
theorem x_compIf : XOk (.compIf) := by
  intro st; show WP _ (compIfBody) _ _; unfold compIfBody ; x_auto
theorem x_yieldExpr : XOk (.yieldExpr) := by
  intro st; show WP _ (yieldExprBody) _ _; unfold yieldExprBody ; x_auto
theorem x_testlistStarExpr : XOk (.testlistStarExpr) := by
  intro st; show WP _ (testlistStarExprBody) _ _; unfold testlistStarExprBody ; x_auto
theorem x_testlistStarExprLoop (s n p) : XOk (.testlistStarExprLoop s n p) := by
  intro st; show WP _ (testlistStarExprLoopBody s n p) _ _; unfold testlistStarExprLoopBody testlistStarExprResult; x_auto
theorem x_varArgsList : XOk (.varArgsList) := by
  intro st; show WP _ (varArgsListBody) _ _; unfold varArgsListBody varArgsMul varArgsPower varArgsResult; x_auto
theorem x_varArgsMainLoop (s v) : XOk (.varArgsMainLoop s v) := by
  intro st; show WP _ (varArgsMainLoopBody s v) _ _; unfold varArgsMainLoopBody varArgsMul varArgsPower varArgsResult; x_auto
theorem x_varArgsStarLoop (s v) : XOk (.varArgsStarLoop s v) := by
  intro st; show WP _ (varArgsStarLoopBody s v) _ _; unfold varArgsStarLoopBody varArgsPower varArgsResult; x_auto
theorem x_varArgsDivLoop (s v) : XOk (.varArgsDivLoop s v) := by
  intro st; show WP _ (varArgsDivLoopBody s v) _ _; unfold varArgsDivLoopBody varArgsMul varArgsPower varArgsResult; x_auto
theorem x_varArgsAssignments : XOk (.varArgsAssignments) := by
  intro st; show WP _ (varArgsAssignmentsBody) _ _; unfold varArgsAssignmentsBody ; x_auto
theorem x_vfpDef : XOk (.vfpDef) := by
  intro st; show WP _ (vfpDefBody) _ _; unfold vfpDefBody ; x_auto
theorem x_stmt : XOk (.stmt) := by
  intro st; show WP _ (stmtBody) _ _; unfold stmtBody ; x_auto
theorem x_simpleStmt : XOk (.simpleStmt) := by
  intro st; show WP _ (simpleStmtBody) _ _; unfold simpleStmtBody ; x_auto
theorem x_simpleStmtLoop (s n p) : XOk (.simpleStmtLoop s n p) := by
  intro st; show WP _ (simpleStmtLoopBody s n p) _ _; unfold simpleStmtLoopBody simpleStmtLoopBody.fin; x_auto
theorem x_smallStmt : XOk (.smallStmt) := by
  intro st; show WP _ (smallStmtBody) _ _; unfold smallStmtBody ; x_auto
theorem x_exprStmt : XOk (.exprStmt) := by
  intro st; show WP _ (exprStmtBody) _ _; unfold exprStmtBody yieldOrTestlist; x_auto
theorem x_assignLoop (s l n) : XOk (.assignLoop s l n) := by
  intro st; show WP _ (assignLoopBody s l n) _ _; unfold assignLoopBody yieldOrTestlist; x_auto
theorem x_annAssign (s l) : XOk (.annAssign s l) := by
  intro st; show WP _ (annAssignBody s l) _ _; unfold annAssignBody yieldOrTestlist; x_auto
theorem x_delStmt : XOk (.delStmt) := by
  intro st; show WP _ (delStmtBody) _ _; unfold delStmtBody ; x_auto
theorem x_passStmt : XOk (.passStmt) := by
  intro st; show WP _ (passStmtBody) _ _; unfold passStmtBody ; x_auto
theorem x_flowStmt : XOk (.flowStmt) := by
  intro st; show WP _ (flowStmtBody) _ _; unfold flowStmtBody ; x_auto
theorem x_breakStmt : XOk (.breakStmt) := by
  intro st; show WP _ (breakStmtBody) _ _; unfold breakStmtBody ; x_auto
theorem x_continueStmt : XOk (.continueStmt) := by
  intro st; show WP _ (continueStmtBody) _ _; unfold continueStmtBody ; x_auto
theorem x_returnStmt : XOk (.returnStmt) := by
  intro st; show WP _ (returnStmtBody) _ _; unfold returnStmtBody ; x_auto
theorem x_yieldStmt : XOk (.yieldStmt) := by
  intro st; show WP _ (yieldStmtBody) _ _; unfold yieldStmtBody ; x_auto
theorem x_raiseStmt : XOk (.raiseStmt) := by
  intro st; show WP _ (raiseStmtBody) _ _; unfold raiseStmtBody ; x_auto
theorem x_importStmt : XOk (.importStmt) := by
  intro st; show WP _ (importStmtBody) _ _; unfold importStmtBody ; x_auto
theorem x_importName : XOk (.importName) := by
  intro st; show WP _ (importNameBody) _ _; unfold importNameBody ; x_auto
theorem x_importFrom : XOk (.importFrom) := by
  intro st; show WP _ (importFromBody) _ _; unfold importFromBody ; x_auto
theorem x_importDotLoop (s t d) : XOk (.importDotLoop s t d) := by
  intro st; show WP _ (importDotLoopBody s t d) _ _; unfold importDotLoopBody importFromRest; x_auto
theorem x_importAsName : XOk (.importAsName) := by
  intro st; show WP _ (importAsNameBody) _ _; unfold importAsNameBody ; x_auto
theorem x_dottedAsName : XOk (.dottedAsName) := by
  intro st; show WP _ (dottedAsNameBody) _ _; unfold dottedAsNameBody ; x_auto
theorem x_importAsNames : XOk (.importAsNames) := by
  intro st; show WP _ (importAsNamesBody) _ _; unfold importAsNamesBody ; x_auto
theorem x_importAsNamesLoop (s n p) : XOk (.importAsNamesLoop s n p) := by
  intro st; show WP _ (importAsNamesLoopBody s n p) _ _; unfold importAsNamesLoopBody ; x_auto
theorem x_dottedAsNames : XOk (.dottedAsNames) := by
  intro st; show WP _ (dottedAsNamesBody) _ _; unfold dottedAsNamesBody ; x_auto
theorem x_dottedAsNamesLoop (s n p) : XOk (.dottedAsNamesLoop s n p) := by
  intro st; show WP _ (dottedAsNamesLoopBody s n p) _ _; unfold dottedAsNamesLoopBody ; x_auto
theorem x_dottedName : XOk (.dottedName) := by
  intro st; show WP _ (dottedNameBody) _ _; unfold dottedNameBody ; x_auto
theorem x_dottedNameLoop (s n p) : XOk (.dottedNameLoop s n p) := by
  intro st; show WP _ (dottedNameLoopBody s n p) _ _; unfold dottedNameLoopBody ; x_auto
theorem x_globalStmt : XOk (.globalStmt) := by
  intro st; show WP _ (globalStmtBody) _ _; unfold globalStmtBody ; x_auto
theorem x_globalLoop (s t n p) : XOk (.globalLoop s t n p) := by
  intro st; show WP _ (globalLoopBody s t n p) _ _; unfold globalLoopBody ; x_auto
theorem x_nonlocalStmt : XOk (.nonlocalStmt) := by
  intro st; show WP _ (nonlocalStmtBody) _ _; unfold nonlocalStmtBody ; x_auto
theorem x_nonlocalLoop (s t n p) : XOk (.nonlocalLoop s t n p) := by
  intro st; show WP _ (nonlocalLoopBody s t n p) _ _; unfold nonlocalLoopBody ; x_auto
theorem x_assertStmt : XOk (.assertStmt) := by
  intro st; show WP _ (assertStmtBody) _ _; unfold assertStmtBody ; x_auto
theorem x_compoundStmt : XOk (.compoundStmt) := by
  intro st; show WP _ (compoundStmtBody) _ _; unfold compoundStmtBody ; x_simp
  refine fun t ht => ⟨?_, fun _ => ⟨?_, fun _ => ⟨?_, fun _ => ⟨?_, fun _ => ⟨?_, fun _ => ⟨?_, fun _ => ⟨?_, fun _ => ⟨?_, fun _ => ?_⟩⟩⟩⟩⟩⟩⟩⟩
  all_goals first | exact fun _ _ _ h => h | exact fun _ _ _ h h2 => absurd (h.1.symm.trans h2) (by decide)
theorem x_asyncStmt : XOk (.asyncStmt) := by
  intro st; show WP _ (asyncStmtBody) _ _; unfold asyncStmtBody ; x_auto
theorem x_ifStmt : XOk (.ifStmt) := by
  intro st; show WP _ (ifStmtBody) _ _; unfold ifStmtBody ; x_auto
theorem x_ifLoop (s t l t2 r n) : XOk (.ifLoop s t l t2 r n) := by
  intro st; show WP _ (ifLoopBody s t l t2 r n) _ _; unfold ifLoopBody ; x_auto
theorem x_elifStmt : XOk (.elifStmt) := by
  intro st; show WP _ (elifStmtBody) _ _; unfold elifStmtBody ; x_auto
theorem x_elseStmt : XOk (.elseStmt) := by
  intro st; show WP _ (elseStmtBody) _ _; unfold elseStmtBody ; x_auto
theorem x_whileStmt : XOk (.whileStmt) := by
  intro st; show WP _ (whileStmtBody) _ _; unfold whileStmtBody ; x_auto
theorem x_forStmt : XOk (.forStmt) := by
  intro st; show WP _ (forStmtBody) _ _; unfold forStmtBody ; x_auto
theorem x_finallyStmt : XOk (.finallyStmt) := by
  intro st; show WP _ (finallyStmtBody) _ _; unfold finallyStmtBody ; x_auto
theorem x_withStmt : XOk (.withStmt) := by
  intro st; show WP _ (withStmtBody) _ _; unfold withStmtBody ; x_auto
theorem x_withParenLoop (s t l n p) : XOk (.withParenLoop s t l n p) := by
  intro st; show WP _ (withParenLoopBody s t l n p) _ _; unfold withParenLoopBody withParenEnd withRest; x_auto
theorem x_withLoop (s t n p) : XOk (.withLoop s t n p) := by
  intro st; show WP _ (withLoopBody s t n p) _ _; unfold withLoopBody withRest; x_auto
theorem x_withItem : XOk (.withItem) := by
  intro st; show WP _ (withItemBody) _ _; unfold withItemBody ; x_auto
theorem x_suite : XOk (.suite) := by
  intro st; show WP _ (suiteBody) _ _; unfold suiteBody ; x_auto
theorem x_suiteLoop (s t t2 n) : XOk (.suiteLoop s t t2 n) := by
  intro st; show WP _ (suiteLoopBody s t t2 n) _ _; unfold suiteLoopBody ; x_auto
theorem x_evalLoop (s r p) : XOk (.evalLoop s r p) := by
  intro st; show WP _ (evalLoopBody s r p) _ _; unfold evalLoopBody ; x_auto
theorem x_fileLoop (s n p) : XOk (.fileLoop s n p) := by
  intro st; show WP _ (fileLoopBody s n p) _ _; unfold fileLoopBody ; x_auto
theorem x_funcTypeLoop (s r p) : XOk (.funcTypeLoop s r p) := by
  intro st; show WP _ (funcTypeLoopBody s r p) _ _; unfold funcTypeLoopBody ; x_auto
theorem x_decorator : XOk (.decorator) := by
  intro st; show WP _ (decoratorBody) _ _; unfold decoratorBody decoratorEnd; x_auto
theorem x_decorators : XOk (.decorators) := by
  intro st; show WP _ (decoratorsBody) _ _; unfold decoratorsBody ; x_auto
theorem x_decoratorsLoop (s n) : XOk (.decoratorsLoop s n) := by
  intro st; show WP _ (decoratorsLoopBody s n) _ _; unfold decoratorsLoopBody ; x_auto
theorem x_decorated : XOk (.decorated) := by
  intro st; show WP _ (decoratedBody) _ _; unfold decoratedBody ; x_auto
theorem x_asyncFuncDef : XOk (.asyncFuncDef) := by
  intro st; show WP _ (asyncFuncDefBody) _ _; unfold asyncFuncDefBody ; x_auto
theorem x_funcDef : XOk (.funcDef) := by
  intro st; show WP _ (funcDefBody) _ _; unfold funcDefBody ; x_auto
theorem x_parameters : XOk (.parameters) := by
  intro st; show WP _ (parametersBody) _ _; unfold parametersBody ; x_auto
theorem x_typedArgsList : XOk (.typedArgsList) := by
  intro st; show WP _ (typedArgsListBody) _ _; unfold typedArgsListBody ; x_auto
theorem x_tfpDefAssign : XOk (.tfpDefAssign) := by
  intro st; show WP _ (tfpDefAssignBody) _ _; unfold tfpDefAssignBody ; x_auto
theorem x_tfpDef : XOk (.tfpDef) := by
  intro st; show WP _ (tfpDefBody) _ _; unfold tfpDefBody ; x_auto
theorem x_funcBodySuite : XOk (.funcBodySuite) := by
  intro st; show WP _ (funcBodySuiteBody) _ _; unfold funcBodySuiteBody funcBodyIndent; x_auto
theorem x_funcBodyLoop (s t tc tn t4 n) : XOk (.funcBodyLoop s t tc tn t4 n) := by
  intro st; show WP _ (funcBodyLoopBody s t tc tn t4 n) _ _; unfold funcBodyLoopBody ; x_auto
theorem x_classDef : XOk (.classDef) := by
  intro st; show WP _ (classDefBody) _ _; unfold classDefBody classRest; x_auto
theorem x_funcType : XOk (.funcType) := by
  intro st; show WP _ (funcTypeBody) _ _; unfold funcTypeBody ; x_auto
theorem x_typeList : XOk (.typeList) := by
  intro st; show WP _ (typeListBody) _ _; unfold typeListBody typeListMul typeListPower typeListResult; x_auto
theorem x_typeListMainLoop (s v) : XOk (.typeListMainLoop s v) := by
  intro st; show WP _ (typeListMainLoopBody s v) _ _; unfold typeListMainLoopBody typeListMul typeListPower typeListResult; x_auto
theorem x_typeListStarLoop (s v) : XOk (.typeListStarLoop s v) := by
  intro st; show WP _ (typeListStarLoopBody s v) _ _; unfold typeListStarLoopBody typeListPower typeListResult; x_auto
theorem x_evalInput: XOk (.evalInput) := by
  intro st; show WP _ (evalInputBody) _ _; unfold evalInputBody; x_auto
theorem x_fileInput: XOk (.fileInput) := by
  intro st; show WP _ (fileInputBody) _ _; unfold fileInputBody; x_auto
theorem x_singleInput: XOk (.singleInput) := by
  intro st; show WP _ (singleInputBody) _ _; unfold singleInputBody singleNewline; x_auto
theorem x_funcTypeInput: XOk (.funcTypeInput) := by
  intro st; show WP _ (funcTypeInputBody) _ _; unfold funcTypeInputBody; x_auto

theorem x_exceptClause : XOk .exceptClause := by
  intro st; show WP _ exceptClauseBody _ _
  unfold exceptClauseBody exceptStar
  x_simp
  intro t ht
  refine fun hk t10 h10 => ⟨fun hm => ?_, fun hm => ?_⟩
  · split
    · rename_i hx
      x_simp
      refine fun t2 h2 => ⟨fun _ => ?_, fun _ left c1 h1 t3 h3 => ⟨fun _ t4 h4 _ => ?_, fun _ => ?_⟩⟩ <;>
        first | exact ⟨_, _, _, _, _, rfl, .inr ⟨_, rfl, hm, .inl hx⟩⟩ | (refine ⟨_, _, _, _, _, rfl, .inr ⟨_, rfl, hm, .inl hx, ?_⟩⟩; simp_all [exc_advance]; done)
    · trivial
    · rename_i hx
      x_simp
      refine fun t2 h2 => ⟨fun _ => ?_, fun _ left c1 h1 t3 h3 => ⟨fun _ t4 h4 _ => ?_, fun _ => ?_⟩⟩ <;>
        refine ⟨_, _, _, _, _, rfl, .inr ⟨_, rfl, hm, .inr hx, ?_⟩⟩ <;> simp_all [exc_advance]
  · split
    · rename_i hx
      x_simp
      refine fun t2 h2 => ⟨fun _ => ?_, fun _ left c1 h1 t3 h3 => ⟨fun _ t4 h4 _ => ?_, fun _ => ?_⟩⟩ <;>
        first | exact ⟨_, _, _, _, _, rfl, .inl ⟨rfl, .inl hx⟩⟩ | (refine ⟨_, _, _, _, _, rfl, .inl ⟨rfl, .inl hx, ?_⟩⟩; simp_all [exc_advance]; done)
    · trivial
    · rename_i hx
      x_simp
      refine fun t2 h2 => ⟨fun _ => ?_, fun _ left c1 h1 t3 h3 => ⟨fun _ t4 h4 _ => ?_, fun _ => ?_⟩⟩ <;>
        refine ⟨_, _, _, _, _, rfl, .inl ⟨rfl, .inr hx, ?_⟩⟩ <;> simp_all [exc_advance]

theorem x_exceptStmt : XOk .exceptStmt := by
  intro st; show WP _ exceptStmtBody _ _
  unfold exceptStmtBody
  x_simp
  rintro left c1 ⟨s, e, t, m, x, rfl, h⟩ u hu
  refine fun hk r c2 hr => ?_
  rcases h with ⟨rfl, h1, h2⟩ | ⟨w, rfl, hw, h1, h2⟩
  · refine ⟨by simpa [Tree.starred, kindOf] using h1, fun h => ?_⟩
    simp only [Tree.hasTry, anyTry, Bool.or_eq_false_iff] at h
    rw [hr h.2.2.2.1, h2]; simp [Tree.starred, kindOf]
  · refine ⟨by simpa [Tree.starred, kindOf, hw] using h1, fun h => ?_⟩
    simp only [Tree.hasTry, anyTry, Bool.or_eq_false_iff] at h
    rw [hr h.2.2.2.1, h2]; simp [Tree.starred, kindOf, hw]

omit [Uni] in
theorem uniform_cons {x y : ExcStatus} {h : Tree} {more : List Tree} (h1 : x = .exceptNone ∨ x = kindOf h.starred)
    (h2 : h.hasTry = false → y = kindOf h.starred) (h3 : (∀ a ∈ more.dropLast, a.hasTry = false) → Uniform y more)
    (hc : ∀ a ∈ (h :: more).dropLast, a.hasTry = false) : Uniform x (h :: more) := by
  cases more with
  | nil =>
    rcases h1 with rfl | rfl
    · cases hb : h.starred <;> simp [Uniform, hb]
    · cases hb : h.starred <;> simp [Uniform, kindOf, hb]
  | cons g more =>
    simp only [List.dropLast_cons_cons, List.mem_cons, forall_eq_or_imp] at hc
    have := h3 hc.2
    rw [h2 hc.1] at this
    rcases h1 with rfl | rfl
    · cases hb : h.starred <;> simp_all [Uniform, kindOf]
    · cases hb : h.starred <;> simp_all [Uniform, kindOf]

theorem x_tryLoop (s t t2 l n) : XOk (.tryLoop s t t2 l n) := by
  intro st; show WP _ (tryLoopBody s t t2 l n) _ _
  unfold tryLoopBody
  x_simp
  refine fun t4 h4 => ⟨?_, fun _ t5 h5 => ⟨fun _ els c1 h1 t6 h6 => ⟨fun _ fin c2 h2 => ?_, fun _ => ?_⟩,
    fun _ t6 h6 => ⟨fun _ fin c2 h2 => ?_, fun _ => ?_⟩⟩⟩
  · rintro hk h c1 h1 y c2 ⟨e, els, fin, more, rfl, hu⟩
    exact ⟨e, els, fin, h :: more, by simp, uniform_cons h1.1 h1.2 hu⟩
  all_goals
    refine ⟨_, _, _, [], by rw [List.append_nil], fun _ => ?_⟩
    cases st.exc <;> simp [Uniform]

theorem x_tryStmt : XOk .tryStmt := by
  intro st; show WP _ tryStmtBody _ _
  unfold tryStmtBody
  x_simp
  refine fun t ht hk t2 h2 hk2 left c1 h1 t3 h3 => ⟨fun _ r c2 hr => ?_, fun _ => ?_⟩
  · exact ⟨by simp [Tree.hasTry], _, _, _, _, _, _, _, .inl rfl⟩
  · rintro h c2 hh y c3 ⟨e, els, fin, more, rfl, hu⟩
    refine ⟨by simp [Tree.hasTry], _, _, _, _, _, _, _, .inr ⟨h :: more, by simp only [List.singleton_append]; rfl, fun hc => ?_⟩⟩
    have := uniform_cons hh.1 hh.2 hu hc
    revert this
    cases c1.exc <;> simp [Uniform] <;> intro a b
    · exact .inl ⟨a, b⟩
    · exact .inr ⟨a, b⟩

theorem x_all (f : Fn) : XOk f := by
  cases f with
  | atom => exact x_atom
  | atomStrLoop s l => exact x_atomStrLoop s l
  | atomExpr => exact x_atomExpr
  | trailerLoop s a r l => exact x_trailerLoop s a r l
  | power => exact x_power
  | factor => exact x_factor
  | term => exact x_term
  | termLoop s l => exact x_termLoop s l
  | arith => exact x_arith
  | arithLoop s l => exact x_arithLoop s l
  | shift => exact x_shift
  | shiftLoop s l => exact x_shiftLoop s l
  | andExpr => exact x_andExpr
  | andExprLoop s l => exact x_andExprLoop s l
  | xorExpr => exact x_xorExpr
  | xorExprLoop s l => exact x_xorExprLoop s l
  | expr => exact x_expr
  | exprLoop s l => exact x_exprLoop s l
  | starExpr => exact x_starExpr
  | comparison => exact x_comparison
  | comparisonLoop s l => exact x_comparisonLoop s l
  | notTest => exact x_notTest
  | andTest => exact x_andTest
  | andTestLoop s l => exact x_andTestLoop s l
  | orTest => exact x_orTest
  | orTestLoop s l => exact x_orTestLoop s l
  | lambdaDef b => exact x_lambdaDef b
  | noCondTest => exact x_noCondTest
  | test => exact x_test
  | namedExpression => exact x_namedExpression
  | testlistComp => exact x_testlistComp
  | testlistCompLoop s n p => exact x_testlistCompLoop s n p
  | trailer => exact x_trailer
  | subscriptList => exact x_subscriptList
  | subscriptListLoop s n p => exact x_subscriptListLoop s n p
  | subscript => exact x_subscript
  | exprlist => exact x_exprlist
  | exprlistLoop s n p => exact x_exprlistLoop s n p
  | testlist => exact x_testlist
  | testlistLoop s n p => exact x_testlistLoop s n p
  | dictorsetMaker => exact x_dictorsetMaker
  | setLoop s n p => exact x_setLoop s n p
  | arglist => exact x_arglist
  | arglistLoop s n p => exact x_arglistLoop s n p
  | argument => exact x_argument
  | compIter => exact x_compIter
  | syncCompFor => exact x_syncCompFor
  | compFor => exact x_compFor
  | compIf => exact x_compIf
  | yieldExpr => exact x_yieldExpr
  | testlistStarExpr => exact x_testlistStarExpr
  | testlistStarExprLoop s n p => exact x_testlistStarExprLoop s n p
  | varArgsList => exact x_varArgsList
  | varArgsMainLoop s v => exact x_varArgsMainLoop s v
  | varArgsStarLoop s v => exact x_varArgsStarLoop s v
  | varArgsDivLoop s v => exact x_varArgsDivLoop s v
  | varArgsAssignments => exact x_varArgsAssignments
  | vfpDef => exact x_vfpDef
  | stmt => exact x_stmt
  | simpleStmt => exact x_simpleStmt
  | simpleStmtLoop s n p => exact x_simpleStmtLoop s n p
  | smallStmt => exact x_smallStmt
  | exprStmt => exact x_exprStmt
  | assignLoop s l n => exact x_assignLoop s l n
  | annAssign s l => exact x_annAssign s l
  | delStmt => exact x_delStmt
  | passStmt => exact x_passStmt
  | flowStmt => exact x_flowStmt
  | breakStmt => exact x_breakStmt
  | continueStmt => exact x_continueStmt
  | returnStmt => exact x_returnStmt
  | yieldStmt => exact x_yieldStmt
  | raiseStmt => exact x_raiseStmt
  | importStmt => exact x_importStmt
  | importName => exact x_importName
  | importFrom => exact x_importFrom
  | importDotLoop s t d => exact x_importDotLoop s t d
  | importAsName => exact x_importAsName
  | dottedAsName => exact x_dottedAsName
  | importAsNames => exact x_importAsNames
  | importAsNamesLoop s n p => exact x_importAsNamesLoop s n p
  | dottedAsNames => exact x_dottedAsNames
  | dottedAsNamesLoop s n p => exact x_dottedAsNamesLoop s n p
  | dottedName => exact x_dottedName
  | dottedNameLoop s n p => exact x_dottedNameLoop s n p
  | globalStmt => exact x_globalStmt
  | globalLoop s t n p => exact x_globalLoop s t n p
  | nonlocalStmt => exact x_nonlocalStmt
  | nonlocalLoop s t n p => exact x_nonlocalLoop s t n p
  | assertStmt => exact x_assertStmt
  | compoundStmt => exact x_compoundStmt
  | asyncStmt => exact x_asyncStmt
  | ifStmt => exact x_ifStmt
  | ifLoop s t l t2 r n => exact x_ifLoop s t l t2 r n
  | elifStmt => exact x_elifStmt
  | elseStmt => exact x_elseStmt
  | whileStmt => exact x_whileStmt
  | forStmt => exact x_forStmt
  | tryStmt => exact x_tryStmt
  | tryLoop s t t2 l n => exact x_tryLoop s t t2 l n
  | finallyStmt => exact x_finallyStmt
  | withStmt => exact x_withStmt
  | withParenLoop s t l n p => exact x_withParenLoop s t l n p
  | withLoop s t n p => exact x_withLoop s t n p
  | withItem => exact x_withItem
  | exceptStmt => exact x_exceptStmt
  | exceptClause => exact x_exceptClause
  | suite => exact x_suite
  | suiteLoop s t t2 n => exact x_suiteLoop s t t2 n
  | evalLoop s r p => exact x_evalLoop s r p
  | fileLoop s n p => exact x_fileLoop s n p
  | funcTypeLoop s r p => exact x_funcTypeLoop s r p
  | decorator => exact x_decorator
  | decorators => exact x_decorators
  | decoratorsLoop s n => exact x_decoratorsLoop s n
  | decorated => exact x_decorated
  | asyncFuncDef => exact x_asyncFuncDef
  | funcDef => exact x_funcDef
  | parameters => exact x_parameters
  | typedArgsList => exact x_typedArgsList
  | tfpDefAssign => exact x_tfpDefAssign
  | tfpDef => exact x_tfpDef
  | funcBodySuite => exact x_funcBodySuite
  | funcBodyLoop s t tc tn t4 n => exact x_funcBodyLoop s t tc tn t4 n
  | classDef => exact x_classDef
  | funcType => exact x_funcType
  | typeList => exact x_typeList
  | typeListMainLoop s v => exact x_typeListMainLoop s v
  | typeListStarLoop s v => exact x_typeListStarLoop s v
  | evalInput => exact x_evalInput
  | fileInput => exact x_fileInput
  | singleInput => exact x_singleInput
  | funcTypeInput => exact x_funcTypeInput
  | patternsMatch => exact fun c => trivial

theorem run_exc {n f c t c'} (h : run n f c = .ok t c') : ΦE f c t c' := run_sound x_all n f c t c' h

end
end Verif
