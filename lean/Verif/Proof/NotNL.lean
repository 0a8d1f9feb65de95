import Verif.Proof.Wp
import Verif.Proof.NoNewline
import Verif.Proof.Term
import Verif.Spec.Calls
import Verif.Spec.Single

/-!
# A statement is never followed by a Newline token
-/

namespace Verif
open Prog
set_option linter.unusedVariables false
set_option linter.unusedSimpArgs false

/-- The kind of the current symbol. -/
def curKind (c : PSt) : Option Kind :=
  match c.symbol with
  | .ok t => some t.kind
  | .error _ => none

section
variable [Uni] {src : List Char}

/-- The current symbol is not a Newline token (`src` only guides the simplifier). -/
@[irreducible] def NotNL (_src : List Char) (c : PSt) : Prop := curKind c ≠ some .Newline

/-- The current symbol is what the tokenizer returned last. -/
theorem PReach.fresh {c : PSt} (h : PReach src c) : Reach src c.lex ∧
    ∀ t, c.symbol = .ok t → ∃ l, Reach src l ∧ getSymbol l = .ok t c.lex := by
  induction h with
  | new => exact ⟨.new, by simp [PSt.new]⟩
  | @adv c _ ih =>
    unfold PSt.advance
    cases hg : getSymbol c.lex with
    | ok t l => exact ⟨.ok ih.1 hg, fun u hu => by cases hu; exact ⟨_, ih.1, hg⟩⟩
    | err e l => exact ⟨.err ih.1 hg, fun u hu => by cases hu⟩
  | exc x _ ih => exact ih

theorem notNL_adv {c : PSt} (h : PReach src c) (hk : curKind c = some .Newline ∨ curKind c = some .Dedent) :
    NotNL src c.advance := by
  obtain ⟨t, ht, hk⟩ : ∃ t, c.symbol = .ok t ∧ (t.kind = .Newline ∨ t.kind = .Dedent) := by
    unfold curKind at hk
    split at hk
    · rename_i t ht; exact ⟨t, ht, by simpa using hk⟩
    · simp at hk
  obtain ⟨hr, hf⟩ := h.fresh
  obtain ⟨l, hl, hg⟩ := hf t ht
  have := after_layout hl hg hk
  unfold NotNL
  intro hn
  unfold curKind PSt.advance at hn
  cases hg' : getSymbol c.lex with
  | ok u l' =>
    rw [hg'] at hn
    simp only [Option.some.injEq] at hn
    exact not_newline hr this hg' hn
  | err e l' => rw [hg'] at hn; simp at hn

theorem preach_exc {c : PSt} {s x} (h : PReach src c) (hs : c.symbol = s) : PReach src ⟨c.lex, s, x⟩ := by
  subst hs; exact .exc x h

/-- `y` is a simple statement line, and its Newline token was consumed last. -/
@[irreducible] def NlLast (src : List Char) (c' : PSt) (y : Tree) : Prop :=
  ∃ d nl, PReach src d ∧ d.symbol = .ok nl ∧ nl.kind = .Newline ∧ c' = d.advance ∧ y.IsLine nl

theorem nlLast {d nl s e a b} (h : PReach src d) (hs : d.symbol = .ok nl) (hk : nl.kind = .Newline) :
    NlLast src d.advance (.node .SimpleStmtList s e [a, b, .tok nl]) := by
  unfold NlLast
  exact ⟨d, nl, h, hs, hk, rfl, _, _, _, _, rfl⟩

/-- What is proved of each parse function: after statements the current symbol is not a Newline token. -/
def ΦN (src : List Char) : Fn → PSt → Tree → PSt → Prop
  | .simpleStmt, c, y, c' | .simpleStmtLoop .., c, y, c' => PReach src c → PReach src c' ∧ NotNL src c' ∧ NlLast src c' y
  | .stmt, c, y, c' | .compoundStmt, c, y, c' | .asyncStmt, c, y, c'
  | .ifStmt, c, y, c' | .elifStmt, c, y, c' | .elseStmt, c, y, c' | .whileStmt, c, y, c' | .forStmt, c, y, c' | .tryStmt, c, y, c'
  | .finallyStmt, c, y, c' | .withStmt, c, y, c' | .withLoop .., c, y, c' | .withParenLoop .., c, y, c' | .exceptStmt, c, y, c'
  | .suite, c, y, c' | .suiteLoop .., c, y, c' | .decorated, c, y, c' | .asyncFuncDef, c, y, c' | .funcDef, c, y, c'
  | .funcBodySuite, c, y, c' | .funcBodyLoop .., c, y, c' | .classDef, c, y, c' => PReach src c → PReach src c' ∧ NotNL src c'
  | .ifLoop .., c, y, c' | .tryLoop .., c, y, c' => PReach src c → NotNL src c → PReach src c' ∧ NotNL src c'
  | .patternsMatch, _, _, _ => False
  | _, c, _, c' => PReach src c → PReach src c'

/-- The body of `f` keeps the invariant. -/
def NOk (src : List Char) (f : Fn) : Prop := ∀ c, WP (ΦN src) (body f) c (ΦN src f c)

macro "n_simp" : tactic => `(tactic| simp only [wp_bind, wp_pure, wp_ret, wp_fail, wp_panic, wp_failHere, wp_here, wp_next,
  wp_parse, wp_symAt, wp_symHere, wp_sym?, wp_mk, wp_getExc, wp_setExc, wp_ite, ΦN, implies_true, and_true, true_and, and_self])

macro "n_close" : tactic => `(tactic| (simp_all (config := {maxDischargeDepth := 20}) only [PReach.adv, preach_exc, notNL_adv, nlLast, Except.ok.injEq, curKind, true_implies, implies_true, and_self, or_true, true_or, forall_const]; done))

macro "n_step" : tactic => `(tactic| first
  | intro _
  | apply And.intro
  | (split <;> try n_simp)
  | assumption
  | n_close)

macro "n_auto" : tactic => `(tactic| ((try n_simp); repeat' n_step))

theorem n_atom : NOk src (.atom) := by
  intro st; show WP _ (atomBody) _ _; unfold atomBody ; n_auto
theorem n_atomStrLoop (s l) : NOk src (.atomStrLoop s l) := by
  intro st; show WP _ (atomStrLoopBody s l) _ _; unfold atomStrLoopBody ; n_auto
theorem n_atomExpr : NOk src (.atomExpr) := by
  intro st; show WP _ (atomExprBody) _ _; unfold atomExprBody ; n_auto
theorem n_trailerLoop (s a r l) : NOk src (.trailerLoop s a r l) := by
  intro st; show WP _ (trailerLoopBody s a r l) _ _; unfold trailerLoopBody trailerLoopBody.fin; n_auto
theorem n_power : NOk src (.power) := by
  intro st; show WP _ (powerBody) _ _; unfold powerBody ; n_auto
theorem n_factor : NOk src (.factor) := by
  intro st; show WP _ (factorBody) _ _; unfold factorBody ; n_auto
theorem n_term : NOk src (.term) := by
  intro st; show WP _ (termBody) _ _; unfold termBody ; n_auto
theorem n_termLoop (s l) : NOk src (.termLoop s l) := by
  intro st; show WP _ (termLoopBody s l) _ _; unfold termLoopBody leftLoopBody; n_auto
theorem n_arith : NOk src (.arith) := by
  intro st; show WP _ (arithBody) _ _; unfold arithBody ; n_auto
theorem n_arithLoop (s l) : NOk src (.arithLoop s l) := by
  intro st; show WP _ (arithLoopBody s l) _ _; unfold arithLoopBody leftLoopBody; n_auto
theorem n_shift : NOk src (.shift) := by
  intro st; show WP _ (shiftBody) _ _; unfold shiftBody ; n_auto
theorem n_shiftLoop (s l) : NOk src (.shiftLoop s l) := by
  intro st; show WP _ (shiftLoopBody s l) _ _; unfold shiftLoopBody leftLoopBody; n_auto
theorem n_andExpr : NOk src (.andExpr) := by
  intro st; show WP _ (andExprBody) _ _; unfold andExprBody ; n_auto
theorem n_andExprLoop (s l) : NOk src (.andExprLoop s l) := by
  intro st; show WP _ (andExprLoopBody s l) _ _; unfold andExprLoopBody leftLoopBody; n_auto
theorem n_xorExpr : NOk src (.xorExpr) := by
  intro st; show WP _ (xorExprBody) _ _; unfold xorExprBody ; n_auto
theorem n_xorExprLoop (s l) : NOk src (.xorExprLoop s l) := by
  intro st; show WP _ (xorExprLoopBody s l) _ _; unfold xorExprLoopBody leftLoopBody; n_auto
theorem n_expr : NOk src (.expr) := by
  intro st; show WP _ (exprBody) _ _; unfold exprBody ; n_auto
theorem n_exprLoop (s l) : NOk src (.exprLoop s l) := by
  intro st; show WP _ (exprLoopBody s l) _ _; unfold exprLoopBody leftLoopBody; n_auto
theorem n_starExpr : NOk src (.starExpr) := by
  intro st; show WP _ (starExprBody) _ _; unfold starExprBody ; n_auto
theorem n_comparison : NOk src (.comparison) := by
  intro st; show WP _ (comparisonBody) _ _; unfold comparisonBody ; n_auto
theorem n_comparisonLoop (s l) : NOk src (.comparisonLoop s l) := by
  intro st; show WP _ (comparisonLoopBody s l) _ _; unfold comparisonLoopBody ; n_auto
theorem n_notTest : NOk src (.notTest) := by
  intro st; show WP _ (notTestBody) _ _; unfold notTestBody ; n_auto
theorem n_andTest : NOk src (.andTest) := by
  intro st; show WP _ (andTestBody) _ _; unfold andTestBody ; n_auto
theorem n_andTestLoop (s l) : NOk src (.andTestLoop s l) := by
  intro st; show WP _ (andTestLoopBody s l) _ _; unfold andTestLoopBody leftLoopBody; n_auto
theorem n_orTest : NOk src (.orTest) := by
  intro st; show WP _ (orTestBody) _ _; unfold orTestBody ; n_auto
theorem n_orTestLoop (s l) : NOk src (.orTestLoop s l) := by
  intro st; show WP _ (orTestLoopBody s l) _ _; unfold orTestLoopBody leftLoopBody; n_auto
theorem n_lambdaDef (b) : NOk src (.lambdaDef b) := by
  intro st; show WP _ (lambdaDefBody b) _ _; unfold lambdaDefBody; n_auto
theorem n_noCondTest : NOk src (.noCondTest) := by
  intro st; show WP _ (noCondTestBody) _ _; unfold noCondTestBody ; n_auto
theorem n_test : NOk src (.test) := by
  intro st; show WP _ (testBody) _ _; unfold testBody ; n_auto
theorem n_namedExpression : NOk src (.namedExpression) := by
  intro st; show WP _ (namedExpressionBody) _ _; unfold namedExpressionBody ; n_auto
theorem n_testlistComp : NOk src (.testlistComp) := by
  intro st; show WP _ (testlistCompBody) _ _; unfold testlistCompBody starOrNamed; n_auto
theorem n_testlistCompLoop (s n p) : NOk src (.testlistCompLoop s n p) := by
  intro st; show WP _ (testlistCompLoopBody s n p) _ _; unfold testlistCompLoopBody starOrNamed; n_auto
theorem n_trailer : NOk src (.trailer) := by
  intro st; show WP _ (trailerBody) _ _; unfold trailerBody ; n_auto
theorem n_subscriptList : NOk src (.subscriptList) := by
  intro st; show WP _ (subscriptListBody) _ _; unfold subscriptListBody ; n_auto
theorem n_subscriptListLoop (s n p) : NOk src (.subscriptListLoop s n p) := by
  intro st; show WP _ (subscriptListLoopBody s n p) _ _; unfold subscriptListLoopBody ; n_auto
theorem n_subscript : NOk src (.subscript) := by
  intro st; show WP _ (subscriptBody) _ _; unfold subscriptBody ; n_auto
theorem n_exprlist : NOk src (.exprlist) := by
  intro st; show WP _ (exprlistBody) _ _; unfold exprlistBody starOrNamed; n_auto
theorem n_exprlistLoop (s n p) : NOk src (.exprlistLoop s n p) := by
  intro st; show WP _ (exprlistLoopBody s n p) _ _; unfold exprlistLoopBody listResult; n_auto
theorem n_testlist : NOk src (.testlist) := by
  intro st; show WP _ (testlistBody) _ _; unfold testlistBody ; n_auto
theorem n_testlistLoop (s n p) : NOk src (.testlistLoop s n p) := by
  intro st; show WP _ (testlistLoopBody s n p) _ _; unfold testlistLoopBody listResult; n_auto
theorem n_dictorsetMaker : NOk src (.dictorsetMaker) := by
  intro st; show WP _ (dictorsetMakerBody) _ _; unfold dictorsetMakerBody dictRest dictRest.fin; n_auto
theorem n_setLoop (s n p) : NOk src (.setLoop s n p) := by
  intro st; show WP _ (setLoopBody s n p) _ _; unfold setLoopBody ; n_auto
theorem n_arglist : NOk src (.arglist) := by
  intro st; show WP _ (arglistBody) _ _; unfold arglistBody ; n_auto
theorem n_arglistLoop (s n p) : NOk src (.arglistLoop s n p) := by
  intro st; show WP _ (arglistLoopBody s n p) _ _; unfold arglistLoopBody ; n_auto
theorem n_argument : NOk src (.argument) := by
  intro st; show WP _ (argumentBody) _ _; unfold argumentBody ; n_auto
theorem n_compIter : NOk src (.compIter) := by
  intro st; show WP _ (compIterBody) _ _; unfold compIterBody ; n_auto
theorem n_syncCompFor : NOk src (.syncCompFor) := by
  intro st; show WP _ (syncCompForBody) _ _; unfold syncCompForBody ; n_auto
theorem n_compFor : NOk src (.compFor) := by
  intro st; show WP _ (compForBody) _ _; unfold compForBody ; n_auto
theorem n_compIf : NOk src (.compIf) := by
  intro st; show WP _ (compIfBody) _ _; unfold compIfBody ; n_auto
theorem n_yieldExpr : NOk src (.yieldExpr) := by
  intro st; show WP _ (yieldExprBody) _ _; unfold yieldExprBody ; n_auto
theorem n_testlistStarExpr : NOk src (.testlistStarExpr) := by
  intro st; show WP _ (testlistStarExprBody) _ _; unfold testlistStarExprBody ; n_auto
theorem n_testlistStarExprLoop (s n p) : NOk src (.testlistStarExprLoop s n p) := by
  intro st; show WP _ (testlistStarExprLoopBody s n p) _ _; unfold testlistStarExprLoopBody testlistStarExprResult; n_auto
theorem n_varArgsList : NOk src (.varArgsList) := by
  intro st; show WP _ (varArgsListBody) _ _; unfold varArgsListBody varArgsMul varArgsPower varArgsResult; n_auto
theorem n_varArgsMainLoop (s v) : NOk src (.varArgsMainLoop s v) := by
  intro st; show WP _ (varArgsMainLoopBody s v) _ _; unfold varArgsMainLoopBody varArgsMul varArgsPower varArgsResult; n_auto
theorem n_varArgsStarLoop (s v) : NOk src (.varArgsStarLoop s v) := by
  intro st; show WP _ (varArgsStarLoopBody s v) _ _; unfold varArgsStarLoopBody varArgsPower varArgsResult; n_auto
theorem n_varArgsDivLoop (s v) : NOk src (.varArgsDivLoop s v) := by
  intro st; show WP _ (varArgsDivLoopBody s v) _ _; unfold varArgsDivLoopBody varArgsMul varArgsPower varArgsResult; n_auto
theorem n_varArgsAssignments : NOk src (.varArgsAssignments) := by
  intro st; show WP _ (varArgsAssignmentsBody) _ _; unfold varArgsAssignmentsBody ; n_auto
theorem n_vfpDef : NOk src (.vfpDef) := by
  intro st; show WP _ (vfpDefBody) _ _; unfold vfpDefBody ; n_auto
theorem n_stmt : NOk src (.stmt) := by
  intro st; show WP _ (stmtBody) _ _; unfold stmtBody ; n_auto
theorem n_simpleStmt : NOk src (.simpleStmt) := by
  intro st; show WP _ (simpleStmtBody) _ _; unfold simpleStmtBody ; n_auto
theorem n_simpleStmtLoop (s n p) : NOk src (.simpleStmtLoop s n p) := by
  intro st; show WP _ (simpleStmtLoopBody s n p) _ _; unfold simpleStmtLoopBody simpleStmtLoopBody.fin; n_auto
theorem n_smallStmt : NOk src (.smallStmt) := by
  intro st; show WP _ (smallStmtBody) _ _; unfold smallStmtBody ; n_auto
theorem n_exprStmt : NOk src (.exprStmt) := by
  intro st; show WP _ (exprStmtBody) _ _; unfold exprStmtBody yieldOrTestlist; n_auto
theorem n_assignLoop (s l n) : NOk src (.assignLoop s l n) := by
  intro st; show WP _ (assignLoopBody s l n) _ _; unfold assignLoopBody yieldOrTestlist; n_auto
theorem n_annAssign (s l) : NOk src (.annAssign s l) := by
  intro st; show WP _ (annAssignBody s l) _ _; unfold annAssignBody yieldOrTestlist; n_auto
theorem n_delStmt : NOk src (.delStmt) := by
  intro st; show WP _ (delStmtBody) _ _; unfold delStmtBody ; n_auto
theorem n_passStmt : NOk src (.passStmt) := by
  intro st; show WP _ (passStmtBody) _ _; unfold passStmtBody ; n_auto
theorem n_flowStmt : NOk src (.flowStmt) := by
  intro st; show WP _ (flowStmtBody) _ _; unfold flowStmtBody ; n_auto
theorem n_breakStmt : NOk src (.breakStmt) := by
  intro st; show WP _ (breakStmtBody) _ _; unfold breakStmtBody ; n_auto
theorem n_continueStmt : NOk src (.continueStmt) := by
  intro st; show WP _ (continueStmtBody) _ _; unfold continueStmtBody ; n_auto
theorem n_returnStmt : NOk src (.returnStmt) := by
  intro st; show WP _ (returnStmtBody) _ _; unfold returnStmtBody ; n_auto
theorem n_yieldStmt : NOk src (.yieldStmt) := by
  intro st; show WP _ (yieldStmtBody) _ _; unfold yieldStmtBody ; n_auto
theorem n_raiseStmt : NOk src (.raiseStmt) := by
  intro st; show WP _ (raiseStmtBody) _ _; unfold raiseStmtBody ; n_auto
theorem n_importStmt : NOk src (.importStmt) := by
  intro st; show WP _ (importStmtBody) _ _; unfold importStmtBody ; n_auto
theorem n_importName : NOk src (.importName) := by
  intro st; show WP _ (importNameBody) _ _; unfold importNameBody ; n_auto
theorem n_importFrom : NOk src (.importFrom) := by
  intro st; show WP _ (importFromBody) _ _; unfold importFromBody ; n_auto
theorem n_importDotLoop (s t d) : NOk src (.importDotLoop s t d) := by
  intro st; show WP _ (importDotLoopBody s t d) _ _; unfold importDotLoopBody importFromRest; n_auto
theorem n_importAsName : NOk src (.importAsName) := by
  intro st; show WP _ (importAsNameBody) _ _; unfold importAsNameBody ; n_auto
theorem n_dottedAsName : NOk src (.dottedAsName) := by
  intro st; show WP _ (dottedAsNameBody) _ _; unfold dottedAsNameBody ; n_auto
theorem n_importAsNames : NOk src (.importAsNames) := by
  intro st; show WP _ (importAsNamesBody) _ _; unfold importAsNamesBody ; n_auto
theorem n_importAsNamesLoop (s n p) : NOk src (.importAsNamesLoop s n p) := by
  intro st; show WP _ (importAsNamesLoopBody s n p) _ _; unfold importAsNamesLoopBody ; n_auto
theorem n_dottedAsNames : NOk src (.dottedAsNames) := by
  intro st; show WP _ (dottedAsNamesBody) _ _; unfold dottedAsNamesBody ; n_auto
theorem n_dottedAsNamesLoop (s n p) : NOk src (.dottedAsNamesLoop s n p) := by
  intro st; show WP _ (dottedAsNamesLoopBody s n p) _ _; unfold dottedAsNamesLoopBody ; n_auto
theorem n_dottedName : NOk src (.dottedName) := by
  intro st; show WP _ (dottedNameBody) _ _; unfold dottedNameBody ; n_auto
theorem n_dottedNameLoop (s n p) : NOk src (.dottedNameLoop s n p) := by
  intro st; show WP _ (dottedNameLoopBody s n p) _ _; unfold dottedNameLoopBody ; n_auto
theorem n_globalStmt : NOk src (.globalStmt) := by
  intro st; show WP _ (globalStmtBody) _ _; unfold globalStmtBody ; n_auto
theorem n_globalLoop (s t n p) : NOk src (.globalLoop s t n p) := by
  intro st; show WP _ (globalLoopBody s t n p) _ _; unfold globalLoopBody ; n_auto
theorem n_nonlocalStmt : NOk src (.nonlocalStmt) := by
  intro st; show WP _ (nonlocalStmtBody) _ _; unfold nonlocalStmtBody ; n_auto
theorem n_nonlocalLoop (s t n p) : NOk src (.nonlocalLoop s t n p) := by
  intro st; show WP _ (nonlocalLoopBody s t n p) _ _; unfold nonlocalLoopBody ; n_auto
theorem n_assertStmt : NOk src (.assertStmt) := by
  intro st; show WP _ (assertStmtBody) _ _; unfold assertStmtBody ; n_auto
theorem n_compoundStmt : NOk src (.compoundStmt) := by
  intro st; show WP _ (compoundStmtBody) _ _; unfold compoundStmtBody ; n_auto
theorem n_asyncStmt : NOk src (.asyncStmt) := by
  intro st; show WP _ (asyncStmtBody) _ _; unfold asyncStmtBody ; n_auto
theorem n_ifStmt : NOk src (.ifStmt) := by
  intro st; show WP _ (ifStmtBody) _ _; unfold ifStmtBody ; n_auto
theorem n_ifLoop (s t l t2 r n) : NOk src (.ifLoop s t l t2 r n) := by
  intro st; show WP _ (ifLoopBody s t l t2 r n) _ _; unfold ifLoopBody ; n_auto
theorem n_elifStmt : NOk src (.elifStmt) := by
  intro st; show WP _ (elifStmtBody) _ _; unfold elifStmtBody ; n_auto
theorem n_elseStmt : NOk src (.elseStmt) := by
  intro st; show WP _ (elseStmtBody) _ _; unfold elseStmtBody ; n_auto
theorem n_whileStmt : NOk src (.whileStmt) := by
  intro st; show WP _ (whileStmtBody) _ _; unfold whileStmtBody ; n_auto
theorem n_forStmt : NOk src (.forStmt) := by
  intro st; show WP _ (forStmtBody) _ _; unfold forStmtBody ; n_auto
theorem n_tryStmt : NOk src (.tryStmt) := by
  intro st; show WP _ (tryStmtBody) _ _; unfold tryStmtBody ; n_auto
theorem n_tryLoop (s t t2 l n) : NOk src (.tryLoop s t t2 l n) := by
  intro st; show WP _ (tryLoopBody s t t2 l n) _ _; unfold tryLoopBody ; n_auto
theorem n_finallyStmt : NOk src (.finallyStmt) := by
  intro st; show WP _ (finallyStmtBody) _ _; unfold finallyStmtBody ; n_auto
theorem n_withStmt : NOk src (.withStmt) := by
  intro st; show WP _ (withStmtBody) _ _; unfold withStmtBody ; n_auto
theorem n_withParenLoop (s t l n p) : NOk src (.withParenLoop s t l n p) := by
  intro st; show WP _ (withParenLoopBody s t l n p) _ _; unfold withParenLoopBody withParenEnd withRest; n_auto
theorem n_withLoop (s t n p) : NOk src (.withLoop s t n p) := by
  intro st; show WP _ (withLoopBody s t n p) _ _; unfold withLoopBody withRest; n_auto
theorem n_withItem : NOk src (.withItem) := by
  intro st; show WP _ (withItemBody) _ _; unfold withItemBody ; n_auto
theorem n_exceptStmt : NOk src (.exceptStmt) := by
  intro st; show WP _ (exceptStmtBody) _ _; unfold exceptStmtBody ; n_auto
theorem n_exceptClause : NOk src (.exceptClause) := by
  intro st; show WP _ (exceptClauseBody) _ _; unfold exceptClauseBody exceptStar; n_auto
theorem n_suite : NOk src (.suite) := by
  intro st; show WP _ (suiteBody) _ _; unfold suiteBody ; n_auto
theorem n_suiteLoop (s t t2 n) : NOk src (.suiteLoop s t t2 n) := by
  intro st; show WP _ (suiteLoopBody s t t2 n) _ _; unfold suiteLoopBody ; n_auto
theorem n_evalLoop (s r p) : NOk src (.evalLoop s r p) := by
  intro st; show WP _ (evalLoopBody s r p) _ _; unfold evalLoopBody ; n_auto
theorem n_fileLoop (s n p) : NOk src (.fileLoop s n p) := by
  intro st; show WP _ (fileLoopBody s n p) _ _; unfold fileLoopBody ; n_auto
theorem n_funcTypeLoop (s r p) : NOk src (.funcTypeLoop s r p) := by
  intro st; show WP _ (funcTypeLoopBody s r p) _ _; unfold funcTypeLoopBody ; n_auto
theorem n_decorator : NOk src (.decorator) := by
  intro st; show WP _ (decoratorBody) _ _; unfold decoratorBody decoratorEnd; n_auto
theorem n_decorators : NOk src (.decorators) := by
  intro st; show WP _ (decoratorsBody) _ _; unfold decoratorsBody ; n_auto
theorem n_decoratorsLoop (s n) : NOk src (.decoratorsLoop s n) := by
  intro st; show WP _ (decoratorsLoopBody s n) _ _; unfold decoratorsLoopBody ; n_auto
theorem n_decorated : NOk src (.decorated) := by
  intro st; show WP _ (decoratedBody) _ _; unfold decoratedBody ; n_auto
theorem n_asyncFuncDef : NOk src (.asyncFuncDef) := by
  intro st; show WP _ (asyncFuncDefBody) _ _; unfold asyncFuncDefBody ; n_auto
theorem n_funcDef : NOk src (.funcDef) := by
  intro st; show WP _ (funcDefBody) _ _; unfold funcDefBody ; n_auto
theorem n_parameters : NOk src (.parameters) := by
  intro st; show WP _ (parametersBody) _ _; unfold parametersBody ; n_auto
theorem n_typedArgsList : NOk src (.typedArgsList) := by
  intro st; show WP _ (typedArgsListBody) _ _; unfold typedArgsListBody ; n_auto
theorem n_tfpDefAssign : NOk src (.tfpDefAssign) := by
  intro st; show WP _ (tfpDefAssignBody) _ _; unfold tfpDefAssignBody ; n_auto
theorem n_tfpDef : NOk src (.tfpDef) := by
  intro st; show WP _ (tfpDefBody) _ _; unfold tfpDefBody ; n_auto
theorem n_funcBodySuite : NOk src (.funcBodySuite) := by
  intro st; show WP _ (funcBodySuiteBody) _ _; unfold funcBodySuiteBody funcBodyIndent; n_auto
theorem n_funcBodyLoop (s t tc tn t4 n) : NOk src (.funcBodyLoop s t tc tn t4 n) := by
  intro st; show WP _ (funcBodyLoopBody s t tc tn t4 n) _ _; unfold funcBodyLoopBody ; n_auto
theorem n_classDef : NOk src (.classDef) := by
  intro st; show WP _ (classDefBody) _ _; unfold classDefBody classRest; n_auto
theorem n_funcType : NOk src (.funcType) := by
  intro st; show WP _ (funcTypeBody) _ _; unfold funcTypeBody ; n_auto
theorem n_typeList : NOk src (.typeList) := by
  intro st; show WP _ (typeListBody) _ _; unfold typeListBody typeListMul typeListPower typeListResult; n_auto
theorem n_typeListMainLoop (s v) : NOk src (.typeListMainLoop s v) := by
  intro st; show WP _ (typeListMainLoopBody s v) _ _; unfold typeListMainLoopBody typeListMul typeListPower typeListResult; n_auto
theorem n_typeListStarLoop (s v) : NOk src (.typeListStarLoop s v) := by
  intro st; show WP _ (typeListStarLoopBody s v) _ _; unfold typeListStarLoopBody typeListPower typeListResult; n_auto
theorem n_evalInput: NOk src (.evalInput) := by
  intro st; show WP _ (evalInputBody) _ _; unfold evalInputBody; n_auto
theorem n_fileInput: NOk src (.fileInput) := by
  intro st; show WP _ (fileInputBody) _ _; unfold fileInputBody; n_auto
theorem n_singleInput: NOk src (.singleInput) := by
  intro st; show WP _ (singleInputBody) _ _; unfold singleInputBody singleNewline; n_auto
theorem n_funcTypeInput: NOk src (.funcTypeInput) := by
  intro st; show WP _ (funcTypeInputBody) _ _; unfold funcTypeInputBody; n_auto

theorem n_all (f : Fn) : NOk src f := by
  cases f with
  | atom => exact n_atom
  | atomStrLoop s l => exact n_atomStrLoop s l
  | atomExpr => exact n_atomExpr
  | trailerLoop s a r l => exact n_trailerLoop s a r l
  | power => exact n_power
  | factor => exact n_factor
  | term => exact n_term
  | termLoop s l => exact n_termLoop s l
  | arith => exact n_arith
  | arithLoop s l => exact n_arithLoop s l
  | shift => exact n_shift
  | shiftLoop s l => exact n_shiftLoop s l
  | andExpr => exact n_andExpr
  | andExprLoop s l => exact n_andExprLoop s l
  | xorExpr => exact n_xorExpr
  | xorExprLoop s l => exact n_xorExprLoop s l
  | expr => exact n_expr
  | exprLoop s l => exact n_exprLoop s l
  | starExpr => exact n_starExpr
  | comparison => exact n_comparison
  | comparisonLoop s l => exact n_comparisonLoop s l
  | notTest => exact n_notTest
  | andTest => exact n_andTest
  | andTestLoop s l => exact n_andTestLoop s l
  | orTest => exact n_orTest
  | orTestLoop s l => exact n_orTestLoop s l
  | lambdaDef b => exact n_lambdaDef b
  | noCondTest => exact n_noCondTest
  | test => exact n_test
  | namedExpression => exact n_namedExpression
  | testlistComp => exact n_testlistComp
  | testlistCompLoop s n p => exact n_testlistCompLoop s n p
  | trailer => exact n_trailer
  | subscriptList => exact n_subscriptList
  | subscriptListLoop s n p => exact n_subscriptListLoop s n p
  | subscript => exact n_subscript
  | exprlist => exact n_exprlist
  | exprlistLoop s n p => exact n_exprlistLoop s n p
  | testlist => exact n_testlist
  | testlistLoop s n p => exact n_testlistLoop s n p
  | dictorsetMaker => exact n_dictorsetMaker
  | setLoop s n p => exact n_setLoop s n p
  | arglist => exact n_arglist
  | arglistLoop s n p => exact n_arglistLoop s n p
  | argument => exact n_argument
  | compIter => exact n_compIter
  | syncCompFor => exact n_syncCompFor
  | compFor => exact n_compFor
  | compIf => exact n_compIf
  | yieldExpr => exact n_yieldExpr
  | testlistStarExpr => exact n_testlistStarExpr
  | testlistStarExprLoop s n p => exact n_testlistStarExprLoop s n p
  | varArgsList => exact n_varArgsList
  | varArgsMainLoop s v => exact n_varArgsMainLoop s v
  | varArgsStarLoop s v => exact n_varArgsStarLoop s v
  | varArgsDivLoop s v => exact n_varArgsDivLoop s v
  | varArgsAssignments => exact n_varArgsAssignments
  | vfpDef => exact n_vfpDef
  | stmt => exact n_stmt
  | simpleStmt => exact n_simpleStmt
  | simpleStmtLoop s n p => exact n_simpleStmtLoop s n p
  | smallStmt => exact n_smallStmt
  | exprStmt => exact n_exprStmt
  | assignLoop s l n => exact n_assignLoop s l n
  | annAssign s l => exact n_annAssign s l
  | delStmt => exact n_delStmt
  | passStmt => exact n_passStmt
  | flowStmt => exact n_flowStmt
  | breakStmt => exact n_breakStmt
  | continueStmt => exact n_continueStmt
  | returnStmt => exact n_returnStmt
  | yieldStmt => exact n_yieldStmt
  | raiseStmt => exact n_raiseStmt
  | importStmt => exact n_importStmt
  | importName => exact n_importName
  | importFrom => exact n_importFrom
  | importDotLoop s t d => exact n_importDotLoop s t d
  | importAsName => exact n_importAsName
  | dottedAsName => exact n_dottedAsName
  | importAsNames => exact n_importAsNames
  | importAsNamesLoop s n p => exact n_importAsNamesLoop s n p
  | dottedAsNames => exact n_dottedAsNames
  | dottedAsNamesLoop s n p => exact n_dottedAsNamesLoop s n p
  | dottedName => exact n_dottedName
  | dottedNameLoop s n p => exact n_dottedNameLoop s n p
  | globalStmt => exact n_globalStmt
  | globalLoop s t n p => exact n_globalLoop s t n p
  | nonlocalStmt => exact n_nonlocalStmt
  | nonlocalLoop s t n p => exact n_nonlocalLoop s t n p
  | assertStmt => exact n_assertStmt
  | compoundStmt => exact n_compoundStmt
  | asyncStmt => exact n_asyncStmt
  | ifStmt => exact n_ifStmt
  | ifLoop s t l t2 r n => exact n_ifLoop s t l t2 r n
  | elifStmt => exact n_elifStmt
  | elseStmt => exact n_elseStmt
  | whileStmt => exact n_whileStmt
  | forStmt => exact n_forStmt
  | tryStmt => exact n_tryStmt
  | tryLoop s t t2 l n => exact n_tryLoop s t t2 l n
  | finallyStmt => exact n_finallyStmt
  | withStmt => exact n_withStmt
  | withParenLoop s t l n p => exact n_withParenLoop s t l n p
  | withLoop s t n p => exact n_withLoop s t n p
  | withItem => exact n_withItem
  | exceptStmt => exact n_exceptStmt
  | exceptClause => exact n_exceptClause
  | suite => exact n_suite
  | suiteLoop s t t2 n => exact n_suiteLoop s t t2 n
  | evalLoop s r p => exact n_evalLoop s r p
  | fileLoop s n p => exact n_fileLoop s n p
  | funcTypeLoop s r p => exact n_funcTypeLoop s r p
  | decorator => exact n_decorator
  | decorators => exact n_decorators
  | decoratorsLoop s n => exact n_decoratorsLoop s n
  | decorated => exact n_decorated
  | asyncFuncDef => exact n_asyncFuncDef
  | funcDef => exact n_funcDef
  | parameters => exact n_parameters
  | typedArgsList => exact n_typedArgsList
  | tfpDefAssign => exact n_tfpDefAssign
  | tfpDef => exact n_tfpDef
  | funcBodySuite => exact n_funcBodySuite
  | funcBodyLoop s t tc tn t4 n => exact n_funcBodyLoop s t tc tn t4 n
  | classDef => exact n_classDef
  | funcType => exact n_funcType
  | typeList => exact n_typeList
  | typeListMainLoop s v => exact n_typeListMainLoop s v
  | typeListStarLoop s v => exact n_typeListStarLoop s v
  | evalInput => exact n_evalInput
  | fileInput => exact n_fileInput
  | singleInput => exact n_singleInput
  | funcTypeInput => exact n_funcTypeInput
  | patternsMatch => exact fun c => trivial

theorem run_notNL {n f c t c'} (h : run n f c = .ok t c') : ΦN src f c t c' := run_sound n_all n f c t c' h

end
end Verif
