import Verif.Proof.PlugStep

/-!
# Functions that start before the number, second part
-/
set_option linter.unusedSimpArgs false
set_option linter.unusedVariables false
namespace Verif
open Prog Plug
theorem q_globalLoop [Plug] {o} (s s' : Nat) (sym sym' : Token) (nodes nodes' : List Token) (seps seps' : List Token) (h0 : sym.bare = sym'.bare) (h1 : nodes.map Token.bare = nodes'.map Token.bare) (h2 : seps.map Token.bare = seps'.map Token.bare) : RelQ (.pre o) (globalLoopBody s sym nodes seps) (globalLoopBody s' sym' nodes' seps') := by
  unfold globalLoopBody; q_auto
theorem q_nonlocalStmt [Plug] {o}  : RelQ (.pre o) (nonlocalStmtBody) (nonlocalStmtBody) := by
  unfold nonlocalStmtBody; q_auto
theorem q_nonlocalLoop [Plug] {o} (s s' : Nat) (sym sym' : Token) (nodes nodes' : List Token) (seps seps' : List Token) (h0 : sym.bare = sym'.bare) (h1 : nodes.map Token.bare = nodes'.map Token.bare) (h2 : seps.map Token.bare = seps'.map Token.bare) : RelQ (.pre o) (nonlocalLoopBody s sym nodes seps) (nonlocalLoopBody s' sym' nodes' seps') := by
  unfold nonlocalLoopBody; q_auto
theorem q_assertStmt [Plug] {o}  : RelQ (.pre o) (assertStmtBody) (assertStmtBody) := by
  unfold assertStmtBody; q_auto
theorem q_compoundStmt [Plug] {o}  : RelQ (.pre o) (compoundStmtBody) (compoundStmtBody) := by
  unfold compoundStmtBody; q_auto
theorem q_asyncStmt [Plug] {o}  : RelQ (.pre o) (asyncStmtBody) (asyncStmtBody) := by
  unfold asyncStmtBody; q_auto
theorem q_ifStmt [Plug] {o}  : RelQ (.pre o) (ifStmtBody) (ifStmtBody) := by
  unfold ifStmtBody; q_auto
theorem q_ifLoop [Plug] {o} (s s' : Nat) (sym1 sym1' : Token) (left left' : Tree) (sym2 sym2' : Token) (right right' : Tree) (nodes nodes' : List Tree) (h0 : sym1.bare = sym1'.bare) (h1 : PT left left') (h2 : sym2.bare = sym2'.bare) (h3 : PT right right') (h4 : PL nodes nodes') : RelQ (.pre o) (ifLoopBody s sym1 left sym2 right nodes) (ifLoopBody s' sym1' left' sym2' right' nodes') := by
  unfold ifLoopBody; q_auto
theorem q_elifStmt [Plug] {o}  : RelQ (.pre o) (elifStmtBody) (elifStmtBody) := by
  unfold elifStmtBody; q_auto
theorem q_elseStmt [Plug] {o}  : RelQ (.pre o) (elseStmtBody) (elseStmtBody) := by
  unfold elseStmtBody; q_auto
theorem q_whileStmt [Plug] {o}  : RelQ (.pre o) (whileStmtBody) (whileStmtBody) := by
  unfold whileStmtBody; q_auto
theorem q_forStmt [Plug] {o}  : RelQ (.pre o) (forStmtBody) (forStmtBody) := by
  unfold forStmtBody; q_auto
theorem q_tryStmt [Plug] {o}  : RelQ (.pre o) (tryStmtBody) (tryStmtBody) := by
  unfold tryStmtBody; q_auto
theorem q_tryLoop [Plug] {o} (s s' : Nat) (sym1 sym1' : Token) (sym2 sym2' : Token) (left left' : Tree) (nodes nodes' : List Tree) (h0 : sym1.bare = sym1'.bare) (h1 : sym2.bare = sym2'.bare) (h2 : PT left left') (h3 : PL nodes nodes') : RelQ (.pre o) (tryLoopBody s sym1 sym2 left nodes) (tryLoopBody s' sym1' sym2' left' nodes') := by
  unfold tryLoopBody; q_auto
theorem q_finallyStmt [Plug] {o}  : RelQ (.pre o) (finallyStmtBody) (finallyStmtBody) := by
  unfold finallyStmtBody; q_auto
theorem q_withStmt [Plug] {o}  : RelQ (.pre o) (withStmtBody) (withStmtBody) := by
  unfold withStmtBody; q_auto
theorem q_withParenLoop [Plug] {o} (s s' : Nat) (sym1 sym1' : Token) (lpar lpar' : Token) (nodes nodes' : List Tree) (seps seps' : List Token) (h0 : sym1.bare = sym1'.bare) (h1 : lpar.bare = lpar'.bare) (h2 : PL nodes nodes') (h3 : seps.map Token.bare = seps'.map Token.bare) : RelQ (.pre o) (withParenLoopBody s sym1 lpar nodes seps) (withParenLoopBody s' sym1' lpar' nodes' seps') := by
  unfold withParenLoopBody withParenEnd withRest; q_auto
theorem q_withLoop [Plug] {o} (s s' : Nat) (sym1 sym1' : Token) (nodes nodes' : List Tree) (seps seps' : List Token) (h0 : sym1.bare = sym1'.bare) (h1 : PL nodes nodes') (h2 : seps.map Token.bare = seps'.map Token.bare) : RelQ (.pre o) (withLoopBody s sym1 nodes seps) (withLoopBody s' sym1' nodes' seps') := by
  unfold withLoopBody withRest; q_auto
theorem q_withItem [Plug] {o}  : RelQ (.pre o) (withItemBody) (withItemBody) := by
  unfold withItemBody; q_auto
theorem q_exceptStmt [Plug] {o}  : RelQ (.pre o) (exceptStmtBody) (exceptStmtBody) := by
  unfold exceptStmtBody; q_auto
theorem q_exceptClause [Plug] {o}  : RelQ (.pre o) (exceptClauseBody) (exceptClauseBody) := by
  unfold exceptClauseBody exceptStar; q_auto
theorem q_suite [Plug] {o}  : RelQ (.pre o) (suiteBody) (suiteBody) := by
  unfold suiteBody; q_auto
theorem q_suiteLoop [Plug] {o} (s s' : Nat) (sym1 sym1' : Token) (sym2 sym2' : Token) (nodes nodes' : List Tree) (h0 : sym1.bare = sym1'.bare) (h1 : sym2.bare = sym2'.bare) (h2 : PL nodes nodes') : RelQ (.pre o) (suiteLoopBody s sym1 sym2 nodes) (suiteLoopBody s' sym1' sym2' nodes') := by
  unfold suiteLoopBody; q_auto
theorem q_evalLoop [Plug] {o} (s s' : Nat) (right right' : Tree) (seps seps' : List Token) (h0 : PT right right') (h1 : seps.map Token.bare = seps'.map Token.bare) : RelQ (.pre o) (evalLoopBody s right seps) (evalLoopBody s' right' seps') := by
  unfold evalLoopBody; q_auto
theorem q_fileLoop [Plug] {o} (s s' : Nat) (nodes nodes' : List Tree) (seps seps' : List Token) (h0 : PL nodes nodes') (h1 : seps.map Token.bare = seps'.map Token.bare) : RelQ (.pre o) (fileLoopBody s nodes seps) (fileLoopBody s' nodes' seps') := by
  unfold fileLoopBody; q_auto
theorem q_funcTypeLoop [Plug] {o} (s s' : Nat) (right right' : Tree) (seps seps' : List Token) (h0 : PT right right') (h1 : seps.map Token.bare = seps'.map Token.bare) : RelQ (.pre o) (funcTypeLoopBody s right seps) (funcTypeLoopBody s' right' seps') := by
  unfold funcTypeLoopBody; q_auto
theorem q_decorator [Plug] {o}  : RelQ (.pre o) (decoratorBody) (decoratorBody) := by
  unfold decoratorBody decoratorEnd; q_auto
theorem q_decorators [Plug] {o}  : RelQ (.pre o) (decoratorsBody) (decoratorsBody) := by
  unfold decoratorsBody; q_auto
theorem q_decoratorsLoop [Plug] {o} (s s' : Nat) (nodes nodes' : List Tree) (h0 : PL nodes nodes') : RelQ (.pre o) (decoratorsLoopBody s nodes) (decoratorsLoopBody s' nodes') := by
  unfold decoratorsLoopBody; q_auto
theorem q_decorated [Plug] {o}  : RelQ (.pre o) (decoratedBody) (decoratedBody) := by
  unfold decoratedBody; q_auto
theorem q_asyncFuncDef [Plug] {o}  : RelQ (.pre o) (asyncFuncDefBody) (asyncFuncDefBody) := by
  unfold asyncFuncDefBody; q_auto
theorem q_funcDef [Plug] {o}  : RelQ (.pre o) (funcDefBody) (funcDefBody) := by
  unfold funcDefBody; q_auto
theorem q_parameters [Plug] {o}  : RelQ (.pre o) (parametersBody) (parametersBody) := by
  unfold parametersBody; q_auto
theorem q_typedArgsList [Plug] {o}  : RelQ (.pre o) (typedArgsListBody) (typedArgsListBody) := by
  unfold typedArgsListBody; q_auto
theorem q_tfpDefAssign [Plug] {o}  : RelQ (.pre o) (tfpDefAssignBody) (tfpDefAssignBody) := by
  unfold tfpDefAssignBody; q_auto
theorem q_tfpDef [Plug] {o}  : RelQ (.pre o) (tfpDefBody) (tfpDefBody) := by
  unfold tfpDefBody; q_auto
theorem q_funcBodySuite [Plug] {o}  : RelQ (.pre o) (funcBodySuiteBody) (funcBodySuiteBody) := by
  unfold funcBodySuiteBody funcBodyIndent; q_auto
theorem q_funcBodyLoop [Plug] {o} (s s' : Nat) (sym1 sym1' : Token) (tc tc' : Tree) (tcnl tcnl' : Tree) (sym2 sym2' : Token) (nodes nodes' : List Tree) (h0 : sym1.bare = sym1'.bare) (h1 : PT tc tc') (h2 : PT tcnl tcnl') (h3 : sym2.bare = sym2'.bare) (h4 : PL nodes nodes') : RelQ (.pre o) (funcBodyLoopBody s sym1 tc tcnl sym2 nodes) (funcBodyLoopBody s' sym1' tc' tcnl' sym2' nodes') := by
  unfold funcBodyLoopBody; q_auto
theorem q_classDef [Plug] {o}  : RelQ (.pre o) (classDefBody) (classDefBody) := by
  unfold classDefBody classRest; q_auto
theorem q_funcType [Plug] {o}  : RelQ (.pre o) (funcTypeBody) (funcTypeBody) := by
  unfold funcTypeBody; q_auto
theorem q_typeList [Plug] {o}  : RelQ (.pre o) (typeListBody) (typeListBody) := by
  unfold typeListBody typeListMul typeListPower typeListResult; q_auto
theorem q_typeListMainLoop [Plug] {o} (s s' : Nat) (v v' : VA) (h0 : PV v v') : RelQ (.pre o) (typeListMainLoopBody s v) (typeListMainLoopBody s' v') := by
  obtain ⟨_, _, _, _, _, _, _⟩ := id h0
  unfold typeListMainLoopBody typeListMul typeListPower typeListResult; q_auto
theorem q_typeListStarLoop [Plug] {o} (s s' : Nat) (v v' : VA) (h0 : PV v v') : RelQ (.pre o) (typeListStarLoopBody s v) (typeListStarLoopBody s' v') := by
  obtain ⟨_, _, _, _, _, _, _⟩ := id h0
  unfold typeListStarLoopBody typeListPower typeListResult; q_auto
theorem q_evalInput [Plug] {o}  : RelQ (.pre o) (evalInputBody) (evalInputBody) := by
  unfold evalInputBody; q_auto
theorem q_fileInput [Plug] {o}  : RelQ (.pre o) (fileInputBody) (fileInputBody) := by
  unfold fileInputBody; q_auto
theorem q_singleInput [Plug] {o}  : RelQ (.pre o) (singleInputBody) (singleInputBody) := by
  unfold singleInputBody singleNewline; q_auto
theorem q_funcTypeInput [Plug] {o}  : RelQ (.pre o) (funcTypeInputBody) (funcTypeInputBody) := by
  unfold funcTypeInputBody; q_auto
theorem q_patternsMatch [Plug] {o}  : RelQ (.pre o) (patternsMatchBody) (patternsMatchBody) := by
  unfold patternsMatchBody; q_auto

end Verif
