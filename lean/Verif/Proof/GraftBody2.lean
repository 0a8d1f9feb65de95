import Verif.Proof.GraftStep

/-!
# Every parse function does the same with two bodies of a block, second part
-/
set_option linter.unusedSimpArgs false
set_option linter.unusedVariables false
namespace Verif
open Prog Graft
theorem g_returnStmt [Graft] {b o}  : RelG b o (returnStmtBody) (returnStmtBody) := by
  unfold returnStmtBody; g_auto
theorem g_yieldStmt [Graft] {b o}  : RelG b o (yieldStmtBody) (yieldStmtBody) := by
  unfold yieldStmtBody; g_auto
theorem g_raiseStmt [Graft] {b o}  : RelG b o (raiseStmtBody) (raiseStmtBody) := by
  unfold raiseStmtBody; g_auto
theorem g_importStmt [Graft] {b o}  : RelG b o (importStmtBody) (importStmtBody) := by
  unfold importStmtBody; g_auto
theorem g_importName [Graft] {b o}  : RelG b o (importNameBody) (importNameBody) := by
  unfold importNameBody; g_auto
theorem g_importFrom [Graft] {b o}  : RelG b o (importFromBody) (importFromBody) := by
  unfold importFromBody; g_auto
theorem g_importDotLoop [Graft] {b o} (s s' : Nat) (sym1 sym1' : Token) (dots dots' : List Token) (h0 : sym1.bare = sym1'.bare) (h1 : dots.map Token.bare = dots'.map Token.bare) : RelG b o (importDotLoopBody s sym1 dots) (importDotLoopBody s' sym1' dots') := by
  have hlen : dots.reverse.length = 0 ↔ dots'.reverse.length = 0 := by have := congrArg List.length h1; simp only [List.length_map] at this; simp only [List.length_reverse, this]
  unfold importDotLoopBody importFromRest; g_auto
  all_goals first | exact hlen.1 | exact hlen.2
theorem g_importAsName [Graft] {b o}  : RelG b o (importAsNameBody) (importAsNameBody) := by
  unfold importAsNameBody; g_auto
theorem g_dottedAsName [Graft] {b o}  : RelG b o (dottedAsNameBody) (dottedAsNameBody) := by
  unfold dottedAsNameBody; g_auto
theorem g_importAsNames [Graft] {b o}  : RelG b o (importAsNamesBody) (importAsNamesBody) := by
  unfold importAsNamesBody; g_auto
theorem g_importAsNamesLoop [Graft] {b o} (s s' : Nat) (nodes nodes' : List Tree) (seps seps' : List Token) (h0 : GL nodes nodes') (h1 : seps.map Token.bare = seps'.map Token.bare) : RelG b o (importAsNamesLoopBody s nodes seps) (importAsNamesLoopBody s' nodes' seps') := by
  unfold importAsNamesLoopBody; g_auto
theorem g_dottedAsNames [Graft] {b o}  : RelG b o (dottedAsNamesBody) (dottedAsNamesBody) := by
  unfold dottedAsNamesBody; g_auto
theorem g_dottedAsNamesLoop [Graft] {b o} (s s' : Nat) (nodes nodes' : List Tree) (seps seps' : List Token) (h0 : GL nodes nodes') (h1 : seps.map Token.bare = seps'.map Token.bare) : RelG b o (dottedAsNamesLoopBody s nodes seps) (dottedAsNamesLoopBody s' nodes' seps') := by
  unfold dottedAsNamesLoopBody; g_auto
theorem g_dottedName [Graft] {b o}  : RelG b o (dottedNameBody) (dottedNameBody) := by
  unfold dottedNameBody; g_auto
theorem g_dottedNameLoop [Graft] {b o} (s s' : Nat) (nodes nodes' : List Token) (seps seps' : List Token) (h0 : nodes.map Token.bare = nodes'.map Token.bare) (h1 : seps.map Token.bare = seps'.map Token.bare) : RelG b o (dottedNameLoopBody s nodes seps) (dottedNameLoopBody s' nodes' seps') := by
  unfold dottedNameLoopBody; g_auto
theorem g_globalStmt [Graft] {b o}  : RelG b o (globalStmtBody) (globalStmtBody) := by
  unfold globalStmtBody; g_auto

theorem g_globalLoop [Graft] {b o} (s s' : Nat) (sym sym' : Token) (nodes nodes' : List Token) (seps seps' : List Token) (h0 : sym.bare = sym'.bare) (h1 : nodes.map Token.bare = nodes'.map Token.bare) (h2 : seps.map Token.bare = seps'.map Token.bare) : RelG b o (globalLoopBody s sym nodes seps) (globalLoopBody s' sym' nodes' seps') := by
  unfold globalLoopBody; g_auto
theorem g_nonlocalStmt [Graft] {b o}  : RelG b o (nonlocalStmtBody) (nonlocalStmtBody) := by
  unfold nonlocalStmtBody; g_auto
theorem g_nonlocalLoop [Graft] {b o} (s s' : Nat) (sym sym' : Token) (nodes nodes' : List Token) (seps seps' : List Token) (h0 : sym.bare = sym'.bare) (h1 : nodes.map Token.bare = nodes'.map Token.bare) (h2 : seps.map Token.bare = seps'.map Token.bare) : RelG b o (nonlocalLoopBody s sym nodes seps) (nonlocalLoopBody s' sym' nodes' seps') := by
  unfold nonlocalLoopBody; g_auto
theorem g_assertStmt [Graft] {b o}  : RelG b o (assertStmtBody) (assertStmtBody) := by
  unfold assertStmtBody; g_auto
theorem g_compoundStmt [Graft] {b o}  : RelG b o (compoundStmtBody) (compoundStmtBody) := by
  unfold compoundStmtBody; g_auto
theorem g_asyncStmt [Graft] {b o}  : RelG b o (asyncStmtBody) (asyncStmtBody) := by
  unfold asyncStmtBody; g_auto
theorem g_ifStmt [Graft] {b o}  : RelG b o (ifStmtBody) (ifStmtBody) := by
  unfold ifStmtBody; g_auto
theorem g_ifLoop [Graft] {b o} (s s' : Nat) (sym1 sym1' : Token) (left left' : Tree) (sym2 sym2' : Token) (right right' : Tree) (nodes nodes' : List Tree) (h0 : sym1.bare = sym1'.bare) (h1 : GT left left') (h2 : sym2.bare = sym2'.bare) (h3 : GT right right') (h4 : GL nodes nodes') : RelG b o (ifLoopBody s sym1 left sym2 right nodes) (ifLoopBody s' sym1' left' sym2' right' nodes') := by
  unfold ifLoopBody; g_auto
theorem g_elifStmt [Graft] {b o}  : RelG b o (elifStmtBody) (elifStmtBody) := by
  unfold elifStmtBody; g_auto
theorem g_elseStmt [Graft] {b o}  : RelG b o (elseStmtBody) (elseStmtBody) := by
  unfold elseStmtBody; g_auto
theorem g_whileStmt [Graft] {b o}  : RelG b o (whileStmtBody) (whileStmtBody) := by
  unfold whileStmtBody; g_auto
theorem g_forStmt [Graft] {b o}  : RelG b o (forStmtBody) (forStmtBody) := by
  unfold forStmtBody; g_auto
theorem g_tryStmt [Graft] {b o}  : RelG b o (tryStmtBody) (tryStmtBody) := by
  unfold tryStmtBody; g_auto
theorem g_tryLoop [Graft] {b o} (s s' : Nat) (sym1 sym1' : Token) (sym2 sym2' : Token) (left left' : Tree) (nodes nodes' : List Tree) (h0 : sym1.bare = sym1'.bare) (h1 : sym2.bare = sym2'.bare) (h2 : GT left left') (h3 : GL nodes nodes') : RelG b o (tryLoopBody s sym1 sym2 left nodes) (tryLoopBody s' sym1' sym2' left' nodes') := by
  unfold tryLoopBody; g_auto
theorem g_finallyStmt [Graft] {b o}  : RelG b o (finallyStmtBody) (finallyStmtBody) := by
  unfold finallyStmtBody; g_auto
theorem g_withStmt [Graft] {b o}  : RelG b o (withStmtBody) (withStmtBody) := by
  unfold withStmtBody; g_auto
theorem g_withParenLoop [Graft] {b o} (s s' : Nat) (sym1 sym1' : Token) (lpar lpar' : Token) (nodes nodes' : List Tree) (seps seps' : List Token) (h0 : sym1.bare = sym1'.bare) (h1 : lpar.bare = lpar'.bare) (h2 : GL nodes nodes') (h3 : seps.map Token.bare = seps'.map Token.bare) : RelG b o (withParenLoopBody s sym1 lpar nodes seps) (withParenLoopBody s' sym1' lpar' nodes' seps') := by
  unfold withParenLoopBody withParenEnd withRest; g_auto
theorem g_withLoop [Graft] {b o} (s s' : Nat) (sym1 sym1' : Token) (nodes nodes' : List Tree) (seps seps' : List Token) (h0 : sym1.bare = sym1'.bare) (h1 : GL nodes nodes') (h2 : seps.map Token.bare = seps'.map Token.bare) : RelG b o (withLoopBody s sym1 nodes seps) (withLoopBody s' sym1' nodes' seps') := by
  unfold withLoopBody withRest; g_auto
theorem g_withItem [Graft] {b o}  : RelG b o (withItemBody) (withItemBody) := by
  unfold withItemBody; g_auto
theorem g_exceptStmt [Graft] {b o}  : RelG b o (exceptStmtBody) (exceptStmtBody) := by
  unfold exceptStmtBody; g_auto
theorem g_exceptClause [Graft] {b o}  : RelG b o (exceptClauseBody) (exceptClauseBody) := by
  unfold exceptClauseBody exceptStar; g_auto
theorem g_suiteLoop [Graft] {b o} (s s' : Nat) (sym1 sym1' : Token) (sym2 sym2' : Token) (nodes nodes' : List Tree) (hne : sym1 ≠ nl) (h0 : sym1.bare = sym1'.bare) (h1 : sym2.bare = sym2'.bare) (h2 : GL nodes nodes') : RelG b o (suiteLoopBody s sym1 sym2 nodes) (suiteLoopBody s' sym1' sym2' nodes') := by
  unfold suiteLoopBody; g_auto
theorem g_evalLoop [Graft] {b o} (s s' : Nat) (right right' : Tree) (seps seps' : List Token) (h0 : GT right right') (h1 : seps.map Token.bare = seps'.map Token.bare) : RelG b o (evalLoopBody s right seps) (evalLoopBody s' right' seps') := by
  unfold evalLoopBody; g_auto
theorem g_fileLoop [Graft] {b o} (s s' : Nat) (nodes nodes' : List Tree) (seps seps' : List Token) (h0 : GL nodes nodes') (h1 : seps.map Token.bare = seps'.map Token.bare) : RelG b o (fileLoopBody s nodes seps) (fileLoopBody s' nodes' seps') := by
  unfold fileLoopBody; g_auto
theorem g_funcTypeLoop [Graft] {b o} (s s' : Nat) (right right' : Tree) (seps seps' : List Token) (h0 : GT right right') (h1 : seps.map Token.bare = seps'.map Token.bare) : RelG b o (funcTypeLoopBody s right seps) (funcTypeLoopBody s' right' seps') := by
  unfold funcTypeLoopBody; g_auto
theorem g_decorator [Graft] {b o}  : RelG b o (decoratorBody) (decoratorBody) := by
  unfold decoratorBody decoratorEnd; g_auto
theorem g_decorators [Graft] {b o}  : RelG b o (decoratorsBody) (decoratorsBody) := by
  unfold decoratorsBody; g_auto
theorem g_decoratorsLoop [Graft] {b o} (s s' : Nat) (nodes nodes' : List Tree) (h0 : GL nodes nodes') : RelG b o (decoratorsLoopBody s nodes) (decoratorsLoopBody s' nodes') := by
  unfold decoratorsLoopBody; g_auto
theorem g_decorated [Graft] {b o}  : RelG b o (decoratedBody) (decoratedBody) := by
  unfold decoratedBody; g_auto
theorem g_asyncFuncDef [Graft] {b o}  : RelG b o (asyncFuncDefBody) (asyncFuncDefBody) := by
  unfold asyncFuncDefBody; g_auto
theorem g_funcDef [Graft] {b o}  : RelG b o (funcDefBody) (funcDefBody) := by
  unfold funcDefBody; g_auto
theorem g_parameters [Graft] {b o}  : RelG b o (parametersBody) (parametersBody) := by
  unfold parametersBody; g_auto
theorem g_typedArgsList [Graft] {b o}  : RelG b o (typedArgsListBody) (typedArgsListBody) := by
  unfold typedArgsListBody; g_auto
theorem g_tfpDefAssign [Graft] {b o}  : RelG b o (tfpDefAssignBody) (tfpDefAssignBody) := by
  unfold tfpDefAssignBody; g_auto
theorem g_tfpDef [Graft] {b o}  : RelG b o (tfpDefBody) (tfpDefBody) := by
  unfold tfpDefBody; g_auto
theorem g_funcBodyLoop [Graft] {b o} (s s' : Nat) (sym1 sym1' : Token) (tc tc' : Tree) (tcnl tcnl' : Tree) (sym2 sym2' : Token) (nodes nodes' : List Tree) (hne : sym1 ≠ nl) (h0 : sym1.bare = sym1'.bare) (h1 : GT tc tc') (h2 : GT tcnl tcnl') (h3 : sym2.bare = sym2'.bare) (h4 : GL nodes nodes') : RelG b o (funcBodyLoopBody s sym1 tc tcnl sym2 nodes) (funcBodyLoopBody s' sym1' tc' tcnl' sym2' nodes') := by
  unfold funcBodyLoopBody; g_auto
theorem g_classDef [Graft] {b o}  : RelG b o (classDefBody) (classDefBody) := by
  unfold classDefBody classRest; g_auto
theorem g_funcType [Graft] {b o}  : RelG b o (funcTypeBody) (funcTypeBody) := by
  unfold funcTypeBody; g_auto
theorem g_typeList [Graft] {b o}  : RelG b o (typeListBody) (typeListBody) := by
  unfold typeListBody typeListMul typeListPower typeListResult; g_auto
theorem g_typeListMainLoop [Graft] {b o} (s s' : Nat) (v v' : VA) (h0 : GV v v') : RelG b o (typeListMainLoopBody s v) (typeListMainLoopBody s' v') := by
  obtain ⟨_, _, _, _, _, _, _⟩ := id h0
  unfold typeListMainLoopBody typeListMul typeListPower typeListResult; g_auto
theorem g_typeListStarLoop [Graft] {b o} (s s' : Nat) (v v' : VA) (h0 : GV v v') : RelG b o (typeListStarLoopBody s v) (typeListStarLoopBody s' v') := by
  obtain ⟨_, _, _, _, _, _, _⟩ := id h0
  unfold typeListStarLoopBody typeListPower typeListResult; g_auto
theorem g_patternsMatch [Graft] {b o}  : RelG b o (patternsMatchBody) (patternsMatchBody) := by
  unfold patternsMatchBody; g_auto


end Verif
