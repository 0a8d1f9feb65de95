import Verif.Proof.GraftBody1
import Verif.Proof.GraftBody2

/-!
# Every parse function does the same with two bodies of a block: all of them
-/
set_option linter.unusedVariables false
namespace Verif
open Prog Graft

section
variable [Graft]

theorem g_suite {b} {t : Token} (ht : t ≠ nl) : RelG b (some t) suiteBody suiteBody := by
  unfold suiteBody
  refine g_here fun p q => .symAgain fun u h => ?_
  have hk := graft_bare_kind h
  refine g_ite (by rw [hk]) (fun h1 => .advNe (by rw [h1]; decide) ht ?_) (fun h1 => g_parseT rfl .simpleStmt)
  refine g_symAt fun t2 u2 h2 hk2 _ => g_ite (by rw [hk2]) (fun h1 => g_nextT ?_) fun h1 => .fail
  refine g_parse rfl .stmt fun x y hx => g_parseT rfl (.suiteLoop _ _ _ _ _ _ _ _ ht h h2 ?_)
  simp only [GL, graftList, eraseList, hx]

theorem g_funcBodyIndent {o s s' t t' tc tc' tn tn'} (ht : t ≠ nl) (h : t.bare = t'.bare) (h1 : GT tc tc') (h2 : GT tn tn') :
    RelG true o (funcBodyIndent s t tc tn) (funcBodyIndent s' t' tc' tn') := by
  unfold funcBodyIndent
  refine g_symAt fun t2 u2 h3 hk2 _ => g_ite (by rw [hk2]) (fun h4 => g_nextT ?_) fun h1 => .fail
  refine g_parse rfl .stmt fun x y hx => g_parseT rfl (.funcBodyLoop _ _ _ _ _ _ _ _ _ _ _ _ ht h h1 h2 h3 ?_)
  simp only [GL, graftList, eraseList, hx]

theorem g_funcBodySuite {b} {t : Token} (ht : t ≠ nl) : RelG b (some t) funcBodySuiteBody funcBodySuiteBody := by
  unfold funcBodySuiteBody
  refine g_here fun p q => .symAgain fun u h => ?_
  have hk := graft_bare_kind h
  refine g_ite (by rw [hk]) (fun h1 => .advNe (by rw [h1]; decide) ht ?_) (fun h1 => g_parseT rfl .simpleStmt)
  refine g_symAt fun t2 u2 h2 hk2 _ => g_ite (by rw [hk2]) (fun h1 => .advTC h1 fun t3 u3 h3 hn => ?_) fun h1 => ?_
  · refine g_ite (by rw [graft_bare_kind h3]) (fun h4 => .advNe (by rw [h4]; decide) hn (g_funcBodyIndent ht h ?_ ?_)) fun _ => .fail
    · simp only [GT, Tree.graft, Tree.erase, h2]
    · simp only [GT, Tree.graft, Tree.erase, h3]
  · exact g_funcBodyIndent ht h rfl rfl

theorem g_body {b o f g} (h : Fn.LikeG f g) (h1 : FnLooks f = true) (h2 : f ≠ .suite) (h3 : f ≠ .funcBodySuite) : RelG b o (body f) (body g) := by
  cases h with
  | suite => exact absurd rfl h2
  | funcBodySuite => exact absurd rfl h3
  | lambdaDef | evalInput | fileInput | singleInput | funcTypeInput => cases h1
  | atom => exact g_atom 
  | atomStrLoop s s' toks toks' g0 => exact g_atomStrLoop s s' toks toks' g0
  | atomExpr => exact g_atomExpr 
  | trailerLoop s s' await await' right right' lst lst' g0 g1 g2 => exact g_trailerLoop s s' await await' right right' lst lst' g0 g1 g2
  | power => exact g_power 
  | factor => exact g_factor 
  | term => exact g_term 
  | termLoop s s' left left' g0 => exact g_termLoop s s' left left' g0
  | arith => exact g_arith 
  | arithLoop s s' left left' g0 => exact g_arithLoop s s' left left' g0
  | shift => exact g_shift 
  | shiftLoop s s' left left' g0 => exact g_shiftLoop s s' left left' g0
  | andExpr => exact g_andExpr 
  | andExprLoop s s' left left' g0 => exact g_andExprLoop s s' left left' g0
  | xorExpr => exact g_xorExpr 
  | xorExprLoop s s' left left' g0 => exact g_xorExprLoop s s' left left' g0
  | expr => exact g_expr 
  | exprLoop s s' left left' g0 => exact g_exprLoop s s' left left' g0
  | starExpr => exact g_starExpr 
  | comparison => exact g_comparison 
  | comparisonLoop s s' left left' g0 => exact g_comparisonLoop s s' left left' g0
  | notTest => exact g_notTest 
  | andTest => exact g_andTest 
  | andTestLoop s s' left left' g0 => exact g_andTestLoop s s' left left' g0
  | orTest => exact g_orTest 
  | orTestLoop s s' left left' g0 => exact g_orTestLoop s s' left left' g0
  | noCondTest => exact g_noCondTest 
  | test => exact g_test 
  | namedExpression => exact g_namedExpression 
  | testlistComp => exact g_testlistComp 
  | testlistCompLoop s s' nodes nodes' seps seps' g0 g1 => exact g_testlistCompLoop s s' nodes nodes' seps seps' g0 g1
  | trailer => exact g_trailer 
  | subscriptList => exact g_subscriptList 
  | subscriptListLoop s s' nodes nodes' seps seps' g0 g1 => exact g_subscriptListLoop s s' nodes nodes' seps seps' g0 g1
  | subscript => exact g_subscript 
  | exprlist => exact g_exprlist 
  | exprlistLoop s s' nodes nodes' seps seps' g0 g1 => exact g_exprlistLoop s s' nodes nodes' seps seps' g0 g1
  | testlist => exact g_testlist 
  | testlistLoop s s' nodes nodes' seps seps' g0 g1 => exact g_testlistLoop s s' nodes nodes' seps seps' g0 g1
  | dictorsetMaker => exact g_dictorsetMaker 
  | setLoop s s' nodes nodes' seps seps' g0 g1 => exact g_setLoop s s' nodes nodes' seps seps' g0 g1
  | arglist => exact g_arglist 
  | arglistLoop s s' nodes nodes' seps seps' g0 g1 => exact g_arglistLoop s s' nodes nodes' seps seps' g0 g1
  | argument => exact g_argument 
  | compIter => exact g_compIter 
  | syncCompFor => exact g_syncCompFor 
  | compFor => exact g_compFor 
  | compIf => exact g_compIf 
  | yieldExpr => exact g_yieldExpr 
  | testlistStarExpr => exact g_testlistStarExpr 
  | testlistStarExprLoop s s' nodes nodes' seps seps' g0 g1 => exact g_testlistStarExprLoop s s' nodes nodes' seps seps' g0 g1
  | varArgsList => exact g_varArgsList 
  | varArgsMainLoop s s' v v' g0 => exact g_varArgsMainLoop s s' v v' g0
  | varArgsStarLoop s s' v v' g0 => exact g_varArgsStarLoop s s' v v' g0
  | varArgsDivLoop s s' v v' g0 => exact g_varArgsDivLoop s s' v v' g0
  | varArgsAssignments => exact g_varArgsAssignments 
  | vfpDef => exact g_vfpDef 
  | stmt => exact g_stmt 
  | simpleStmt => exact g_simpleStmt 
  | simpleStmtLoop s s' nodes nodes' seps seps' g0 g1 => exact g_simpleStmtLoop s s' nodes nodes' seps seps' g0 g1
  | smallStmt => exact g_smallStmt 
  | exprStmt => exact g_exprStmt 
  | assignLoop s s' left left' nodes nodes' g0 g1 => exact g_assignLoop s s' left left' nodes nodes' g0 g1
  | annAssign s s' left left' g0 => exact g_annAssign s s' left left' g0
  | delStmt => exact g_delStmt 
  | passStmt => exact g_passStmt 
  | flowStmt => exact g_flowStmt 
  | breakStmt => exact g_breakStmt 
  | continueStmt => exact g_continueStmt 
  | returnStmt => exact g_returnStmt 
  | yieldStmt => exact g_yieldStmt 
  | raiseStmt => exact g_raiseStmt 
  | importStmt => exact g_importStmt 
  | importName => exact g_importName 
  | importFrom => exact g_importFrom 
  | importDotLoop s s' sym1 sym1' dots dots' g0 g1 => exact g_importDotLoop s s' sym1 sym1' dots dots' g0 g1
  | importAsName => exact g_importAsName 
  | dottedAsName => exact g_dottedAsName 
  | importAsNames => exact g_importAsNames 
  | importAsNamesLoop s s' nodes nodes' seps seps' g0 g1 => exact g_importAsNamesLoop s s' nodes nodes' seps seps' g0 g1
  | dottedAsNames => exact g_dottedAsNames 
  | dottedAsNamesLoop s s' nodes nodes' seps seps' g0 g1 => exact g_dottedAsNamesLoop s s' nodes nodes' seps seps' g0 g1
  | dottedName => exact g_dottedName 
  | dottedNameLoop s s' nodes nodes' seps seps' g0 g1 => exact g_dottedNameLoop s s' nodes nodes' seps seps' g0 g1
  | globalStmt => exact g_globalStmt 
  | globalLoop s s' sym sym' nodes nodes' seps seps' g0 g1 g2 => exact g_globalLoop s s' sym sym' nodes nodes' seps seps' g0 g1 g2
  | nonlocalStmt => exact g_nonlocalStmt 
  | nonlocalLoop s s' sym sym' nodes nodes' seps seps' g0 g1 g2 => exact g_nonlocalLoop s s' sym sym' nodes nodes' seps seps' g0 g1 g2
  | assertStmt => exact g_assertStmt 
  | compoundStmt => exact g_compoundStmt 
  | asyncStmt => exact g_asyncStmt 
  | ifStmt => exact g_ifStmt 
  | ifLoop s s' sym1 sym1' left left' sym2 sym2' right right' nodes nodes' g0 g1 g2 g3 g4 => exact g_ifLoop s s' sym1 sym1' left left' sym2 sym2' right right' nodes nodes' g0 g1 g2 g3 g4
  | elifStmt => exact g_elifStmt 
  | elseStmt => exact g_elseStmt 
  | whileStmt => exact g_whileStmt 
  | forStmt => exact g_forStmt 
  | tryStmt => exact g_tryStmt 
  | tryLoop s s' sym1 sym1' sym2 sym2' left left' nodes nodes' g0 g1 g2 g3 => exact g_tryLoop s s' sym1 sym1' sym2 sym2' left left' nodes nodes' g0 g1 g2 g3
  | finallyStmt => exact g_finallyStmt 
  | withStmt => exact g_withStmt 
  | withParenLoop s s' sym1 sym1' lpar lpar' nodes nodes' seps seps' g0 g1 g2 g3 => exact g_withParenLoop s s' sym1 sym1' lpar lpar' nodes nodes' seps seps' g0 g1 g2 g3
  | withLoop s s' sym1 sym1' nodes nodes' seps seps' g0 g1 g2 => exact g_withLoop s s' sym1 sym1' nodes nodes' seps seps' g0 g1 g2
  | withItem => exact g_withItem 
  | exceptStmt => exact g_exceptStmt 
  | exceptClause => exact g_exceptClause 
  | suiteLoop s s' sym1 sym1' sym2 sym2' nodes nodes' g0 g1 g2 g3 => exact g_suiteLoop s s' sym1 sym1' sym2 sym2' nodes nodes' g0 g1 g2 g3
  | evalLoop s s' right right' seps seps' g0 g1 => exact g_evalLoop s s' right right' seps seps' g0 g1
  | fileLoop s s' nodes nodes' seps seps' g0 g1 => exact g_fileLoop s s' nodes nodes' seps seps' g0 g1
  | funcTypeLoop s s' right right' seps seps' g0 g1 => exact g_funcTypeLoop s s' right right' seps seps' g0 g1
  | decorator => exact g_decorator 
  | decorators => exact g_decorators 
  | decoratorsLoop s s' nodes nodes' g0 => exact g_decoratorsLoop s s' nodes nodes' g0
  | decorated => exact g_decorated 
  | asyncFuncDef => exact g_asyncFuncDef 
  | funcDef => exact g_funcDef 
  | parameters => exact g_parameters 
  | typedArgsList => exact g_typedArgsList 
  | tfpDefAssign => exact g_tfpDefAssign 
  | tfpDef => exact g_tfpDef 
  | funcBodyLoop s s' sym1 sym1' tc tc' tcnl tcnl' sym2 sym2' nodes nodes' g0 g1 g2 g3 g4 g5 => exact g_funcBodyLoop s s' sym1 sym1' tc tc' tcnl tcnl' sym2 sym2' nodes nodes' g0 g1 g2 g3 g4 g5
  | classDef => exact g_classDef 
  | funcType => exact g_funcType 
  | typeList => exact g_typeList 
  | typeListMainLoop s s' v v' g0 => exact g_typeListMainLoop s s' v v' g0
  | typeListStarLoop s s' v v' g0 => exact g_typeListStarLoop s s' v v' g0
  | patternsMatch => exact g_patternsMatch 

end
end Verif
