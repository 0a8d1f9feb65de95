import Verif.Proof.ViableExpr
import Verif.Proof.ViableExpr2
import Verif.Proof.ViableList
import Verif.Proof.ViableList2
import Verif.Proof.ViableStmt
import Verif.Proof.ViableStmt4

/-!
# Failing runs: all functions
-/

namespace Verif
open Prog XR
set_option linter.unusedSectionVars false

section
variable [Uni]

theorem wf_any {α : Type} {Φ : Fn → PSt → Tree → PSt → Prop} {Ψ : Fn → PSt → PSt → Prop} {E : PSt → Prop} (p : Prog α) {c : PSt}
    (hE : ∀ d, E d) : WF Φ Ψ E p c (fun _ _ => True) := by
  induction p generalizing c with
  | ret a => trivial
  | fail => exact hE _
  | panic => trivial
  | getPos k ih | getExc k ih => exact ih _
  | adv k ih | setExc x k ih => exact ih
  | sym k e ih1 ih2 => exact ⟨fun t _ => ih1 t, fun _ _ => ih2⟩
  | call f k ih => exact ⟨fun d _ => hE d, fun t c1 _ => ih t⟩

theorem vf_lift {p : Prog Tree} {f c} (h : VF p f c) : VF2 p f c := wf_calls p (fun _ _ _ _ h => h.1) h

theorem vf_body (f c) : VF2 (body f) f c := by
  cases f with
  | atom => exact vf_lift (vf_atom c)
  | atomStrLoop a0 a1 => exact vf_lift (vf_atomStrLoop a0 a1 c)
  | atomExpr => exact vf_lift (vf_atomExpr c)
  | trailerLoop a0 a1 a2 a3 => exact vf_lift (vf_trailerLoop a0 a1 a2 a3 c)
  | power => exact vf_lift (vf_power c)
  | factor => exact vf_lift (vf_factor c)
  | term => exact vf_lift (vf_term c)
  | termLoop a0 a1 => exact vf_lift (vf_termLoop a0 a1 c)
  | arith => exact vf_lift (vf_arith c)
  | arithLoop a0 a1 => exact vf_lift (vf_arithLoop a0 a1 c)
  | shift => exact vf_lift (vf_shift c)
  | shiftLoop a0 a1 => exact vf_lift (vf_shiftLoop a0 a1 c)
  | andExpr => exact vf_lift (vf_andExpr c)
  | andExprLoop a0 a1 => exact vf_lift (vf_andExprLoop a0 a1 c)
  | xorExpr => exact vf_lift (vf_xorExpr c)
  | xorExprLoop a0 a1 => exact vf_lift (vf_xorExprLoop a0 a1 c)
  | expr => exact vf_lift (vf_expr c)
  | exprLoop a0 a1 => exact vf_lift (vf_exprLoop a0 a1 c)
  | starExpr => exact vf_lift (vf_starExpr c)
  | comparison => exact vf_lift (vf_comparison c)
  | comparisonLoop a0 a1 => exact vf_lift (vf_comparisonLoop a0 a1 c)
  | notTest => exact vf_lift (vf_notTest c)
  | andTest => exact vf_lift (vf_andTest c)
  | andTestLoop a0 a1 => exact vf_lift (vf_andTestLoop a0 a1 c)
  | orTest => exact vf_lift (vf_orTest c)
  | orTestLoop a0 a1 => exact vf_lift (vf_orTestLoop a0 a1 c)
  | lambdaDef a0 => exact vf_lift (vf_lambdaDef a0 c)
  | noCondTest => exact vf_lift (vf_noCondTest c)
  | test => exact vf_lift (vf_test c)
  | namedExpression => exact vf_lift (vf_namedExpression c)
  | testlistComp => exact vf_lift (vf_testlistComp c)
  | testlistCompLoop a0 a1 a2 => exact vf_lift (vf_testlistCompLoop a0 a1 a2 c)
  | trailer => exact vf_lift (vf_trailer c)
  | subscriptList => exact vf_lift (vf_subscriptList c)
  | subscriptListLoop a0 a1 a2 => exact vf_lift (vf_subscriptListLoop a0 a1 a2 c)
  | subscript => exact vf_lift (vf_subscript c)
  | exprlist => exact vf_lift (vf_exprlist c)
  | exprlistLoop a0 a1 a2 => exact vf_lift (vf_exprlistLoop a0 a1 a2 c)
  | testlist => exact vf_lift (vf_testlist c)
  | testlistLoop a0 a1 a2 => exact vf_lift (vf_testlistLoop a0 a1 a2 c)
  | dictorsetMaker => exact vf_lift (vf_dictorsetMaker c)
  | setLoop a0 a1 a2 => exact vf_lift (vf_setLoop a0 a1 a2 c)
  | arglist => exact vf_arglist c
  | arglistLoop a0 a1 a2 => exact vf_arglistLoop a0 a1 a2 c
  | argument => exact vf_argument c
  | compIter => exact vf_lift (vf_compIter c)
  | syncCompFor => exact vf_lift (vf_syncCompFor c)
  | compFor => exact vf_lift (vf_compFor c)
  | compIf => exact vf_lift (vf_compIf c)
  | yieldExpr => exact vf_lift (vf_yieldExpr c)
  | testlistStarExpr => exact vf_lift (vf_testlistStarExpr c)
  | testlistStarExprLoop a0 a1 a2 => exact vf_lift (vf_testlistStarExprLoop a0 a1 a2 c)
  | varArgsList => exact vf_lift (vf_varArgsList c)
  | varArgsMainLoop a0 a1 => exact vf_lift (vf_varArgsMainLoop a0 a1 c)
  | varArgsStarLoop a0 a1 => exact vf_lift (vf_varArgsStarLoop a0 a1 c)
  | varArgsDivLoop a0 a1 => exact vf_lift (vf_varArgsDivLoop a0 a1 c)
  | varArgsAssignments => exact vf_lift (vf_varArgsAssignments c)
  | vfpDef => exact vf_lift (vf_vfpDef c)
  | stmt => exact vf_lift (vf_stmt c)
  | simpleStmt => exact vf_simpleStmt c
  | simpleStmtLoop a0 a1 a2 => exact vf_simpleStmtLoop a0 a1 a2 c
  | smallStmt => exact vf_lift (vf_smallStmt c)
  | exprStmt => exact vf_lift (vf_exprStmt c)
  | assignLoop a0 a1 a2 => exact vf_lift (vf_assignLoop a0 a1 a2 c)
  | annAssign a0 a1 => exact vf_lift (vf_annAssign a0 a1 c)
  | delStmt => exact vf_lift (vf_delStmt c)
  | passStmt => exact vf_lift (vf_passStmt c)
  | flowStmt => exact vf_lift (vf_flowStmt c)
  | breakStmt => exact vf_lift (vf_breakStmt c)
  | continueStmt => exact vf_lift (vf_continueStmt c)
  | returnStmt => exact vf_lift (vf_returnStmt c)
  | yieldStmt => exact vf_lift (vf_yieldStmt c)
  | raiseStmt => exact vf_lift (vf_raiseStmt c)
  | importStmt => exact vf_lift (vf_importStmt c)
  | importName => exact wf_any _ fun _ => trivial
  | importFrom => exact vf_lift (vf_importFrom c)
  | importDotLoop a0 a1 a2 => exact vf_lift (vf_importDotLoop a0 a1 a2 c)
  | importAsName => exact vf_lift (vf_importAsName c)
  | dottedAsName => exact wf_any _ fun _ => trivial
  | importAsNames => exact vf_lift (vf_importAsNames c)
  | importAsNamesLoop a0 a1 a2 => exact vf_lift (vf_importAsNamesLoop a0 a1 a2 c)
  | dottedAsNames => exact wf_any _ fun _ => trivial
  | dottedAsNamesLoop a0 a1 a2 => exact wf_any _ fun _ => trivial
  | dottedName => exact vf_lift (vf_dottedName c)
  | dottedNameLoop a0 a1 a2 => exact vf_lift (vf_dottedNameLoop a0 a1 a2 c)
  | globalStmt => exact vf_lift (vf_globalStmt c)
  | globalLoop a0 a1 a2 a3 => exact vf_lift (vf_globalLoop a0 a1 a2 a3 c)
  | nonlocalStmt => exact vf_lift (vf_nonlocalStmt c)
  | nonlocalLoop a0 a1 a2 a3 => exact vf_lift (vf_nonlocalLoop a0 a1 a2 a3 c)
  | assertStmt => exact vf_lift (vf_assertStmt c)
  | compoundStmt => exact vf_lift (vf_compoundStmt c)
  | asyncStmt => exact vf_lift (vf_asyncStmt c)
  | ifStmt => exact vf_lift (vf_ifStmt c)
  | ifLoop a0 a1 a2 a3 a4 a5 => exact vf_lift (vf_ifLoop a0 a1 a2 a3 a4 a5 c)
  | elifStmt => exact vf_lift (vf_elifStmt c)
  | elseStmt => exact vf_lift (vf_elseStmt c)
  | whileStmt => exact vf_lift (vf_whileStmt c)
  | forStmt => exact vf_lift (vf_forStmt c)
  | tryStmt => exact vf_lift (vf_tryStmt c)
  | tryLoop a0 a1 a2 a3 a4 => exact vf_lift (vf_tryLoop a0 a1 a2 a3 a4 c)
  | finallyStmt => exact vf_lift (vf_finallyStmt c)
  | withStmt => exact vf_lift (vf_withStmt c)
  | withParenLoop a0 a1 a2 a3 a4 => exact vf_lift (vf_withParenLoop a0 a1 a2 a3 a4 c)
  | withLoop a0 a1 a2 a3 => exact vf_lift (vf_withLoop a0 a1 a2 a3 c)
  | withItem => exact vf_lift (vf_withItem c)
  | exceptStmt => exact vf_lift (vf_exceptStmt c)
  | exceptClause => exact vf_lift (vf_exceptClause c)
  | suite => exact vf_lift (vf_suite c)
  | suiteLoop a0 a1 a2 a3 => exact vf_lift (vf_suiteLoop a0 a1 a2 a3 c)
  | evalInput => exact vf_lift (vf_evalInput c)
  | evalLoop a0 a1 a2 => exact vf_lift (vf_evalLoop a0 a1 a2 c)
  | fileInput => exact vf_lift (vf_fileInput c)
  | fileLoop a0 a1 a2 => exact vf_lift (vf_fileLoop a0 a1 a2 c)
  | singleInput => exact vf_lift (vf_singleInput c)
  | funcTypeInput => exact vf_lift (vf_funcTypeInput c)
  | funcTypeLoop a0 a1 a2 => exact vf_lift (vf_funcTypeLoop a0 a1 a2 c)
  | decorator => exact vf_decorator c
  | decorators => exact vf_decorators c
  | decoratorsLoop a0 a1 => exact vf_decoratorsLoop a0 a1 c
  | decorated => exact vf_decorated c
  | asyncFuncDef => exact wf_any _ fun _ => trivial
  | funcDef => exact vf_lift (vf_funcDef c)
  | parameters => exact vf_lift (vf_parameters c)
  | typedArgsList => exact vf_lift (p := typedArgsListBody) (by unfold typedArgsListBody; vf_simp)
  | tfpDefAssign => exact wf_any _ fun _ => trivial
  | tfpDef => exact wf_any _ fun _ => trivial
  | funcBodySuite => exact vf_lift (vf_funcBodySuite c)
  | funcBodyLoop a0 a1 a2 a3 a4 a5 => exact vf_lift (vf_funcBodyLoop a0 a1 a2 a3 a4 a5 c)
  | classDef => exact vf_lift (vf_classDef c)
  | funcType => exact vf_lift (vf_funcType c)
  | typeList => exact vf_lift (vf_typeList c)
  | typeListMainLoop a0 a1 => exact vf_lift (vf_typeListMainLoop a0 a1 c)
  | typeListStarLoop a0 a1 => exact vf_lift (vf_typeListStarLoop a0 a1 c)
  | patternsMatch => exact vf_lift (p := patternsMatchBody) (by unfold patternsMatchBody; vf_simp)

/-- Where a run fails. -/
theorem run_viable {n f c p m} (h : run n f c = .err p m) : ΨV f c (runStop n f c) :=
  run_fails run_known vf_body n f c p m h

end

end Verif
