import Verif.Proof.AlikeAll
import Verif.Props.Layout

/-!
# Expressions do not use the `except` status, and depend on what they read up to positions
-/

namespace Verif
open Prog

/-- A body that does not use the `except` status, and calls only functions in `N`. -/
inductive Clean (N : Fn → Bool) {α : Type} : Prog α → Prop
  | ret {a} : Clean N (.ret a)
  | fail {p m} : Clean N (.fail p m)
  | panic : Clean N .panic
  | getPos {k} : (∀ p, Clean N (k p)) → Clean N (.getPos k)
  | sym {k x} : (∀ t, Clean N (k t)) → Clean N x → Clean N (.sym k x)
  | adv {k} : Clean N k → Clean N (.adv k)
  | call {f k} : N f = true → (∀ t, Clean N (k t)) → Clean N (.call f k)

/-- The functions of expressions. -/
def Fn.isExpr : Fn → Bool
  | .atom | .atomStrLoop .. | .atomExpr | .trailerLoop .. | .power | .factor | .term | .termLoop .. | .arith | .arithLoop ..
  | .shift | .shiftLoop .. | .andExpr | .andExprLoop .. | .xorExpr | .xorExprLoop .. | .expr | .exprLoop .. | .starExpr
  | .comparison | .comparisonLoop .. | .notTest | .andTest | .andTestLoop .. | .orTest | .orTestLoop .. | .lambdaDef _
  | .noCondTest | .test | .namedExpression | .testlistComp | .testlistCompLoop .. | .trailer | .subscriptList
  | .subscriptListLoop .. | .subscript | .exprlist | .exprlistLoop .. | .testlist | .testlistLoop .. | .dictorsetMaker
  | .setLoop .. | .arglist | .arglistLoop .. | .argument | .compIter | .syncCompFor | .compFor | .compIf | .yieldExpr
  | .testlistStarExpr | .testlistStarExprLoop .. | .varArgsList | .varArgsMainLoop .. | .varArgsStarLoop ..
  | .varArgsDivLoop .. | .varArgsAssignments | .vfpDef => true
  | _ => false

variable {N : Fn → Bool}

theorem clean_bind {α β : Type} {p : Prog α} {f : α → Prog β} (h : Clean N p) (h' : ∀ a, Clean N (f a)) : Clean N (p >>= f) := by
  induction h with
  | ret => exact h' _
  | fail => exact .fail
  | panic => exact .panic
  | getPos _ ih => exact .getPos ih
  | sym _ _ ih1 ih2 => exact .sym ih1 ih2
  | adv _ ih => exact .adv ih
  | call h _ ih => exact .call h ih
theorem clean_here : Clean N here := .getPos fun _ => .ret
theorem clean_next : Clean N next := .adv .ret
theorem clean_symAt {p s} : Clean N (symAt p s) := .sym (fun _ => .ret) .fail
theorem clean_symHere {s} : Clean N (symHere s) := .sym (fun _ => .ret) (.getPos fun _ => .fail)
theorem clean_sym? : Clean N sym? := .sym (fun _ => .ret) .ret
theorem clean_failHere {α : Type} {s} : Clean (α := α) N (failHere s) := .getPos fun _ => .fail
theorem clean_mk {t s l} : Clean N (Prog.mk t s l) := .getPos fun _ => .ret
theorem clean_parse {f} (h : N f = true) : Clean N (parse f) := .call h fun _ => .ret
theorem clean_pure {α : Type} {a : α} : Clean N (pure a) := .ret

theorem clean_ite {α : Type} {c : Prop} [Decidable c] {p q : Prog α} (h : Clean N p) (h' : Clean N q) : Clean N (if c then p else q) := by
  split <;> assumption
theorem clean_fin {s a b l} : Clean N (trailerLoopBody.fin s a b l) := by
  unfold trailerLoopBody.fin; split <;> first | exact clean_mk | exact clean_pure
theorem clean_listResult {t s l p} : Clean N (listResult t s l p) := by
  unfold listResult; split <;> first | exact clean_mk | exact clean_pure
theorem clean_starResult {s l p} : Clean N (testlistStarExprResult s l p) := by
  unfold testlistStarExprResult; split <;> first | exact clean_mk | exact clean_pure

macro "cl_step" : tactic => `(tactic| first
  | with_reducible exact clean_here | with_reducible exact clean_next | with_reducible exact clean_symAt
  | with_reducible exact clean_symHere | with_reducible exact clean_sym? | with_reducible exact clean_failHere
  | with_reducible exact clean_mk | ((with_reducible refine clean_parse ?_); rfl) | with_reducible exact clean_pure
  | with_reducible exact Clean.fail | with_reducible exact Clean.panic | with_reducible exact clean_fin
  | with_reducible exact clean_listResult | with_reducible exact clean_starResult
  | (with_reducible refine clean_bind ?_ ?_)
  | (with_reducible refine clean_ite ?_ ?_)
  | intro _
  | split
  | dsimp only)

theorem clean_atom : ∀ {x}, x = body (.atom) → Clean Fn.isExpr x := by
  rintro _ rfl; dsimp only [body]; unfold atomBody; repeat cl_step
theorem clean_atomStrLoop : ∀ {x}, x = body (.atomStrLoop a0 a1) → Clean Fn.isExpr x := by
  rintro _ rfl; dsimp only [body]; unfold atomStrLoopBody; repeat cl_step
theorem clean_atomExpr : ∀ {x}, x = body (.atomExpr) → Clean Fn.isExpr x := by
  rintro _ rfl; dsimp only [body]; unfold atomExprBody; repeat cl_step
theorem clean_trailerLoop : ∀ {x}, x = body (.trailerLoop a0 a1 a2 a3) → Clean Fn.isExpr x := by
  rintro _ rfl; dsimp only [body]; unfold trailerLoopBody; repeat cl_step
theorem clean_power : ∀ {x}, x = body (.power) → Clean Fn.isExpr x := by
  rintro _ rfl; dsimp only [body]; unfold powerBody; repeat cl_step
theorem clean_factor : ∀ {x}, x = body (.factor) → Clean Fn.isExpr x := by
  rintro _ rfl; dsimp only [body]; unfold factorBody; repeat cl_step
theorem clean_term : ∀ {x}, x = body (.term) → Clean Fn.isExpr x := by
  rintro _ rfl; dsimp only [body]; unfold termBody; repeat cl_step
theorem clean_termLoop : ∀ {x}, x = body (.termLoop a0 a1) → Clean Fn.isExpr x := by
  rintro _ rfl; dsimp only [body]; unfold termLoopBody leftLoopBody; repeat cl_step
theorem clean_arith : ∀ {x}, x = body (.arith) → Clean Fn.isExpr x := by
  rintro _ rfl; dsimp only [body]; unfold arithBody; repeat cl_step
theorem clean_arithLoop : ∀ {x}, x = body (.arithLoop a0 a1) → Clean Fn.isExpr x := by
  rintro _ rfl; dsimp only [body]; unfold arithLoopBody leftLoopBody; repeat cl_step
theorem clean_shift : ∀ {x}, x = body (.shift) → Clean Fn.isExpr x := by
  rintro _ rfl; dsimp only [body]; unfold shiftBody; repeat cl_step
theorem clean_shiftLoop : ∀ {x}, x = body (.shiftLoop a0 a1) → Clean Fn.isExpr x := by
  rintro _ rfl; dsimp only [body]; unfold shiftLoopBody leftLoopBody; repeat cl_step
theorem clean_andExpr : ∀ {x}, x = body (.andExpr) → Clean Fn.isExpr x := by
  rintro _ rfl; dsimp only [body]; unfold andExprBody; repeat cl_step
theorem clean_andExprLoop : ∀ {x}, x = body (.andExprLoop a0 a1) → Clean Fn.isExpr x := by
  rintro _ rfl; dsimp only [body]; unfold andExprLoopBody leftLoopBody; repeat cl_step
theorem clean_xorExpr : ∀ {x}, x = body (.xorExpr) → Clean Fn.isExpr x := by
  rintro _ rfl; dsimp only [body]; unfold xorExprBody; repeat cl_step
theorem clean_xorExprLoop : ∀ {x}, x = body (.xorExprLoop a0 a1) → Clean Fn.isExpr x := by
  rintro _ rfl; dsimp only [body]; unfold xorExprLoopBody leftLoopBody; repeat cl_step
theorem clean_expr : ∀ {x}, x = body (.expr) → Clean Fn.isExpr x := by
  rintro _ rfl; dsimp only [body]; unfold exprBody; repeat cl_step
theorem clean_exprLoop : ∀ {x}, x = body (.exprLoop a0 a1) → Clean Fn.isExpr x := by
  rintro _ rfl; dsimp only [body]; unfold exprLoopBody leftLoopBody; repeat cl_step
theorem clean_starExpr : ∀ {x}, x = body (.starExpr) → Clean Fn.isExpr x := by
  rintro _ rfl; dsimp only [body]; unfold starExprBody; repeat cl_step
theorem clean_comparison : ∀ {x}, x = body (.comparison) → Clean Fn.isExpr x := by
  rintro _ rfl; dsimp only [body]; unfold comparisonBody; repeat cl_step
theorem clean_comparisonLoop : ∀ {x}, x = body (.comparisonLoop a0 a1) → Clean Fn.isExpr x := by
  rintro _ rfl; dsimp only [body]; unfold comparisonLoopBody; repeat cl_step
theorem clean_notTest : ∀ {x}, x = body (.notTest) → Clean Fn.isExpr x := by
  rintro _ rfl; dsimp only [body]; unfold notTestBody; repeat cl_step
theorem clean_andTest : ∀ {x}, x = body (.andTest) → Clean Fn.isExpr x := by
  rintro _ rfl; dsimp only [body]; unfold andTestBody; repeat cl_step
theorem clean_andTestLoop : ∀ {x}, x = body (.andTestLoop a0 a1) → Clean Fn.isExpr x := by
  rintro _ rfl; dsimp only [body]; unfold andTestLoopBody leftLoopBody; repeat cl_step
theorem clean_orTest : ∀ {x}, x = body (.orTest) → Clean Fn.isExpr x := by
  rintro _ rfl; dsimp only [body]; unfold orTestBody; repeat cl_step
theorem clean_orTestLoop : ∀ {x}, x = body (.orTestLoop a0 a1) → Clean Fn.isExpr x := by
  rintro _ rfl; dsimp only [body]; unfold orTestLoopBody leftLoopBody; repeat cl_step
theorem clean_lambdaDef : ∀ {x}, x = body (.lambdaDef a0) → Clean Fn.isExpr x := by
  rintro _ rfl; dsimp only [body]; unfold lambdaDefBody; repeat cl_step
theorem clean_noCondTest : ∀ {x}, x = body (.noCondTest) → Clean Fn.isExpr x := by
  rintro _ rfl; dsimp only [body]; unfold noCondTestBody; repeat cl_step
theorem clean_test : ∀ {x}, x = body (.test) → Clean Fn.isExpr x := by
  rintro _ rfl; dsimp only [body]; unfold testBody; repeat cl_step
theorem clean_namedExpression : ∀ {x}, x = body (.namedExpression) → Clean Fn.isExpr x := by
  rintro _ rfl; dsimp only [body]; unfold namedExpressionBody; repeat cl_step
theorem clean_testlistComp : ∀ {x}, x = body (.testlistComp) → Clean Fn.isExpr x := by
  rintro _ rfl; dsimp only [body]; unfold testlistCompBody starOrNamed; repeat cl_step
theorem clean_testlistCompLoop : ∀ {x}, x = body (.testlistCompLoop a0 a1 a2) → Clean Fn.isExpr x := by
  rintro _ rfl; dsimp only [body]; unfold testlistCompLoopBody starOrNamed; repeat cl_step
theorem clean_trailer : ∀ {x}, x = body (.trailer) → Clean Fn.isExpr x := by
  rintro _ rfl; dsimp only [body]; unfold trailerBody; repeat cl_step
theorem clean_subscriptList : ∀ {x}, x = body (.subscriptList) → Clean Fn.isExpr x := by
  rintro _ rfl; dsimp only [body]; unfold subscriptListBody; repeat cl_step
theorem clean_subscriptListLoop : ∀ {x}, x = body (.subscriptListLoop a0 a1 a2) → Clean Fn.isExpr x := by
  rintro _ rfl; dsimp only [body]; unfold subscriptListLoopBody; repeat cl_step
theorem clean_subscript : ∀ {x}, x = body (.subscript) → Clean Fn.isExpr x := by
  rintro _ rfl; dsimp only [body]; unfold subscriptBody; repeat cl_step
theorem clean_exprlist : ∀ {x}, x = body (.exprlist) → Clean Fn.isExpr x := by
  rintro _ rfl; dsimp only [body]; unfold exprlistBody starOrNamed; repeat cl_step
theorem clean_exprlistLoop : ∀ {x}, x = body (.exprlistLoop a0 a1 a2) → Clean Fn.isExpr x := by
  rintro _ rfl; dsimp only [body]; unfold exprlistLoopBody; repeat cl_step
theorem clean_testlist : ∀ {x}, x = body (.testlist) → Clean Fn.isExpr x := by
  rintro _ rfl; dsimp only [body]; unfold testlistBody; repeat cl_step
theorem clean_testlistLoop : ∀ {x}, x = body (.testlistLoop a0 a1 a2) → Clean Fn.isExpr x := by
  rintro _ rfl; dsimp only [body]; unfold testlistLoopBody; repeat cl_step
theorem clean_dictorsetMaker : ∀ {x}, x = body (.dictorsetMaker) → Clean Fn.isExpr x := by
  rintro _ rfl; dsimp only [body]; unfold dictorsetMakerBody dictRest dictRest.fin; repeat cl_step
theorem clean_setLoop : ∀ {x}, x = body (.setLoop a0 a1 a2) → Clean Fn.isExpr x := by
  rintro _ rfl; dsimp only [body]; unfold setLoopBody; repeat cl_step
theorem clean_arglist : ∀ {x}, x = body (.arglist) → Clean Fn.isExpr x := by
  rintro _ rfl; dsimp only [body]; unfold arglistBody; repeat cl_step
theorem clean_arglistLoop : ∀ {x}, x = body (.arglistLoop a0 a1 a2) → Clean Fn.isExpr x := by
  rintro _ rfl; dsimp only [body]; unfold arglistLoopBody; repeat cl_step
theorem clean_argument : ∀ {x}, x = body (.argument) → Clean Fn.isExpr x := by
  rintro _ rfl; dsimp only [body]; unfold argumentBody; repeat cl_step
theorem clean_compIter : ∀ {x}, x = body (.compIter) → Clean Fn.isExpr x := by
  rintro _ rfl; dsimp only [body]; unfold compIterBody; repeat cl_step
theorem clean_syncCompFor : ∀ {x}, x = body (.syncCompFor) → Clean Fn.isExpr x := by
  rintro _ rfl; dsimp only [body]; unfold syncCompForBody; repeat cl_step
theorem clean_compFor : ∀ {x}, x = body (.compFor) → Clean Fn.isExpr x := by
  rintro _ rfl; dsimp only [body]; unfold compForBody; repeat cl_step
theorem clean_compIf : ∀ {x}, x = body (.compIf) → Clean Fn.isExpr x := by
  rintro _ rfl; dsimp only [body]; unfold compIfBody; repeat cl_step
theorem clean_yieldExpr : ∀ {x}, x = body (.yieldExpr) → Clean Fn.isExpr x := by
  rintro _ rfl; dsimp only [body]; unfold yieldExprBody; repeat cl_step
theorem clean_testlistStarExpr : ∀ {x}, x = body (.testlistStarExpr) → Clean Fn.isExpr x := by
  rintro _ rfl; dsimp only [body]; unfold testlistStarExprBody; repeat cl_step
theorem clean_testlistStarExprLoop : ∀ {x}, x = body (.testlistStarExprLoop a0 a1 a2) → Clean Fn.isExpr x := by
  rintro _ rfl; dsimp only [body]; unfold testlistStarExprLoopBody; repeat cl_step
theorem clean_varArgsList : ∀ {x}, x = body (.varArgsList) → Clean Fn.isExpr x := by
  rintro _ rfl; dsimp only [body]; unfold varArgsListBody varArgsMul varArgsPower varArgsResult; repeat cl_step
theorem clean_varArgsMainLoop : ∀ {x}, x = body (.varArgsMainLoop a0 a1) → Clean Fn.isExpr x := by
  rintro _ rfl; dsimp only [body]; unfold varArgsMainLoopBody varArgsMul varArgsPower varArgsResult; repeat cl_step
theorem clean_varArgsStarLoop : ∀ {x}, x = body (.varArgsStarLoop a0 a1) → Clean Fn.isExpr x := by
  rintro _ rfl; dsimp only [body]; unfold varArgsStarLoopBody varArgsPower varArgsResult; repeat cl_step
theorem clean_varArgsDivLoop : ∀ {x}, x = body (.varArgsDivLoop a0 a1) → Clean Fn.isExpr x := by
  rintro _ rfl; dsimp only [body]; unfold varArgsDivLoopBody varArgsMul varArgsPower varArgsResult; repeat cl_step
theorem clean_varArgsAssignments : ∀ {x}, x = body (.varArgsAssignments) → Clean Fn.isExpr x := by
  rintro _ rfl; dsimp only [body]; unfold varArgsAssignmentsBody; repeat cl_step
theorem clean_vfpDef : ∀ {x}, x = body (.vfpDef) → Clean Fn.isExpr x := by
  rintro _ rfl; dsimp only [body]; unfold vfpDefBody; repeat cl_step

theorem clean_body {f : Fn} (h : f.isExpr = true) : Clean Fn.isExpr (body f) := by
  cases f <;> first | (simp [Fn.isExpr] at h; done) | skip
  case atom => exact clean_atom rfl
  case atomStrLoop => exact clean_atomStrLoop rfl
  case atomExpr => exact clean_atomExpr rfl
  case trailerLoop => exact clean_trailerLoop rfl
  case power => exact clean_power rfl
  case factor => exact clean_factor rfl
  case term => exact clean_term rfl
  case termLoop => exact clean_termLoop rfl
  case arith => exact clean_arith rfl
  case arithLoop => exact clean_arithLoop rfl
  case shift => exact clean_shift rfl
  case shiftLoop => exact clean_shiftLoop rfl
  case andExpr => exact clean_andExpr rfl
  case andExprLoop => exact clean_andExprLoop rfl
  case xorExpr => exact clean_xorExpr rfl
  case xorExprLoop => exact clean_xorExprLoop rfl
  case expr => exact clean_expr rfl
  case exprLoop => exact clean_exprLoop rfl
  case starExpr => exact clean_starExpr rfl
  case comparison => exact clean_comparison rfl
  case comparisonLoop => exact clean_comparisonLoop rfl
  case notTest => exact clean_notTest rfl
  case andTest => exact clean_andTest rfl
  case andTestLoop => exact clean_andTestLoop rfl
  case orTest => exact clean_orTest rfl
  case orTestLoop => exact clean_orTestLoop rfl
  case lambdaDef => exact clean_lambdaDef rfl
  case noCondTest => exact clean_noCondTest rfl
  case test => exact clean_test rfl
  case namedExpression => exact clean_namedExpression rfl
  case testlistComp => exact clean_testlistComp rfl
  case testlistCompLoop => exact clean_testlistCompLoop rfl
  case trailer => exact clean_trailer rfl
  case subscriptList => exact clean_subscriptList rfl
  case subscriptListLoop => exact clean_subscriptListLoop rfl
  case subscript => exact clean_subscript rfl
  case exprlist => exact clean_exprlist rfl
  case exprlistLoop => exact clean_exprlistLoop rfl
  case testlist => exact clean_testlist rfl
  case testlistLoop => exact clean_testlistLoop rfl
  case dictorsetMaker => exact clean_dictorsetMaker rfl
  case setLoop => exact clean_setLoop rfl
  case arglist => exact clean_arglist rfl
  case arglistLoop => exact clean_arglistLoop rfl
  case argument => exact clean_argument rfl
  case compIter => exact clean_compIter rfl
  case syncCompFor => exact clean_syncCompFor rfl
  case compFor => exact clean_compFor rfl
  case compIf => exact clean_compIf rfl
  case yieldExpr => exact clean_yieldExpr rfl
  case testlistStarExpr => exact clean_testlistStarExpr rfl
  case testlistStarExprLoop => exact clean_testlistStarExprLoop rfl
  case varArgsList => exact clean_varArgsList rfl
  case varArgsMainLoop => exact clean_varArgsMainLoop rfl
  case varArgsStarLoop => exact clean_varArgsStarLoop rfl
  case varArgsDivLoop => exact clean_varArgsDivLoop rfl
  case varArgsAssignments => exact clean_varArgsAssignments rfl
  case vfpDef => exact clean_vfpDef rfl

end Verif
