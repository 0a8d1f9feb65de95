import Verif.Proof.Shape

/-!
# Every node has the shape of its variant
-/

namespace Verif
open Prog Field Sch
set_option linter.unusedVariables false

section
variable [Uni]
attribute [local irreducible] WP PSt.advance

theorem sh_atomStrLoop (s ts c) : WP ΦS (atomStrLoopBody s ts) c (ΦS (.atomStrLoop s ts) c) := by
  unfold atomStrLoopBody ; sh_simp; sh_auto
theorem sh_lambdaDef (b c) : WP ΦS (lambdaDefBody b) c (ΦS (.lambdaDef b) c) := by
  unfold lambdaDefBody ; sh_simp; sh_auto
theorem sh_testlistCompLoop (s ns ss c) : WP ΦS (testlistCompLoopBody s ns ss) c (ΦS (.testlistCompLoop s ns ss) c) := by
  unfold testlistCompLoopBody starOrNamed; sh_simp; sh_auto
theorem sh_subscriptListLoop (s ns ss c) : WP ΦS (subscriptListLoopBody s ns ss) c (ΦS (.subscriptListLoop s ns ss) c) := by
  unfold subscriptListLoopBody ; sh_simp; sh_auto
theorem sh_setLoop (s ns ss c) : WP ΦS (setLoopBody s ns ss) c (ΦS (.setLoop s ns ss) c) := by
  unfold setLoopBody ; sh_simp; sh_auto
theorem sh_arglistLoop (s ns ss c) : WP ΦS (arglistLoopBody s ns ss) c (ΦS (.arglistLoop s ns ss) c) := by
  unfold arglistLoopBody ; sh_simp; sh_auto
theorem sh_simpleStmtLoop (s ns ss c) : WP ΦS (simpleStmtLoopBody s ns ss) c (ΦS (.simpleStmtLoop s ns ss) c) := by
  unfold simpleStmtLoopBody simpleStmtLoopBody.fin; sh_simp; sh_auto
theorem sh_importAsNamesLoop (s ns ss c) : WP ΦS (importAsNamesLoopBody s ns ss) c (ΦS (.importAsNamesLoop s ns ss) c) := by
  unfold importAsNamesLoopBody ; sh_simp; sh_auto
theorem sh_dottedAsNamesLoop (s ns ss c) : WP ΦS (dottedAsNamesLoopBody s ns ss) c (ΦS (.dottedAsNamesLoop s ns ss) c) := by
  unfold dottedAsNamesLoopBody ; sh_simp; sh_auto
theorem sh_dottedNameLoop (s ns ss c) : WP ΦS (dottedNameLoopBody s ns ss) c (ΦS (.dottedNameLoop s ns ss) c) := by
  unfold dottedNameLoopBody ; sh_simp; sh_auto
theorem sh_globalLoop (s g ns ss c) : WP ΦS (globalLoopBody s g ns ss) c (ΦS (.globalLoop s g ns ss) c) := by
  unfold globalLoopBody ; sh_simp; sh_auto
theorem sh_nonlocalLoop (s g ns ss c) : WP ΦS (nonlocalLoopBody s g ns ss) c (ΦS (.nonlocalLoop s g ns ss) c) := by
  unfold nonlocalLoopBody ; sh_simp; sh_auto
theorem sh_ifLoop (s t l t2 r ns c) : WP ΦS (ifLoopBody s t l t2 r ns) c (ΦS (.ifLoop s t l t2 r ns) c) := by
  unfold ifLoopBody ; sh_simp; sh_auto
theorem sh_tryLoop (s t t2 l ns c) : WP ΦS (tryLoopBody s t t2 l ns) c (ΦS (.tryLoop s t t2 l ns) c) := by
  unfold tryLoopBody ; sh_simp; sh_auto
theorem sh_withParenLoop (s t lp ns ss c) : WP ΦS (withParenLoopBody s t lp ns ss) c (ΦS (.withParenLoop s t lp ns ss) c) := by
  unfold withParenLoopBody withParenEnd withRest; sh_simp; sh_auto
theorem sh_withLoop (s t ns ss c) : WP ΦS (withLoopBody s t ns ss) c (ΦS (.withLoop s t ns ss) c) := by
  unfold withLoopBody withRest; sh_simp; sh_auto
theorem sh_suiteLoop (s t t2 ns c) : WP ΦS (suiteLoopBody s t t2 ns) c (ΦS (.suiteLoop s t t2 ns) c) := by
  unfold suiteLoopBody ; sh_simp; sh_auto
theorem sh_evalLoop (s r ss c) : WP ΦS (evalLoopBody s r ss) c (ΦS (.evalLoop s r ss) c) := by
  unfold evalLoopBody ; sh_simp; sh_auto
theorem sh_fileLoop (s ns ss c) : WP ΦS (fileLoopBody s ns ss) c (ΦS (.fileLoop s ns ss) c) := by
  unfold fileLoopBody ; sh_simp; sh_auto
theorem sh_funcTypeLoop (s r ss c) : WP ΦS (funcTypeLoopBody s r ss) c (ΦS (.funcTypeLoop s r ss) c) := by
  unfold funcTypeLoopBody ; sh_simp; sh_auto
theorem sh_decoratorsLoop (s ns c) : WP ΦS (decoratorsLoopBody s ns) c (ΦS (.decoratorsLoop s ns) c) := by
  unfold decoratorsLoopBody ; sh_simp; sh_auto
theorem sh_classDef (c) : WP ΦS classDefBody c (ΦS .classDef c) := by
  unfold classDefBody classRest; sh_simp; sh_auto
theorem sh_atom (c) : WP ΦS atomBody c (ΦS .atom c) := by
  unfold atomBody ; sh_simp; sh_auto
theorem sh_atomExpr (c) : WP ΦS atomExprBody c (ΦS .atomExpr c) := by
  unfold atomExprBody ; sh_simp; sh_auto
theorem sh_power (c) : WP ΦS powerBody c (ΦS .power c) := by
  unfold powerBody ; sh_simp; sh_auto
theorem sh_factor (c) : WP ΦS factorBody c (ΦS .factor c) := by
  unfold factorBody ; sh_simp; sh_auto
theorem sh_term (c) : WP ΦS termBody c (ΦS .term c) := by
  unfold termBody ; sh_simp; sh_auto
theorem sh_arith (c) : WP ΦS arithBody c (ΦS .arith c) := by
  unfold arithBody ; sh_simp; sh_auto
theorem sh_shift (c) : WP ΦS shiftBody c (ΦS .shift c) := by
  unfold shiftBody ; sh_simp; sh_auto
theorem sh_andExpr (c) : WP ΦS andExprBody c (ΦS .andExpr c) := by
  unfold andExprBody ; sh_simp; sh_auto
theorem sh_xorExpr (c) : WP ΦS xorExprBody c (ΦS .xorExpr c) := by
  unfold xorExprBody ; sh_simp; sh_auto
theorem sh_expr (c) : WP ΦS exprBody c (ΦS .expr c) := by
  unfold exprBody ; sh_simp; sh_auto
theorem sh_starExpr (c) : WP ΦS starExprBody c (ΦS .starExpr c) := by
  unfold starExprBody ; sh_simp; sh_auto
theorem sh_comparison (c) : WP ΦS comparisonBody c (ΦS .comparison c) := by
  unfold comparisonBody ; sh_simp; sh_auto
theorem sh_notTest (c) : WP ΦS notTestBody c (ΦS .notTest c) := by
  unfold notTestBody ; sh_simp; sh_auto
theorem sh_andTest (c) : WP ΦS andTestBody c (ΦS .andTest c) := by
  unfold andTestBody ; sh_simp; sh_auto
theorem sh_orTest (c) : WP ΦS orTestBody c (ΦS .orTest c) := by
  unfold orTestBody ; sh_simp; sh_auto
theorem sh_noCondTest (c) : WP ΦS noCondTestBody c (ΦS .noCondTest c) := by
  unfold noCondTestBody ; sh_simp; sh_auto
theorem sh_test (c) : WP ΦS testBody c (ΦS .test c) := by
  unfold testBody ; sh_simp; sh_auto
theorem sh_namedExpression (c) : WP ΦS namedExpressionBody c (ΦS .namedExpression c) := by
  unfold namedExpressionBody ; sh_simp; sh_auto
theorem sh_testlistComp (c) : WP ΦS testlistCompBody c (ΦS .testlistComp c) := by
  unfold testlistCompBody starOrNamed; sh_simp; sh_auto
theorem sh_trailer (c) : WP ΦS trailerBody c (ΦS .trailer c) := by
  unfold trailerBody ; sh_simp; sh_auto
theorem sh_subscriptList (c) : WP ΦS subscriptListBody c (ΦS .subscriptList c) := by
  unfold subscriptListBody ; sh_simp; sh_auto
theorem sh_subscript (c) : WP ΦS subscriptBody c (ΦS .subscript c) := by
  unfold subscriptBody ; sh_simp; sh_auto
theorem sh_exprlist (c) : WP ΦS exprlistBody c (ΦS .exprlist c) := by
  unfold exprlistBody starOrNamed; sh_simp; sh_auto
theorem sh_testlist (c) : WP ΦS testlistBody c (ΦS .testlist c) := by
  unfold testlistBody ; sh_simp; sh_auto
theorem sh_dictorsetMaker (c) : WP ΦS dictorsetMakerBody c (ΦS .dictorsetMaker c) := by
  unfold dictorsetMakerBody dictRest dictRest.fin; sh_simp; sh_auto
theorem sh_arglist (c) : WP ΦS arglistBody c (ΦS .arglist c) := by
  unfold arglistBody ; sh_simp; sh_auto
theorem sh_argument (c) : WP ΦS argumentBody c (ΦS .argument c) := by
  unfold argumentBody ; sh_simp; sh_auto
theorem sh_compIter (c) : WP ΦS compIterBody c (ΦS .compIter c) := by
  unfold compIterBody ; sh_simp; sh_auto
theorem sh_syncCompFor (c) : WP ΦS syncCompForBody c (ΦS .syncCompFor c) := by
  unfold syncCompForBody ; sh_simp; sh_auto
theorem sh_compFor (c) : WP ΦS compForBody c (ΦS .compFor c) := by
  unfold compForBody ; sh_simp; sh_auto
theorem sh_compIf (c) : WP ΦS compIfBody c (ΦS .compIf c) := by
  unfold compIfBody ; sh_simp; sh_auto
theorem sh_yieldExpr (c) : WP ΦS yieldExprBody c (ΦS .yieldExpr c) := by
  unfold yieldExprBody ; sh_simp; sh_auto
theorem sh_testlistStarExpr (c) : WP ΦS testlistStarExprBody c (ΦS .testlistStarExpr c) := by
  unfold testlistStarExprBody ; sh_simp; sh_auto
theorem sh_varArgsAssignments (c) : WP ΦS varArgsAssignmentsBody c (ΦS .varArgsAssignments c) := by
  unfold varArgsAssignmentsBody ; sh_simp; sh_auto
theorem sh_vfpDef (c) : WP ΦS vfpDefBody c (ΦS .vfpDef c) := by
  unfold vfpDefBody ; sh_simp; sh_auto
theorem sh_stmt (c) : WP ΦS stmtBody c (ΦS .stmt c) := by
  unfold stmtBody ; sh_simp; sh_auto
theorem sh_simpleStmt (c) : WP ΦS simpleStmtBody c (ΦS .simpleStmt c) := by
  unfold simpleStmtBody ; sh_simp; sh_auto
theorem sh_smallStmt (c) : WP ΦS smallStmtBody c (ΦS .smallStmt c) := by
  unfold smallStmtBody ; sh_simp; sh_auto
theorem sh_delStmt (c) : WP ΦS delStmtBody c (ΦS .delStmt c) := by
  unfold delStmtBody ; sh_simp; sh_auto
theorem sh_passStmt (c) : WP ΦS passStmtBody c (ΦS .passStmt c) := by
  unfold passStmtBody ; sh_simp; sh_auto
theorem sh_flowStmt (c) : WP ΦS flowStmtBody c (ΦS .flowStmt c) := by
  unfold flowStmtBody ; sh_simp; sh_auto
theorem sh_breakStmt (c) : WP ΦS breakStmtBody c (ΦS .breakStmt c) := by
  unfold breakStmtBody ; sh_simp; sh_auto
theorem sh_continueStmt (c) : WP ΦS continueStmtBody c (ΦS .continueStmt c) := by
  unfold continueStmtBody ; sh_simp; sh_auto
theorem sh_returnStmt (c) : WP ΦS returnStmtBody c (ΦS .returnStmt c) := by
  unfold returnStmtBody ; sh_simp; sh_auto
theorem sh_raiseStmt (c) : WP ΦS raiseStmtBody c (ΦS .raiseStmt c) := by
  unfold raiseStmtBody ; sh_simp; sh_auto
theorem sh_importStmt (c) : WP ΦS importStmtBody c (ΦS .importStmt c) := by
  unfold importStmtBody ; sh_simp; sh_auto
theorem sh_importName (c) : WP ΦS importNameBody c (ΦS .importName c) := by
  unfold importNameBody ; sh_simp; sh_auto
theorem sh_importFrom (c) : WP ΦS importFromBody c (ΦS .importFrom c) := by
  unfold importFromBody ; sh_simp; sh_auto
theorem sh_importAsName (c) : WP ΦS importAsNameBody c (ΦS .importAsName c) := by
  unfold importAsNameBody ; sh_simp; sh_auto
theorem sh_dottedAsName (c) : WP ΦS dottedAsNameBody c (ΦS .dottedAsName c) := by
  unfold dottedAsNameBody ; sh_simp; sh_auto
theorem sh_importAsNames (c) : WP ΦS importAsNamesBody c (ΦS .importAsNames c) := by
  unfold importAsNamesBody ; sh_simp; sh_auto
theorem sh_dottedAsNames (c) : WP ΦS dottedAsNamesBody c (ΦS .dottedAsNames c) := by
  unfold dottedAsNamesBody ; sh_simp; sh_auto
theorem sh_dottedName (c) : WP ΦS dottedNameBody c (ΦS .dottedName c) := by
  unfold dottedNameBody ; sh_simp; sh_auto
theorem sh_globalStmt (c) : WP ΦS globalStmtBody c (ΦS .globalStmt c) := by
  unfold globalStmtBody ; sh_simp; sh_auto
theorem sh_nonlocalStmt (c) : WP ΦS nonlocalStmtBody c (ΦS .nonlocalStmt c) := by
  unfold nonlocalStmtBody ; sh_simp; sh_auto
theorem sh_assertStmt (c) : WP ΦS assertStmtBody c (ΦS .assertStmt c) := by
  unfold assertStmtBody ; sh_simp; sh_auto
theorem sh_compoundStmt (c) : WP ΦS compoundStmtBody c (ΦS .compoundStmt c) := by
  unfold compoundStmtBody ; sh_simp; sh_auto
theorem sh_asyncStmt (c) : WP ΦS asyncStmtBody c (ΦS .asyncStmt c) := by
  unfold asyncStmtBody ; sh_simp; sh_auto
theorem sh_ifStmt (c) : WP ΦS ifStmtBody c (ΦS .ifStmt c) := by
  unfold ifStmtBody ; sh_simp; sh_auto
theorem sh_elifStmt (c) : WP ΦS elifStmtBody c (ΦS .elifStmt c) := by
  unfold elifStmtBody ; sh_simp; sh_auto
theorem sh_elseStmt (c) : WP ΦS elseStmtBody c (ΦS .elseStmt c) := by
  unfold elseStmtBody ; sh_simp; sh_auto
theorem sh_whileStmt (c) : WP ΦS whileStmtBody c (ΦS .whileStmt c) := by
  unfold whileStmtBody ; sh_simp; sh_auto
theorem sh_forStmt (c) : WP ΦS forStmtBody c (ΦS .forStmt c) := by
  unfold forStmtBody ; sh_simp; sh_auto
theorem sh_tryStmt (c) : WP ΦS tryStmtBody c (ΦS .tryStmt c) := by
  unfold tryStmtBody ; sh_simp; sh_auto
theorem sh_finallyStmt (c) : WP ΦS finallyStmtBody c (ΦS .finallyStmt c) := by
  unfold finallyStmtBody ; sh_simp; sh_auto
theorem sh_withStmt (c) : WP ΦS withStmtBody c (ΦS .withStmt c) := by
  unfold withStmtBody ; sh_simp; sh_auto
theorem sh_withItem (c) : WP ΦS withItemBody c (ΦS .withItem c) := by
  unfold withItemBody ; sh_simp; sh_auto
theorem sh_exceptStmt (c) : WP ΦS exceptStmtBody c (ΦS .exceptStmt c) := by
  unfold exceptStmtBody ; sh_simp; sh_auto
theorem sh_suite (c) : WP ΦS suiteBody c (ΦS .suite c) := by
  unfold suiteBody ; sh_simp; sh_auto
theorem sh_evalInput (c) : WP ΦS evalInputBody c (ΦS .evalInput c) := by
  unfold evalInputBody ; sh_simp; sh_auto
theorem sh_singleInput (c) : WP ΦS singleInputBody c (ΦS .singleInput c) := by
  unfold singleInputBody singleNewline; sh_simp; sh_auto
theorem sh_funcTypeInput (c) : WP ΦS funcTypeInputBody c (ΦS .funcTypeInput c) := by
  unfold funcTypeInputBody ; sh_simp; sh_auto
theorem sh_decorator (c) : WP ΦS decoratorBody c (ΦS .decorator c) := by
  unfold decoratorBody decoratorEnd; sh_simp; sh_auto
theorem sh_decorators (c) : WP ΦS decoratorsBody c (ΦS .decorators c) := by
  unfold decoratorsBody ; sh_simp; sh_auto
theorem sh_decorated (c) : WP ΦS decoratedBody c (ΦS .decorated c) := by
  unfold decoratedBody ; sh_simp; sh_auto
theorem sh_asyncFuncDef (c) : WP ΦS asyncFuncDefBody c (ΦS .asyncFuncDef c) := by
  unfold asyncFuncDefBody ; sh_simp; sh_auto
theorem sh_funcDef (c) : WP ΦS funcDefBody c (ΦS .funcDef c) := by
  unfold funcDefBody ; sh_simp; sh_auto
theorem sh_parameters (c) : WP ΦS parametersBody c (ΦS .parameters c) := by
  unfold parametersBody ; sh_simp; sh_auto
theorem sh_typedArgsList (c) : WP ΦS typedArgsListBody c (ΦS .typedArgsList c) := by
  unfold typedArgsListBody ; sh_simp; sh_auto
theorem sh_tfpDefAssign (c) : WP ΦS tfpDefAssignBody c (ΦS .tfpDefAssign c) := by
  unfold tfpDefAssignBody ; sh_simp; sh_auto
theorem sh_tfpDef (c) : WP ΦS tfpDefBody c (ΦS .tfpDef c) := by
  unfold tfpDefBody ; sh_simp; sh_auto
theorem sh_funcBodySuite (c) : WP ΦS funcBodySuiteBody c (ΦS .funcBodySuite c) := by
  unfold funcBodySuiteBody funcBodyIndent; sh_simp; sh_auto
theorem sh_funcType (c) : WP ΦS funcTypeBody c (ΦS .funcType c) := by
  unfold funcTypeBody ; sh_simp; sh_auto

/-! ### Functions that need more than symbolic execution -/

theorem wp_imp {α} {p : Prog α} {c} {P : Prop} {Q : α → PSt → Prop} (h : P → WP ΦS p c Q) :
    WP ΦS p c (fun a c' => P → Q a c') := by
  by_cases hp : P
  · exact wp_mono _ (fun _ _ h _ => h) (h hp)
  · exact wp_mono _ (fun _ _ _ h => absurd h hp) (wp_any p (Q := fun _ _ => True) fun _ _ => trivial)
theorem has_is1 (g x) : Has (is [g]) x ↔ x.tag? = some g := by
  simp only [has_is, List.mem_singleton, exists_eq_left]
theorem sh_left {op : Kind → Option Tag} {operand self msg} (lo hi : Nat)
    (h1 : ∀ k tag, op k = some tag → schema tag = bin lo k hi ∧ tag.strength = lo ∧ ∀ fs, seps tag fs)
    (h2 : ∀ c t c', ΦS operand c t c' → Sh (e hi) t)
    (h3 : ∀ s l c t c', ΦS (self s l) c t c' → Sh (e lo) l → Sh (e lo) t)
    (s left c) : WP ΦS (leftLoopBody op operand self msg s left) c (fun t c' => Sh (e lo) left → Sh (e lo) t) := by
  unfold leftLoopBody
  simp only [wp_bind, wp_symAt]
  intro t ht
  split
  · rename_i tag htag
    simp only [wp_bind, wp_next, wp_parse, wp_mk]
    intro x c1 hx y c2 hy hl
    obtain ⟨a, b, d⟩ := h1 _ _ htag
    obtain ⟨x1, x2⟩ := h2 _ _ _ hx
    obtain ⟨l1, l2⟩ := hl
    refine h3 _ _ _ _ _ hy ⟨?_, ?_⟩
    · simp only [all_node, NodeOk, a, bin, List.mem_singleton, exists_eq_left, HasAll, allIn_cons, all_tok, allIn_nil, k, has_t]
      exact ⟨⟨⟨l2, trivial, x2, trivial⟩, d _⟩, l1, trivial, x1, trivial⟩
    · rw [has_e, strength_node, b]; exact Nat.le_refl _
  · simp only [wp_pure]
    exact id

macro "op_shape" d:ident : tactic => `(tactic|
  (intro k tag h; unfold $d at h; split at h <;> simp at h <;> subst h <;> exact ⟨rfl, rfl, fun _ => trivial⟩))

theorem sh_termLoop (s l c) : WP ΦS (termLoopBody s l) c (ΦS (.termLoop s l) c) :=
  sh_left (operand := .factor) (self := .termLoop) 12 13 (by op_shape termOp) (fun _ _ _ h => h) (fun _ _ _ _ _ h => h) s l c
theorem sh_arithLoop (s l c) : WP ΦS (arithLoopBody s l) c (ΦS (.arithLoop s l) c) :=
  sh_left (operand := .term) (self := .arithLoop) 11 12 (by op_shape arithOp) (fun _ _ _ h => h) (fun _ _ _ _ _ h => h) s l c
theorem sh_shiftLoop (s l c) : WP ΦS (shiftLoopBody s l) c (ΦS (.shiftLoop s l) c) :=
  sh_left (operand := .arith) (self := .shiftLoop) 10 11 (by op_shape shiftOp) (fun _ _ _ h => h) (fun _ _ _ _ _ h => h) s l c
theorem sh_andExprLoop (s l c) : WP ΦS (andExprLoopBody s l) c (ΦS (.andExprLoop s l) c) :=
  sh_left (operand := .shift) (self := .andExprLoop) 9 10 (by op_shape andExprOp) (fun _ _ _ h => h) (fun _ _ _ _ _ h => h) s l c
theorem sh_xorExprLoop (s l c) : WP ΦS (xorExprLoopBody s l) c (ΦS (.xorExprLoop s l) c) :=
  sh_left (operand := .andExpr) (self := .xorExprLoop) 8 9 (by op_shape xorExprOp) (fun _ _ _ h => h) (fun _ _ _ _ _ h => h) s l c
theorem sh_exprLoop (s l c) : WP ΦS (exprLoopBody s l) c (ΦS (.exprLoop s l) c) :=
  sh_left (operand := .xorExpr) (self := .exprLoop) 7 8 (by op_shape exprOp) (fun _ _ _ h => h) (fun _ _ _ _ _ h => h) s l c
theorem sh_andTestLoop (s l c) : WP ΦS (andTestLoopBody s l) c (ΦS (.andTestLoop s l) c) :=
  sh_left (operand := .notTest) (self := .andTestLoop) 4 5 (by op_shape andTestOp) (fun _ _ _ h => h) (fun _ _ _ _ _ h => h) s l c
theorem sh_orTestLoop (s l c) : WP ΦS (orTestLoopBody s l) c (ΦS (.orTestLoop s l) c) :=
  sh_left (operand := .andTest) (self := .orTestLoop) 3 4 (by op_shape orTestOp) (fun _ _ _ h => h) (fun _ _ _ _ _ h => h) s l c

theorem sh_comparisonLoop (s l c) : WP ΦS (comparisonLoopBody s l) c (ΦS (.comparisonLoop s l) c) := by
  unfold comparisonLoopBody
  sh_simp
  intro t ht
  split
  · rename_i tag htag
    have h1 : schema tag = bin 6 t.kind 7 ∧ tag.strength = 6 ∧ ∀ fs, seps tag fs := by
      revert htag; generalize t.kind = x; revert tag x
      intro tag k h; unfold compOp at h; split at h <;> simp at h <;> subst h <;> exact ⟨rfl, rfl, fun _ => trivial⟩
    obtain ⟨a, b, d⟩ := h1
    sh_simp
    intro x c1 x1 x2 y c2 hy l1 l2
    refine hy ?_ ?_
    · simp only [all_node, NodeOk, a, bin, List.mem_singleton, exists_eq_left, HasAll, allIn_cons, all_tok, allIn_nil, k, has_t]
      exact ⟨⟨⟨l2, trivial, x2, trivial⟩, d _⟩, l1, trivial, x1, trivial⟩
    · rw [has_e, strength_node, b]; exact Nat.le_refl _
  · sh_simp; sh_auto

theorem sh_listResult {f : Field} {tag s ns ss c} (hs : schema tag = [[many1 f, commas]])
    (hp : ∀ a b, sepTrailing a b → ¬ (a.len = 1 ∧ b.len = 0) → seps tag [a, b])
    (h1 : ShL f ns) (h2 : Tk .PyComa ss) (h3 : SepOk c ns ss) :
    WP ΦS (listResult tag s ns ss) c (fun y c' => Sh (or f (is [tag])) y) := by
  obtain ⟨h4, h5⟩ := h3.len
  unfold listResult
  split
  · simp only [wp_pure]
    rw [shL_one] at h1
    exact ⟨h1.1, (has_or).2 (.inl h1.2)⟩
  · rename_i hn
    simp only [wp_mk]
    refine ⟨?_, ?_⟩
    · simp only [all_node, NodeOk, hs, List.mem_singleton, exists_eq_left, HasAll, allIn_cons, all_toks, allIn_nil, all_seq,
        commas, has_many1, has_many_toks]
      refine ⟨⟨⟨⟨h5, h1.2⟩, h2, trivial⟩, hp _ _ ?_ ?_⟩, h1.1, trivial, trivial⟩
      · simpa only [sepTrailing, len_seq, len_toks] using h4
      · rw [len_seq, len_toks]
        rintro ⟨a, b⟩
        obtain ⟨x, hx⟩ := List.length_eq_one_iff.1 a
        exact hn x hx (List.length_eq_zero_iff.1 b)
    · rw [has_or]; exact .inr (by simp only [has_is, tag_node, List.mem_singleton, exists_eq_left])

theorem sh_exprlistLoop (s ns ss c) : WP ΦS (exprlistLoopBody s ns ss) c (ΦS (.exprlistLoop s ns ss) c) := by
  unfold exprlistLoopBody
  sh_simp
  intro t ht
  refine ⟨?_, fun hk => wp_imp fun h1 => wp_imp fun h2 => wp_imp fun h3 => ?_⟩
  · sh_auto
  · exact sh_listResult rfl (fun _ _ a b => ⟨a, b⟩) h1 h2 h3
theorem sh_testlistLoop (s ns ss c) : WP ΦS (testlistLoopBody s ns ss) c (ΦS (.testlistLoop s ns ss) c) := by
  unfold testlistLoopBody
  sh_simp
  intro t ht
  refine ⟨?_, fun hk => wp_imp fun h1 => wp_imp fun h2 => wp_imp fun h3 => ?_⟩
  · sh_auto
  · exact sh_listResult rfl (fun _ _ a b => ⟨a, b⟩) h1 h2 h3
theorem sh_testlistStarExprLoop (s ns ss c) : WP ΦS (testlistStarExprLoopBody s ns ss) c (ΦS (.testlistStarExprLoop s ns ss) c) := by
  unfold testlistStarExprLoopBody
  sh_simp
  intro t ht
  refine ⟨?_, fun hk => wp_imp fun h1 => wp_imp fun h2 => wp_imp fun h3 => ?_⟩
  · sh_auto
  · have h := sh_listResult (s := s) (c := c) (tag := .TestListStarExpr) (f := starTest) rfl (fun _ _ a b => ⟨a, b⟩) (shL_rev.2 h1) (tk_rev.2 h2)
      (ss := ss.reverse) (ns := ns.reverse) (by simpa [SepOk] using h3)
    have he : testlistStarExprResult s ns ss = listResult .TestListStarExpr s ns.reverse ss.reverse := by
      unfold testlistStarExprResult listResult
      generalize ns.reverse = a; generalize ss.reverse = b
      match a, b with
      | [], _ => rfl
      | [x], [] => rfl
      | [x], _ :: _ => rfl
      | _ :: _ :: _, _ => rfl
    rw [he]
    exact h

theorem sh_trailerLoop (s a r l c) : WP ΦS (trailerLoopBody s a r l) c (ΦS (.trailerLoop s a r l) c) := by
  have hfin : WP ΦS (trailerLoopBody.fin s a r l) c (ΦS (.trailerLoop s a r l) c) := by
    unfold trailerLoopBody.fin
    split
    · sh_simp; sh_auto
    · rename_i hn
      sh_simp
      intro h1 h2 h3 h4
      have h5 : a = .none ∨ ∃ u, a = .tok u := by
        rw [has_opt] at h1
        rcases h1 with h | ⟨u, h, _⟩ <;> simp [h]
      have h6 : a = .none → l ≠ [] := fun h h' => hn h h'
      rcases h5 with rfl | ⟨u, rfl⟩
      · have := h6 rfl
        sh_leaf
      · sh_leaf
  unfold trailerLoopBody
  sh_simp
  refine ⟨fun t ht => ⟨?_, fun hk => hfin⟩, fun x hx => hfin⟩
  sh_auto

theorem sh_yieldOrTestlist (s c) : WP ΦS (yieldOrTestlist s) c (fun y c' => Sh rhs y) := by
  unfold yieldOrTestlist
  sh_simp
  sh_auto

theorem sh_assignLoop (s l ns c) : WP ΦS (assignLoopBody s l ns) c (ΦS (.assignLoop s l ns) c) := by
  unfold assignLoopBody
  sh_simp
  intro t ht
  refine ⟨fun hk => ?_, fun hk => ⟨?_, ?_⟩⟩
  · refine wp_mono _ (fun y c2 hy => ?_) (sh_yieldOrTestlist _ _)
    (try sh_simp)
    sh_auto
  · intro hk2 h1 h2 h3 h4
    have : ns ≠ [] := fun hn => hk ((h4 hn).kind ht)
    sh_leaf
  · intro hk2 h1 h2 h3 h4
    have : ns ≠ [] := fun hn => hk ((h4 hn).kind ht)
    sh_leaf
theorem sh_annAssign (s l c) : WP ΦS (annAssignBody s l) c (ΦS (.annAssign s l) c) := by
  unfold annAssignBody
  sh_simp
  intro t ht hk x c1 h1 h2 t2 ht2
  refine ⟨fun hk => ?_, ?_⟩
  · refine wp_mono _ (fun y c2 hy => ?_) (sh_yieldOrTestlist _ _)
    (try sh_simp)
    sh_auto
  · sh_auto

theorem sh_exprStmt (c) : WP ΦS exprStmtBody c (ΦS .exprStmt c) := by
  unfold exprStmtBody
  sh_simp
  intro x c1 h1 h2 t ht
  refine ⟨?_, fun _ => ⟨fun hk y c2 hy => ?_, fun _ => ?_⟩⟩
  · sh_auto
  · have := hy h1 h2 (curIs ht hk)
    sh_leaf
  · split
    · rename_i tag htag
      sh_simp
      refine wp_mono _ (fun y c2 hy => ?_) (sh_yieldOrTestlist _ _)
      have h3 : schema tag = aug t.kind ∧ (∀ fs, seps tag fs) ∧ ∀ s e l, Has simple (.node tag s e l) := by
        revert htag; generalize t.kind = x; revert tag x
        intro tag k h; unfold augOp at h
        split at h <;> simp at h <;> subst h <;> exact ⟨rfl, fun _ => trivial, fun _ _ _ => by simp [simple, Has, Tree.tag?]⟩
      obtain ⟨a, b, d⟩ := h3
      refine ⟨?_, d _ _ _⟩
      simp only [all_node, NodeOk, a, aug, List.mem_singleton, exists_eq_left, HasAll, allIn_cons, all_tok, allIn_nil, k, has_t]
      exact ⟨⟨⟨h2, trivial, hy.2, trivial⟩, b _⟩, h1, trivial, hy.1, trivial⟩
    · sh_simp; sh_auto

theorem sh_exceptClause (c) : WP ΦS exceptClauseBody c (ΦS .exceptClause c) := by
  unfold exceptClauseBody exceptStar
  sh_simp
  wp_paths
  · cases c.advance.advance.exc <;> sh_simp <;> sh_auto
  · cases c.advance.exc <;> sh_simp <;> sh_auto

theorem sh_patternsMatch (c) : WP ΦS patternsMatchBody c (ΦS .patternsMatch c) := by
  unfold patternsMatchBody; sh_simp

theorem sh_importDotLoop (s t ds c) : WP ΦS (importDotLoopBody s t ds) c (ΦS (.importDotLoop s t ds) c) := by
  unfold importDotLoopBody importFromRest
  sh_simp
  wp_paths <;> first
    | sh_close
    | (have hcount := count_tag (g := .DottedNameStmt) ((has_is1 _ _).1 (by with_reducible assumption))
       sh_leaf)

theorem sh_funcBodyLoop (s t a b t4 ns c) : WP ΦS (funcBodyLoopBody s t a b t4 ns) c (ΦS (.funcBodyLoop s t a b t4 ns) c) := by
  unfold funcBodyLoopBody
  sh_simp
  intro u hu
  refine ⟨?_, ?_⟩
  · intro h1 h2 h3 h4 h5 h6
    rcases h4 with ⟨rfl, rfl⟩ | h4
    · sh_leaf
    · sh_leaf
  · sh_auto
theorem sh_yieldStmt (c) : WP ΦS yieldStmtBody c (ΦS .yieldStmt c) := by
  unfold yieldStmtBody; sh_simp
theorem sh_fileInput (c) : WP ΦS fileInputBody c (ΦS .fileInput c) := by
  unfold fileInputBody
  simp only [wp_bind, wp_here, wp_next, wp_parse]
  intro y c1 hy
  exact hy (by simp [shL_nil]) (by simp [tk_nil])

/-! ### Parameter lists -/

theorem all_optk {x y} (h : Has (opt (k x)) y) : y.All NodeOk := by
  rw [has_opt] at h
  rcases h with rfl | ⟨u, rfl, _⟩ <;> simp [Tree.All]

theorem ShV.sep {f v t} (h : ShV f v 1) (hk : t.kind = .PyComa) : ShV f { v with seps := v.seps ++ [t] } 0 := by
  obtain ⟨a1, a2, a3, a4, a5, a6, a7, a8, a9, a10⟩ := h
  exact ⟨a1, tk_snoc.2 ⟨a2, hk⟩, a3, a4, a5, a6, a7, a8, a9, by simp; omega⟩
theorem ShV.node {f v x} (h : ShV f v 0) (hx : Sh f x) : ShV f { v with nodes := v.nodes ++ [x] } 1 := by
  obtain ⟨a1, a2, a3, a4, a5, a6, a7, a8, a9, a10⟩ := h
  exact ⟨shL_snoc.2 ⟨a1, hx⟩, a2, a3, a4, a5, a6, a7, a8, a9, by simp; omega⟩
theorem ShV.mul {f v x t} (h : ShV f v 0) (hm : v.mulS = .none) (hk : t.kind = .PyMul) (hx : Sh f x) (hc : x.count = 1) :
    ShV f { v with mulS := .tok t, mulN := x } 1 := by
  obtain ⟨a1, a2, a3, a4, a5, a6, a7, a8, a9, a10⟩ := h
  refine ⟨a1, a2, ?_, ?_, hx.1, ?_, a7, a8, a9, ?_⟩
  · simp [Has, hk]
  · rw [has_opt]; exact .inr hx.2
  · exact hc.symm
  · rw [hm] at a10
    simp only [count_none, count_tok] at a10 ⊢; omega
theorem ShV.slash {f v t} (h : ShV f v 0) (hm : v.div = .none) (hk : t.kind = .PyDiv) : ShV f { v with div := .tok t } 1 := by
  obtain ⟨a1, a2, a3, a4, a5, a6, a7, a8, a9, a10⟩ := h
  refine ⟨a1, a2, a3, a4, a5, a6, a7, a8, ?_, ?_⟩
  · simp [Has, hk]
  · rw [hm] at a10
    simp only [count_none, count_tok] at a10 ⊢; omega
theorem shV_nil {f} : ShV f {} 0 := by
  refine ⟨shL_nil.2 trivial, tk_nil.2 trivial, ?_, ?_, ?_, rfl, rfl, rfl, ?_, rfl⟩ <;> simp [Has, Tree.All]
theorem shV_one {f x} (h : Sh f x) : ShV f { nodes := [x] } 1 := shV_nil.node h
theorem count_param {x} (h : Sh param x) : x.count = 1 := by
  have h := h.2
  simp only [param, has_is, List.mem_cons, List.not_mem_nil, or_false, exists_eq_or_imp, exists_eq_left] at h
  rcases h with h | h <;> exact count_tag h
theorem count_test {x} (h : Sh (e 2) x) : x.count = 1 := count_e (k := 1) (has_e.1 h.2)

theorem sh_varArgsResult {v} (h : ShV param v 1) (s c) :
    WP ΦS (varArgsResult s v) c (fun y c' => Sh (is [.VarArgsList]) y) := by
  obtain ⟨a1, a2, a3, a4, a5, a6, a7, a8, a9, a10⟩ := h
  have h1 := all_optk a3
  have h2 := all_optk a9
  unfold varArgsResult
  sh_simp
  refine ⟨?_, by sh_leaf⟩
  rw [a7, a8]
  simp only [all_node, NodeOk, schema, List.mem_singleton, exists_eq_left, HasAll, allIn_cons, allIn_nil, all_toks, all_seq,
    allIn_reverse, all_none, has_opt_none, has_many, commas, has_many_toks, tk_rev, seps, count_none, len_seq, len_toks,
    List.length_reverse, List.mem_reverse]
  exact ⟨⟨⟨a1.2, a2, a3, a4, trivial, trivial, a9, trivial⟩, a6, trivial, .inl (by omega)⟩, a1.1, trivial, h1, a5, trivial, trivial, h2, trivial⟩

theorem sh_varArgsPower {v t} (h : ShV param v 0) (hk : t.kind = .PyPower) (s c) :
    WP ΦS (varArgsPower s v t) c (fun y c' => Sh (is [.VarArgsList]) y) := by
  obtain ⟨a1, a2, a3, a4, a5, a6, a7, a8, a9, a10⟩ := h
  have h1 := all_optk a3
  have h2 := all_optk a9
  unfold varArgsPower varArgsResult
  sh_simp
  intro x c1 x1 x2 t2 ht2
  have x3 := count_param ⟨x1, x2⟩
  refine ⟨fun hk2 => ⟨?_, by sh_leaf⟩, fun _ => ⟨?_, by sh_leaf⟩⟩
  all_goals
    simp only [all_node, NodeOk, schema, List.mem_singleton, exists_eq_left, HasAll, allIn_cons, allIn_nil, all_toks, all_seq, all_tok,
      allIn_reverse, all_none, has_opt, has_t, has_many, commas, has_many_toks, tk_rev, tk_snoc, seps, count_tok, len_seq, len_toks,
      List.length_reverse, List.mem_reverse, List.length_append, List.length_singleton]
    rw [has_opt] at a3 a4 a9
  · exact ⟨⟨⟨a1.2, ⟨a2, hk2⟩, a3, a4, .inr hk, .inr x2, a9, trivial⟩, a6, x3.symm, .inr ⟨by simp, by omega⟩⟩, a1.1, trivial, h1, a5, trivial, x1, h2, trivial⟩
  · exact ⟨⟨⟨a1.2, a2, a3, a4, .inr hk, .inr x2, a9, trivial⟩, a6, x3.symm, .inl (by omega)⟩, a1.1, trivial, h1, a5, trivial, x1, h2, trivial⟩

theorem sh_varArgsMul {v t} (h : ShV param v 0) (hm : v.mulS = .none) (hk : t.kind = .PyMul) (s c) :
    WP ΦS (varArgsMul s v t) c (fun y c' => Sh (is [.VarArgsList]) y) := by
  unfold varArgsMul
  simp only [wp_bind, wp_next, wp_parse]
  intro x c1 hx y c2 hy
  exact hy (h.mul hm hk hx (count_param hx))

theorem sh_varArgsStarLoop (s v c) : WP ΦS (varArgsStarLoopBody s v) c (ΦS (.varArgsStarLoop s v) c) := by
  unfold varArgsStarLoopBody
  change WP ΦS _ c (fun y _ => ShV param v 1 → Sh (is [.VarArgsList]) y)
  refine wp_imp fun h => ?_
  simp only [wp_bind, wp_symHere, wp_ite, wp_next, wp_parse]
  intro t ht
  refine ⟨fun hk t2 ht2 => ⟨fun hk2 => sh_varArgsPower (h.sep hk) hk2 _ _, fun _ x c1 hx y c2 hy => ?_⟩,
    fun _ => sh_varArgsResult h _ _⟩
  exact hy ((h.sep hk).node hx)

theorem sh_varArgsDivLoop (s v c) : WP ΦS (varArgsDivLoopBody s v) c (ΦS (.varArgsDivLoop s v) c) := by
  unfold varArgsDivLoopBody
  change WP ΦS _ c (fun y _ => ShV param v 1 → v.mulS = .none → Sh (is [.VarArgsList]) y)
  refine wp_imp fun h => wp_imp fun hm => ?_
  simp only [wp_bind, wp_symHere, wp_ite, wp_next, wp_parse]
  intro t ht
  refine ⟨fun hk t2 ht2 => ⟨fun hk2 => sh_varArgsMul (h.sep hk) hm hk2 _ _, fun _ => ⟨fun hk2 => sh_varArgsPower (h.sep hk) hk2 _ _,
    fun _ x c1 hx y c2 hy => ?_⟩⟩, fun _ => sh_varArgsResult h _ _⟩
  exact hy ((h.sep hk).node hx) hm

theorem sh_varArgsMainLoop (s v c) : WP ΦS (varArgsMainLoopBody s v) c (ΦS (.varArgsMainLoop s v) c) := by
  unfold varArgsMainLoopBody
  change WP ΦS _ c (fun y _ => ShV param v 1 → v.mulS = .none → v.div = .none → Sh (is [.VarArgsList]) y)
  refine wp_imp fun h => wp_imp fun hm => wp_imp fun hd => ?_
  simp only [wp_bind, wp_symHere, wp_ite, wp_next, wp_parse]
  intro t ht
  refine ⟨fun hk t2 ht2 => ⟨fun hk2 y c2 hy => ?_, fun _ => ⟨fun hk2 => sh_varArgsMul (h.sep hk) hm hk2 _ _,
    fun _ => ⟨fun hk2 => sh_varArgsPower (h.sep hk) hk2 _ _, fun _ x c1 hx y c2 hy => ?_⟩⟩⟩, fun _ => sh_varArgsResult h _ _⟩
  · exact hy ((h.sep hk).slash hd hk2) hm
  · exact hy ((h.sep hk).node hx) hm hd

theorem sh_varArgsList (c) : WP ΦS varArgsListBody c (ΦS .varArgsList c) := by
  unfold varArgsListBody
  simp only [ΦS, wp_bind, wp_here, wp_symHere, wp_ite, wp_parse]
  intro t ht
  refine ⟨fun hk => sh_varArgsMul shV_nil rfl hk _ _, fun _ => ⟨fun hk => sh_varArgsPower shV_nil hk _ _, fun _ x c1 hx y c2 hy => ?_⟩⟩
  exact hy (shV_one hx) trivial trivial

theorem sh_typeListResult {v} (h : ShV (e 2) v 1) (hd : v.div = .none) (s c) :
    WP ΦS (typeListResult s v) c (fun y c' => Sh (is [.TypeList]) y) := by
  obtain ⟨a1, a2, a3, a4, a5, a6, a7, a8, a9, a10⟩ := h
  have h1 := all_optk a3
  rw [hd, count_none] at a10
  unfold typeListResult
  sh_simp
  refine ⟨?_, by sh_leaf⟩
  rw [a7, a8]
  simp only [all_node, NodeOk, schema, List.mem_singleton, exists_eq_left, HasAll, allIn_cons, allIn_nil, all_toks, all_seq,
    allIn_reverse, all_none, has_opt_none, has_many, commas, has_many_toks, tk_rev, seps, count_none, len_seq, len_toks,
    List.length_reverse, List.mem_reverse]
  exact ⟨⟨⟨a1.2, a2, a3, a4, trivial, trivial, trivial⟩, a6, trivial, by omega⟩, a1.1, trivial, h1, a5, trivial, trivial, trivial⟩

theorem sh_typeListPower {v t} (h : ShV (e 2) v 0) (hd : v.div = .none) (hk : t.kind = .PyPower) (s c) :
    WP ΦS (typeListPower s v t) c (fun y c' => Sh (is [.TypeList]) y) := by
  obtain ⟨a1, a2, a3, a4, a5, a6, a7, a8, a9, a10⟩ := h
  have h1 := all_optk a3
  rw [hd, count_none] at a10
  unfold typeListPower typeListResult
  sh_simp
  intro x c1 x1 x2
  have x3 := count_test ⟨x1, x2⟩
  refine ⟨?_, by sh_leaf⟩
  simp only [all_node, NodeOk, schema, List.mem_singleton, exists_eq_left, HasAll, allIn_cons, allIn_nil, all_toks, all_seq, all_tok,
      allIn_reverse, all_none, has_opt, has_t, has_many, commas, has_many_toks, tk_rev, tk_snoc, seps, count_tok, len_seq, len_toks,
      List.length_reverse, List.mem_reverse, List.length_append, List.length_singleton]
  rw [has_opt] at a3 a4
  exact ⟨⟨⟨a1.2, a2, a3, a4, .inr hk, .inr x2, trivial⟩, a6, x3.symm, by omega⟩, a1.1, trivial, h1, a5, trivial, x1, trivial⟩

theorem sh_typeListMul {v t} (h : ShV (e 2) v 0) (hd : v.div = .none) (hm : v.mulS = .none) (hk : t.kind = .PyMul) (s c) :
    WP ΦS (typeListMul s v t) c (fun y c' => Sh (is [.TypeList]) y) := by
  unfold typeListMul
  simp only [wp_bind, wp_next, wp_parse]
  intro x c1 hx y c2 hy
  exact hy (h.mul hm hk hx (count_test hx)) hd

theorem sh_typeListStarLoop (s v c) : WP ΦS (typeListStarLoopBody s v) c (ΦS (.typeListStarLoop s v) c) := by
  unfold typeListStarLoopBody
  change WP ΦS _ c (fun y _ => ShV (e 2) v 1 → v.div = .none → Sh (is [.TypeList]) y)
  refine wp_imp fun h => wp_imp fun hd => ?_
  simp only [wp_bind, wp_symAt, wp_ite, wp_next, wp_parse]
  intro t ht
  refine ⟨fun hk t2 ht2 => ⟨fun hk2 => sh_typeListPower (h.sep hk) hd hk2 _ _, fun _ x c1 hx y c2 hy => ?_⟩,
    fun _ => sh_typeListResult h hd _ _⟩
  exact hy ((h.sep hk).node hx) hd

theorem sh_typeListMainLoop (s v c) : WP ΦS (typeListMainLoopBody s v) c (ΦS (.typeListMainLoop s v) c) := by
  unfold typeListMainLoopBody
  change WP ΦS _ c (fun y _ => ShV (e 2) v 1 → v.mulS = .none → v.div = .none → Sh (is [.TypeList]) y)
  refine wp_imp fun h => wp_imp fun hm => wp_imp fun hd => ?_
  simp only [wp_bind, wp_symAt, wp_ite, wp_next, wp_parse]
  intro t ht
  refine ⟨fun hk t2 ht2 => ⟨fun hk2 => sh_typeListMul (h.sep hk) hd hm hk2 _ _,
    fun _ => ⟨fun hk2 => sh_typeListPower (h.sep hk) hd hk2 _ _, fun _ x c1 hx y c2 hy => ?_⟩⟩, fun _ => sh_typeListResult h hd _ _⟩
  exact hy ((h.sep hk).node hx) hm hd

theorem sh_typeList (c) : WP ΦS typeListBody c (ΦS .typeList c) := by
  unfold typeListBody
  simp only [ΦS, wp_bind, wp_here, wp_symAt, wp_ite, wp_parse]
  intro t ht
  refine ⟨fun hk => sh_typeListMul shV_nil rfl rfl hk _ _, fun _ => ⟨fun hk => sh_typeListPower shV_nil rfl hk _ _, fun _ x c1 hx y c2 hy => ?_⟩⟩
  exact hy (shV_one hx) trivial trivial

theorem sh_body (f c) : WP ΦS (body f) c (ΦS f c) := by
  cases f with
  | atom => exact sh_atom c
  | atomStrLoop a0 a1 => exact sh_atomStrLoop a0 a1 c
  | atomExpr => exact sh_atomExpr c
  | trailerLoop a0 a1 a2 a3 => exact sh_trailerLoop a0 a1 a2 a3 c
  | power => exact sh_power c
  | factor => exact sh_factor c
  | term => exact sh_term c
  | termLoop a0 a1 => exact sh_termLoop a0 a1 c
  | arith => exact sh_arith c
  | arithLoop a0 a1 => exact sh_arithLoop a0 a1 c
  | shift => exact sh_shift c
  | shiftLoop a0 a1 => exact sh_shiftLoop a0 a1 c
  | andExpr => exact sh_andExpr c
  | andExprLoop a0 a1 => exact sh_andExprLoop a0 a1 c
  | xorExpr => exact sh_xorExpr c
  | xorExprLoop a0 a1 => exact sh_xorExprLoop a0 a1 c
  | expr => exact sh_expr c
  | exprLoop a0 a1 => exact sh_exprLoop a0 a1 c
  | starExpr => exact sh_starExpr c
  | comparison => exact sh_comparison c
  | comparisonLoop a0 a1 => exact sh_comparisonLoop a0 a1 c
  | notTest => exact sh_notTest c
  | andTest => exact sh_andTest c
  | andTestLoop a0 a1 => exact sh_andTestLoop a0 a1 c
  | orTest => exact sh_orTest c
  | orTestLoop a0 a1 => exact sh_orTestLoop a0 a1 c
  | lambdaDef a0 => exact sh_lambdaDef a0 c
  | noCondTest => exact sh_noCondTest c
  | test => exact sh_test c
  | namedExpression => exact sh_namedExpression c
  | testlistComp => exact sh_testlistComp c
  | testlistCompLoop a0 a1 a2 => exact sh_testlistCompLoop a0 a1 a2 c
  | trailer => exact sh_trailer c
  | subscriptList => exact sh_subscriptList c
  | subscriptListLoop a0 a1 a2 => exact sh_subscriptListLoop a0 a1 a2 c
  | subscript => exact sh_subscript c
  | exprlist => exact sh_exprlist c
  | exprlistLoop a0 a1 a2 => exact sh_exprlistLoop a0 a1 a2 c
  | testlist => exact sh_testlist c
  | testlistLoop a0 a1 a2 => exact sh_testlistLoop a0 a1 a2 c
  | dictorsetMaker => exact sh_dictorsetMaker c
  | setLoop a0 a1 a2 => exact sh_setLoop a0 a1 a2 c
  | arglist => exact sh_arglist c
  | arglistLoop a0 a1 a2 => exact sh_arglistLoop a0 a1 a2 c
  | argument => exact sh_argument c
  | compIter => exact sh_compIter c
  | syncCompFor => exact sh_syncCompFor c
  | compFor => exact sh_compFor c
  | compIf => exact sh_compIf c
  | yieldExpr => exact sh_yieldExpr c
  | testlistStarExpr => exact sh_testlistStarExpr c
  | testlistStarExprLoop a0 a1 a2 => exact sh_testlistStarExprLoop a0 a1 a2 c
  | varArgsList => exact sh_varArgsList c
  | varArgsMainLoop a0 a1 => exact sh_varArgsMainLoop a0 a1 c
  | varArgsStarLoop a0 a1 => exact sh_varArgsStarLoop a0 a1 c
  | varArgsDivLoop a0 a1 => exact sh_varArgsDivLoop a0 a1 c
  | varArgsAssignments => exact sh_varArgsAssignments c
  | vfpDef => exact sh_vfpDef c
  | stmt => exact sh_stmt c
  | simpleStmt => exact sh_simpleStmt c
  | simpleStmtLoop a0 a1 a2 => exact sh_simpleStmtLoop a0 a1 a2 c
  | smallStmt => exact sh_smallStmt c
  | exprStmt => exact sh_exprStmt c
  | assignLoop a0 a1 a2 => exact sh_assignLoop a0 a1 a2 c
  | annAssign a0 a1 => exact sh_annAssign a0 a1 c
  | delStmt => exact sh_delStmt c
  | passStmt => exact sh_passStmt c
  | flowStmt => exact sh_flowStmt c
  | breakStmt => exact sh_breakStmt c
  | continueStmt => exact sh_continueStmt c
  | returnStmt => exact sh_returnStmt c
  | yieldStmt => exact sh_yieldStmt c
  | raiseStmt => exact sh_raiseStmt c
  | importStmt => exact sh_importStmt c
  | importName => exact sh_importName c
  | importFrom => exact sh_importFrom c
  | importDotLoop a0 a1 a2 => exact sh_importDotLoop a0 a1 a2 c
  | importAsName => exact sh_importAsName c
  | dottedAsName => exact sh_dottedAsName c
  | importAsNames => exact sh_importAsNames c
  | importAsNamesLoop a0 a1 a2 => exact sh_importAsNamesLoop a0 a1 a2 c
  | dottedAsNames => exact sh_dottedAsNames c
  | dottedAsNamesLoop a0 a1 a2 => exact sh_dottedAsNamesLoop a0 a1 a2 c
  | dottedName => exact sh_dottedName c
  | dottedNameLoop a0 a1 a2 => exact sh_dottedNameLoop a0 a1 a2 c
  | globalStmt => exact sh_globalStmt c
  | globalLoop a0 a1 a2 a3 => exact sh_globalLoop a0 a1 a2 a3 c
  | nonlocalStmt => exact sh_nonlocalStmt c
  | nonlocalLoop a0 a1 a2 a3 => exact sh_nonlocalLoop a0 a1 a2 a3 c
  | assertStmt => exact sh_assertStmt c
  | compoundStmt => exact sh_compoundStmt c
  | asyncStmt => exact sh_asyncStmt c
  | ifStmt => exact sh_ifStmt c
  | ifLoop a0 a1 a2 a3 a4 a5 => exact sh_ifLoop a0 a1 a2 a3 a4 a5 c
  | elifStmt => exact sh_elifStmt c
  | elseStmt => exact sh_elseStmt c
  | whileStmt => exact sh_whileStmt c
  | forStmt => exact sh_forStmt c
  | tryStmt => exact sh_tryStmt c
  | tryLoop a0 a1 a2 a3 a4 => exact sh_tryLoop a0 a1 a2 a3 a4 c
  | finallyStmt => exact sh_finallyStmt c
  | withStmt => exact sh_withStmt c
  | withParenLoop a0 a1 a2 a3 a4 => exact sh_withParenLoop a0 a1 a2 a3 a4 c
  | withLoop a0 a1 a2 a3 => exact sh_withLoop a0 a1 a2 a3 c
  | withItem => exact sh_withItem c
  | exceptStmt => exact sh_exceptStmt c
  | exceptClause => exact sh_exceptClause c
  | suite => exact sh_suite c
  | suiteLoop a0 a1 a2 a3 => exact sh_suiteLoop a0 a1 a2 a3 c
  | evalInput => exact sh_evalInput c
  | evalLoop a0 a1 a2 => exact sh_evalLoop a0 a1 a2 c
  | fileInput => exact sh_fileInput c
  | fileLoop a0 a1 a2 => exact sh_fileLoop a0 a1 a2 c
  | singleInput => exact sh_singleInput c
  | funcTypeInput => exact sh_funcTypeInput c
  | funcTypeLoop a0 a1 a2 => exact sh_funcTypeLoop a0 a1 a2 c
  | decorator => exact sh_decorator c
  | decorators => exact sh_decorators c
  | decoratorsLoop a0 a1 => exact sh_decoratorsLoop a0 a1 c
  | decorated => exact sh_decorated c
  | asyncFuncDef => exact sh_asyncFuncDef c
  | funcDef => exact sh_funcDef c
  | parameters => exact sh_parameters c
  | typedArgsList => exact sh_typedArgsList c
  | tfpDefAssign => exact sh_tfpDefAssign c
  | tfpDef => exact sh_tfpDef c
  | funcBodySuite => exact sh_funcBodySuite c
  | funcBodyLoop a0 a1 a2 a3 a4 a5 => exact sh_funcBodyLoop a0 a1 a2 a3 a4 a5 c
  | classDef => exact sh_classDef c
  | funcType => exact sh_funcType c
  | typeList => exact sh_typeList c
  | typeListMainLoop a0 a1 => exact sh_typeListMainLoop a0 a1 c
  | typeListStarLoop a0 a1 => exact sh_typeListStarLoop a0 a1 c
  | patternsMatch => exact sh_patternsMatch c

/-- What a successful run returns has the right shape. -/
theorem run_shape {n f c t c'} (h : run n f c = .ok t c') : ΦS f c t c' := run_sound sh_body n f c t c' h

end

end Verif
