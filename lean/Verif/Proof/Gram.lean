import Verif.Proof.Reads
import Verif.Spec.Grammar

/-!
# Accepted token sequences are in the grammar: definitions
-/

namespace Verif
open Rx
set_option linter.unusedVariables false

/-- The tokens consumed are a sentence of `r`. -/
def Gr [Uni] (r : Rx) (c c' : PSt) : Prop := ∃ ts, Consumed c ts c' ∧ Der rule r ts
/-- The tokens consumed and the current symbol are a sentence of `r`. -/
def GrPeek [Uni] (r : Rx) (c c' : PSt) : Prop := ∃ ts u, Consumed c ts c' ∧ c'.symbol = .ok u ∧ Der rule r (ts ++ [u])
/-- Nothing is consumed when no comma follows. -/
def Stops [Uni] (c c' : PSt) : Prop := ∀ u, c.symbol = .ok u → u.kind ≠ .PyComa → Consumed c [] c'
/-- The current symbol has kind `x`. -/
def SymIs (x : Kind) (c : PSt) : Prop := ∃ u, c.symbol = .ok u ∧ u.kind = x

/-- What follows the item before a loop. -/
def commaRest (x : Rx) : Rx := star (G.comma ⬝ x) ⬝ opt G.comma
def varArgsRest : Rx := star (G.comma ⬝ G.vararg) ⬝ opt (G.comma ⬝ k .PyDiv ⬝ star (G.comma ⬝ G.vararg)) ⬝
  opt (G.comma ⬝ (G.starargs ∥ G.kwargs))
def typeStar : Rx := star (G.comma ⬝ n .test) ⬝ opt (G.comma ⬝ k .PyPower ⬝ n .test)
def typeRest : Rx := star (G.comma ⬝ n .test) ⬝ opt (G.comma ⬝
        opt (k .PyMul ⬝ opt (n .test) ⬝ star (G.comma ⬝ n .test) ⬝ opt (G.comma ⬝ k .PyPower ⬝ n .test) ∥
          k .PyPower ⬝ n .test))

section
variable [Uni]
def ΦG : Fn → PSt → Tree → PSt → Prop
  | .atomStrLoop _ _, c, t, c' => Gr (star (k .AtomString)) c c'
  | .trailerLoop _ _ _ _, c, t, c' => Gr (star (n .trailer)) c c'
  | .termLoop _ _, c, t, c' => Gr (star (G.term_op ⬝ n .factor)) c c'
  | .arithLoop _ _, c, t, c' => Gr (star (G.arith_op ⬝ n .term)) c c'
  | .shiftLoop _ _, c, t, c' => Gr (star (G.shift_op ⬝ n .arith_expr)) c c'
  | .andExprLoop _ _, c, t, c' => Gr (star (k .PyBitAnd ⬝ n .shift_expr)) c c'
  | .xorExprLoop _ _, c, t, c' => Gr (star (k .PyBitXor ⬝ n .and_expr)) c c'
  | .exprLoop _ _, c, t, c' => Gr (star (k .PyBitOr ⬝ n .xor_expr)) c c'
  | .comparisonLoop _ _, c, t, c' => Gr (star (G.comp_op ⬝ n .expr)) c c'
  | .andTestLoop _ _, c, t, c' => Gr (star (k .PyAnd ⬝ n .not_test)) c c'
  | .orTestLoop _ _, c, t, c' => Gr (star (k .PyOr ⬝ n .and_test)) c c'
  | .lambdaDef b, c, t, c' => ∃ u ts, Consumed c (u :: ts) c' ∧
      Der rule (opt (n .varargslist) ⬝ G.colon ⬝ n (if b then .test else .or_test)) ts
  | .testlistCompLoop _ _ _, c, t, c' => Gr (star (G.comma ⬝ G.elem)) c c'
  | .subscriptListLoop _ _ _, c, t, c' => Gr (star (G.comma ⬝ n .subscript)) c c'
  | .exprlistLoop _ _ _, c, t, c' => Gr (commaRest G.elem) c c' ∧ Stops c c'
  | .testlistLoop _ _ _, c, t, c' => Gr (commaRest (n .test)) c c' ∧ Stops c c'
  | .setLoop _ _ _, c, t, c' => Gr (commaRest G.setEntry) c c' ∧ Stops c c'
  | .arglistLoop _ _ _, c, t, c' => Gr (commaRest (n .argument)) c c' ∧ Stops c c'
  | .testlistStarExprLoop _ _ _, c, t, c' => Gr (commaRest (n .test ∥ n .star_expr)) c c' ∧ Stops c c'
  | .varArgsMainLoop _ _, c, t, c' => Gr varArgsRest c c'
  | .varArgsStarLoop _ _, c, t, c' => Gr (star (G.comma ⬝ G.vararg) ⬝ opt (G.comma ⬝ G.kwargs)) c c'
  | .varArgsDivLoop _ _, c, t, c' => Gr (star (G.comma ⬝ G.vararg) ⬝ opt (G.comma ⬝ (G.starargs ∥ G.kwargs))) c c'
  | .varArgsAssignments, c, t, c' => Gr G.vararg c c'
  | .simpleStmtLoop _ _ _, c, t, c' =>
    Gr (star (k .PySemiColon ⬝ n .small_stmt) ⬝ opt (k .PySemiColon) ⬝ k .Newline) c c'
  | .assignLoop _ _ _, c, t, c' => Gr (star (k .PyAssign ⬝ G.rhs) ⬝ opt (k .TypeComment)) c c' ∧
    (SymIs .PyAssign c → Gr (plus (k .PyAssign ⬝ G.rhs) ⬝ opt (k .TypeComment)) c c')
  | .annAssign _ _, c, t, c' => Gr G.annassign c c'
  | .importDotLoop _ _ ds, c, t, c' =>
    if ds = [] then Gr ((star G.dots ⬝ n .dotted_name ∥ plus G.dots) ⬝ G.importWhat) c c'
    else Gr ((star G.dots ⬝ n .dotted_name ∥ star G.dots) ⬝ G.importWhat) c c'
  | .importAsNamesLoop _ _ _, c, t, c' => Gr (star (G.comma ⬝ n .import_as_name)) c c'
  | .dottedAsNamesLoop _ _ _, c, t, c' => Gr (star (G.comma ⬝ n .dotted_as_name)) c c'
  | .dottedNameLoop _ _ _, c, t, c' => Gr (star (k .PyDot ⬝ G.name)) c c'
  | .globalLoop _ _ _ _, c, t, c' => Gr (star (G.comma ⬝ G.name)) c c'
  | .nonlocalLoop _ _ _ _, c, t, c' => Gr (star (G.comma ⬝ G.name)) c c'
  | .ifLoop _ _ _ _ _ _, c, t, c' => Gr (star G.elifPart ⬝ opt G.elsePart) c c'
  | .elifStmt, c, t, c' => Gr G.elifPart c c'
  | .elseStmt, c, t, c' => Gr G.elsePart c c'
  | .tryLoop _ _ _ _ _, c, t, c' => Gr (star G.exceptPart ⬝ opt G.elsePart ⬝ opt G.finallyPart) c c'
  | .finallyStmt, c, t, c' => Gr G.finallyPart c c'
  | .withParenLoop _ _ _ _ _, c, t, c' =>
    Gr (commaRest (n .with_item) ⬝ k .PyRightParen ⬝ G.colon ⬝ n .suite) c c'
  | .withLoop _ _ _ _, c, t, c' => Gr (star (G.comma ⬝ n .with_item) ⬝ G.colon ⬝ n .suite) c c'
  | .exceptStmt, c, t, c' => Gr G.exceptPart c c'
  | .suiteLoop _ _ _ _, c, t, c' => Gr (star (n .stmt) ⬝ k .Dedent) c c'
  | .evalInput, c, t, c' => GrPeek (n .eval_input) c.advance c'
  | .evalLoop _ _ _, c, t, c' => GrPeek (star (k .Newline) ⬝ k .EOF) c c'
  | .fileInput, c, t, c' => GrPeek (n .file_input) c.advance c'
  | .fileLoop _ _ _, c, t, c' => GrPeek (star (k .Newline ∥ n .stmt) ⬝ k .EOF) c c'
  | .singleInput, c, t, c' => Gr (n .single_input) c.advance c' ∨ GrPeek (n .single_input) c.advance c'
  | .funcTypeInput, c, t, c' => GrPeek (n .func_type_input) c.advance c'
  | .funcTypeLoop _ _ _, c, t, c' => GrPeek (star (k .Newline) ⬝ k .EOF) c c'
  | .decorator, c, t, c' => GrPeek (n .decorator) c c' ∧ SymIs .Newline c'
  | .decorators, c, t, c' => GrPeek (n .decorators) c c' ∧ SymIs .Newline c'
  | .decoratorsLoop _ _, c, t, c' => SymIs .Newline c → c' = c
  | .decorated, c, t, c' => False
  | .typedArgsList, c, t, c' => c' = c
  | .tfpDefAssign, c, t, c' => Gr G.typedarg c c'
  | .funcBodyLoop _ _ _ _ _ _, c, t, c' => Gr (star (n .stmt) ⬝ k .Dedent) c c'
  | .classDef, c, t, c' => Gr (n .classdef) c c' ∧ SymIs .PyClass c
  | .typeListMainLoop _ _, c, t, c' => Gr typeRest c c'
  | .typeListStarLoop _ _, c, t, c' => Gr typeStar c c'
  | .patternsMatch, c, t, c' => False
  | .atom, c, t, c' => Gr (n .atom) c c'
  | .atomExpr, c, t, c' => Gr (n .atom_expr) c c'
  | .power, c, t, c' => Gr (n .power) c c'
  | .factor, c, t, c' => Gr (n .factor) c c'
  | .term, c, t, c' => Gr (n .term) c c'
  | .arith, c, t, c' => Gr (n .arith_expr) c c'
  | .shift, c, t, c' => Gr (n .shift_expr) c c'
  | .andExpr, c, t, c' => Gr (n .and_expr) c c'
  | .xorExpr, c, t, c' => Gr (n .xor_expr) c c'
  | .expr, c, t, c' => Gr (n .expr) c c'
  | .starExpr, c, t, c' => Gr (n .star_expr) c c'
  | .comparison, c, t, c' => Gr (n .comparison) c c'
  | .notTest, c, t, c' => Gr (n .not_test) c c'
  | .andTest, c, t, c' => Gr (n .and_test) c c'
  | .orTest, c, t, c' => Gr (n .or_test) c c'
  | .noCondTest, c, t, c' => Gr (n .test_nocond) c c'
  | .test, c, t, c' => Gr (n .test) c c'
  | .namedExpression, c, t, c' => Gr (n .namedexpr_test) c c'
  | .testlistComp, c, t, c' => Gr (n .testlist_comp) c c'
  | .trailer, c, t, c' => Gr (n .trailer) c c'
  | .subscriptList, c, t, c' => Gr (n .subscriptlist) c c'
  | .subscript, c, t, c' => Gr (n .subscript) c c'
  | .exprlist, c, t, c' => Gr (n .exprlist) c c'
  | .testlist, c, t, c' => Gr (n .testlist) c c'
  | .dictorsetMaker, c, t, c' => Gr (n .dictorsetmaker) c c'
  | .arglist, c, t, c' => Gr (n .arglist) c c'
  | .argument, c, t, c' => Gr (n .argument) c c'
  | .compIter, c, t, c' => Gr (n .comp_iter) c c'
  | .syncCompFor, c, t, c' => Gr (n .sync_comp_for) c c'
  | .compFor, c, t, c' => Gr (n .comp_for) c c'
  | .compIf, c, t, c' => Gr (n .comp_if) c c'
  | .yieldExpr, c, t, c' => Gr (n .yield_expr) c c'
  | .testlistStarExpr, c, t, c' => Gr (n .testlist_star_expr) c c'
  | .varArgsList, c, t, c' => Gr (n .varargslist) c c'
  | .vfpDef, c, t, c' => Gr (n .vfpdef) c c'
  | .stmt, c, t, c' => Gr (n .stmt) c c'
  | .simpleStmt, c, t, c' => Gr (n .simple_stmt) c c'
  | .smallStmt, c, t, c' => Gr (n .small_stmt) c c'
  | .exprStmt, c, t, c' => Gr (n .expr_stmt) c c'
  | .delStmt, c, t, c' => Gr (n .del_stmt) c c'
  | .passStmt, c, t, c' => Gr (n .pass_stmt) c c'
  | .flowStmt, c, t, c' => Gr (n .flow_stmt) c c'
  | .breakStmt, c, t, c' => Gr (n .break_stmt) c c'
  | .continueStmt, c, t, c' => Gr (n .continue_stmt) c c'
  | .returnStmt, c, t, c' => Gr (n .return_stmt) c c'
  | .yieldStmt, c, t, c' => Gr (n .yield_stmt) c c'
  | .raiseStmt, c, t, c' => Gr (n .raise_stmt) c c'
  | .importStmt, c, t, c' => Gr (n .import_stmt) c c'
  | .importName, c, t, c' => Gr (n .import_name) c c'
  | .importFrom, c, t, c' => Gr (n .import_from) c c'
  | .importAsName, c, t, c' => Gr (n .import_as_name) c c'
  | .dottedAsName, c, t, c' => Gr (n .dotted_as_name) c c'
  | .importAsNames, c, t, c' => Gr (n .import_as_names) c c'
  | .dottedAsNames, c, t, c' => Gr (n .dotted_as_names) c c'
  | .dottedName, c, t, c' => Gr (n .dotted_name) c c'
  | .globalStmt, c, t, c' => Gr (n .global_stmt) c c'
  | .nonlocalStmt, c, t, c' => Gr (n .nonlocal_stmt) c c'
  | .assertStmt, c, t, c' => Gr (n .assert_stmt) c c'
  | .compoundStmt, c, t, c' => Gr (n .compound_stmt) c c'
  | .asyncStmt, c, t, c' => Gr (n .async_stmt) c c'
  | .ifStmt, c, t, c' => Gr (n .if_stmt) c c'
  | .whileStmt, c, t, c' => Gr (n .while_stmt) c c'
  | .forStmt, c, t, c' => Gr (n .for_stmt) c c'
  | .tryStmt, c, t, c' => Gr (n .try_stmt) c c'
  | .withStmt, c, t, c' => Gr (n .with_stmt) c c'
  | .withItem, c, t, c' => Gr (n .with_item) c c'
  | .exceptClause, c, t, c' => Gr (n .except_clause) c c'
  | .suite, c, t, c' => Gr (n .suite) c c'
  | .asyncFuncDef, c, t, c' => Gr (n .async_funcdef) c c'
  | .funcDef, c, t, c' => Gr (n .funcdef) c c'
  | .parameters, c, t, c' => Gr (n .parameters) c c'
  | .tfpDef, c, t, c' => Gr (n .tfpdef) c c'
  | .funcBodySuite, c, t, c' => Gr (n .func_body_suite) c c'
  | .funcType, c, t, c' => Gr (n .func_type) c c'
  | .typeList, c, t, c' => Gr (n .typelist) c c'

end

/-! ### Sequences of right hand sides -/

/-- The tokens are a sentence of the right hand sides, one after another. -/
def DK : List Rx → List Token → Prop
  | [], ts => ts = []
  | r :: rs, ts => ∃ u v, ts = u ++ v ∧ Der rule r u ∧ DK rs v

theorem DK.nil : DK [] [] := rfl
theorem DK.of {r u rs v} (h : Der rule r u) (h' : DK rs v) : DK (r :: rs) (u ++ v) := ⟨u, v, rfl, h, h'⟩
theorem DK.k {x t rs v} (h : t.kind = x) (h' : DK rs v) : DK (.k x :: rs) (t :: v) := ⟨[t], v, rfl, .k h, h'⟩
theorem DK.any {t rs v} (h' : DK rs v) : DK (.any :: rs) (t :: v) := ⟨[t], v, rfl, .any, h'⟩
theorem DK.seq {a b rs ts} (h : DK (a :: b :: rs) ts) : DK ((a ⬝ b) :: rs) ts := by
  obtain ⟨u, v, rfl, h1, w, x, rfl, h2, h3⟩ := h
  exact ⟨u ++ w, x, (List.append_assoc ..).symm, .seq h1 h2, h3⟩
theorem DK.left {a b rs ts} (h : DK (a :: rs) ts) : DK ((a ∥ b) :: rs) ts := by
  obtain ⟨u, v, e, h1, h2⟩ := h; exact ⟨u, v, e, .left h1, h2⟩
theorem DK.right {a b rs ts} (h : DK (b :: rs) ts) : DK ((a ∥ b) :: rs) ts := by
  obtain ⟨u, v, e, h1, h2⟩ := h; exact ⟨u, v, e, .right h1, h2⟩
theorem DK.present {a rs ts} (h : DK (a :: rs) ts) : DK (.opt a :: rs) ts := by
  obtain ⟨u, v, e, h1, h2⟩ := h; exact ⟨u, v, e, .present h1, h2⟩
theorem DK.absent {a rs ts} (h : DK rs ts) : DK (.opt a :: rs) ts := ⟨[], ts, rfl, .absent, h⟩
theorem DK.stop {a rs ts} (h : DK rs ts) : DK (.star a :: rs) ts := ⟨[], ts, rfl, .stop, h⟩
theorem DK.more {a rs ts} (h : DK (a :: .star a :: rs) ts) : DK (.star a :: rs) ts := by
  obtain ⟨u, v, rfl, h1, w, x, rfl, h2, h3⟩ := h
  exact ⟨u ++ w, x, (List.append_assoc ..).symm, .more h1 h2, h3⟩
theorem DK.n {x rs ts} (h : DK (rule x :: rs) ts) : DK (.n x :: rs) ts := by
  obtain ⟨u, v, e, h1, h2⟩ := h; exact ⟨u, v, e, .n h1, h2⟩
theorem DK.out {r ts} (h : DK [r] ts) : Der rule r ts := by
  obtain ⟨u, v, rfl, h1, rfl⟩ := h; rwa [List.append_nil]
theorem DK.of1 {r u} (h : Der rule r u) : DK [r] u := ⟨u, [], (List.append_nil _).symm, h, rfl⟩

theorem DK.assoc {rs a b c} (h : DK rs (a ++ (b ++ c))) : DK rs ((a ++ b) ++ c) := by rwa [List.append_assoc]

/-! ### Inclusions between rules -/

theorem Der.mono_star {a b ts} (h : ∀ us, Der rule a us → Der rule b us) (h' : Der rule (.star a) ts) :
    Der rule (.star b) ts := by
  generalize hr : Rx.star a = r at h'
  induction h' with
  | stop => exact .stop
  | more h1 _ _ ih => cases hr; exact .more (h _ h1) (ih rfl)
  | _ => cases hr

theorem Der.testlist_star {ts} (h : Der rule (.n .testlist) ts) : Der rule (.n .testlist_star_expr) ts := by
  cases h with
  | n h =>
    cases h with
    | seq h1 h2 =>
      cases h2 with
      | seq h2 h3 =>
        refine .n (.seq (.left h1) (.seq (Der.mono_star (fun us hu => ?_) h2) h3))
        cases hu with
        | seq a b => exact .seq a (.left b)

theorem Der.test_named {ts} (h : Der rule (.n .test) ts) : Der rule (.n .namedexpr_test) ts := by
  refine .n (DK.out (DK.seq ?_))
  have : DK [.n .test, opt (.k .PyColonAssign ⬝ .n .test)] (ts ++ []) := .of h (.absent .nil)
  rwa [List.append_nil] at this

theorem Der.lambda_nocond {u ts} (hk : u.kind = .PyLambda)
    (h : Der rule (opt (.n .varargslist) ⬝ G.colon ⬝ .n .or_test) ts) : Der rule (.n .test_nocond) (u :: ts) := by
  refine .n (.right (.n (.seq (ts := [u]) (.k hk) ?_)))
  cases h with
  | seq h1 h2 =>
    cases h2 with
    | seq h2 h3 => exact .seq h1 (.seq h2 (.n (.left h3)))

theorem Der.lambda {u ts} (hk : u.kind = .PyLambda)
    (h : Der rule (opt (.n .varargslist) ⬝ G.colon ⬝ .n .test) ts) : Der rule (.n .test) (u :: ts) :=
  .n (.right (.n (.seq (ts := [u]) (.k hk) h)))

/-- One more round of a loop. -/
theorem Der.round {a x u v} (h : Der rule a u) (h' : Der rule (.star a ⬝ x) v) : Der rule (.star a ⬝ x) (u ++ v) := by
  cases h' with
  | seq h1 h2 => rw [← List.append_assoc]; exact .seq (.more h h1) h2

/-! ### Combining -/

section
variable [Uni]
theorem Gr.mk {r c c' ts} (h : Consumed c ts c') (h' : DK [r] ts) : Gr r c c' := ⟨ts, h, h'.out⟩
theorem Gr.elim {r c c'} (h : Gr r c c') : ∃ ts, Consumed c ts c' ∧ Der rule r ts := h
theorem gr_imp {r c c'} {P : Prop} : (Gr r c c' → P) ↔ ∀ ts, Consumed c ts c' → Der rule r ts → P :=
  ⟨fun h ts a b => h ⟨ts, a, b⟩, fun h ⟨ts, a, b⟩ => h ts a b⟩
theorem gr_exc {c : PSt} {x r c'} : Gr r ⟨c.lex, c.symbol, x⟩ c' ↔ Gr r c c' := by simp only [Gr, consumed_exc]
theorem gr_exc' {c c' : PSt} {x r} : Gr r c ⟨c'.lex, c'.symbol, x⟩ ↔ Gr r c c' :=
  ⟨fun ⟨ts, a, b⟩ => ⟨ts, a.congr' rfl rfl, b⟩, fun ⟨ts, a, b⟩ => ⟨ts, a.congr' rfl rfl, b⟩⟩
end

syntax "der" : tactic
macro_rules
  | `(tactic| der) => `(tactic| first
    | exact DK.nil
    | (refine DK.k (by assumption) ?_; der)
    | (refine DK.of (by assumption) ?_; der)
    | (refine DK.of (Der.test_named (by assumption)) ?_; der)
    | (refine DK.of (Der.testlist_star (by assumption)) ?_; der)
    | (refine DK.seq ?_; der)
    | (refine DK.present ?_; der)
    | (refine DK.absent ?_; der)
    | (refine DK.left ?_; der)
    | (refine DK.right ?_; der)
    | (refine DK.more ?_; der)
    | (refine DK.stop ?_; der)
    | (refine DK.any ?_; der)
    | (refine DK.n (x := .star_expr) ?_; der))

macro "gr_close" : tactic => `(tactic| ((try simp only [ΦG]); first
  | ((with_reducible apply Gr.mk); (consume); first | der | (refine DK.n ?_; der))
  | trivial
  | contradiction
  | (exfalso; simp_all only [Except.ok.injEq, reduceCtorEq, not_true_eq_false, not_false_eq_true]; done)))

syntax "gr_simp" (" [" Lean.Parser.Tactic.simpLemma,* "]")? : tactic
macro_rules
  | `(tactic| gr_simp) => `(tactic| gr_simp [])
  | `(tactic| gr_simp [$ls,*]) => `(tactic| simp only [wp_bind, wp_here, wp_symAt, wp_symHere, wp_sym?, wp_ite,
  wp_next, wp_mk, wp_parse, wp_fail, wp_failHere, wp_panic, wp_pure, wp_ret, wp_getExc, wp_setExc,
  implies_true, and_true, true_and, ΦG, advance_exc, gr_exc, gr_exc', consumed_exc, true_implies, imp_self, gr_imp, and_imp, forall_const, false_implies, $ls,*])

macro "gr_auto" : tactic => `(tactic| (wp_paths <;> (try casesm* _ ∨ _) <;> gr_close))

end Verif
