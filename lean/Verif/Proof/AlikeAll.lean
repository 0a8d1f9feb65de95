import Verif.Proof.Alike

/-!
# Every parse function does the same on symbols that are alike
-/

namespace Verif
open Prog

/-- `e` does not forget what the parser looks at. -/
class Keeps (e : Token → Token) : Prop where
  kind : ∀ {t u}, e t = e u → t.kind = u.kind
  isMatch : ∀ {t u}, e t = e u → t.isMatchName = u.isMatchName

section
variable {e : Token → Token} [Keeps e] {β : Type} [Lk e β]

theorem al_symAt {p q m} {f g : Token → Prog β}
    (h : ∀ t u, e t = e u → t.kind = u.kind → t.isMatchName = u.isMatchName → RelP e (f t) (g u)) :
    RelP e (Prog.symAt p m >>= f) (Prog.symAt q m >>= g) :=
  rel_symAt_bind fun t u x => h t u x (Keeps.kind x) (Keeps.isMatch x)
theorem al_symHere {m} {f g : Token → Prog β}
    (h : ∀ t u, e t = e u → t.kind = u.kind → t.isMatchName = u.isMatchName → RelP e (f t) (g u)) :
    RelP e (Prog.symHere m >>= f) (Prog.symHere m >>= g) :=
  rel_symHere_bind fun t u x => h t u x (Keeps.kind x) (Keeps.isMatch x)
theorem al_sym? {f g : Option Token → Prog β}
    (h : ∀ t u, e t = e u → t.kind = u.kind → t.isMatchName = u.isMatchName → RelP e (f (some t)) (g (some u)))
    (hn : RelP e (f none) (g none)) : RelP e (Prog.sym? >>= f) (Prog.sym? >>= g) :=
  rel_sym?_bind (fun t u x => h t u x (Keeps.kind x) (Keeps.isMatch x)) hn
omit [Keeps e] in
theorem al_parse {x y : Fn} {f g : Tree → Prog β} (hx : Fn.Like e x y)
    (h : ∀ t u : Tree, t.erase e = u.erase e → t.tag? = u.tag? → RelP e (f t) (g u)) :
    RelP e (Prog.parse x >>= f) (Prog.parse y >>= g) :=
  rel_parse_bind hx fun t u x => h t u x (tag_of_erase x)
omit [Keeps e] in
theorem al_bindT {p q : Prog Tree} {f g : Tree → Prog β} (hx : RelP e p q)
    (h : ∀ t u : Tree, t.erase e = u.erase e → t.tag? = u.tag? → RelP e (f t) (g u)) : RelP e (p >>= f) (q >>= g) :=
  rel_bind hx fun t u x => h t u x (tag_of_erase x)
end

attribute [local irreducible] RelP

macro "al_leaf" : tactic => `(tactic| first
  | trivial
  | rfl
  | assumption
  | (simp only [Lk.rel, Tree.erase, eraseList, eraseList_append, erase_toks, List.map_append, List.map_reverse, eraseList_reverse,
      List.map_cons, List.map_nil, VA.erase, *]; done))

macro "al_step'" : tactic => `(tactic| first
  | exact rel_panic
  | exact rel_fail
  | exact rel_failHere
  | (refine rel_here_bind ?_; intro _ _)
  | (refine rel_next_bind ?_)
  | (refine al_symAt ?_; intro _ _ _ _ _)
  | (refine al_symHere ?_; intro _ _ _ _ _)
  | (refine al_sym? ?_ ?_; intro _ _ _ _ _)
  | (refine al_parse ?_ ?_; rotate_left; intro _ _ _ _)
  | (refine rel_mk_bind ?_ ?_; rotate_left; intro _ _ _)
  | (refine rel_parse ?_)
  | (refine rel_mk ?_)
  | (refine rel_ite ?_ ?_ ?_)
  | (refine rel_pure ?_)
  | (refine rel_getExc ?_; intro x; cases x)
  | (refine rel_setExc ?_)
  | (refine al_bindT ?_ ?_; rotate_left; intro _ _ _ _)
  | (refine rel_bind ?_ ?_; rotate_left; intro _ _ _)
  | al_leaf
  | (with_reducible constructor)
  | (show RelP _ _ _; dsimp only))

theorem al_left {e : Token → Token} [Keeps e] (op : Kind → Option Tag) (operand : Fn) (self : Nat → Tree → Fn) (msg : String) (s s' : Nat) (left left' : Tree)
    (ho : Fn.Like e operand operand) (hs : ∀ s s' l l', Tree.erase e l = Tree.erase e l' → Fn.Like e (self s l) (self s' l'))
    (hl : left.erase e = left'.erase e) : RelP e (leftLoopBody op operand self msg s left) (leftLoopBody op operand self msg s' left') := by
  unfold leftLoopBody
  refine al_symAt ?_
  intro t u h hk hm
  rw [hk]
  cases op u.kind with
  | none => exact rel_pure hl
  | some tag =>
    refine rel_next_bind (rel_parse_bind ho fun a b hab => rel_mk_bind ?_ fun x y hxy => rel_parse (hs _ _ _ _ hxy))
    simp only [Tree.erase, eraseList, *]

theorem al_fin {e : Token → Token} (s s' : Nat) (await await' right right' : Tree) (lst lst' : List Tree)
    (h1 : await.erase e = await'.erase e) (h2 : right.erase e = right'.erase e) (h3 : eraseList e lst = eraseList e lst') :
    RelP e (trailerLoopBody.fin s await right lst) (trailerLoopBody.fin s' await' right' lst') := by
  have hn : eraseList e [await, right, .seq lst] = eraseList e [await', right', .seq lst'] := by
    simp only [Tree.erase, eraseList, *]
  unfold trailerLoopBody.fin
  cases await <;> cases await' <;> first | (simp only [Tree.erase, reduceCtorEq] at h1; done) | skip
  all_goals first
    | (cases lst <;> cases lst' <;> first
        | (simp only [eraseList, reduceCtorEq] at h3; done)
        | exact rel_pure h2
        | exact rel_mk hn)
    | exact rel_mk hn

theorem al_listResult {e : Token → Token} (tag) (s s' : Nat) (l l' : List Tree) (p p' : List Token)
    (h1 : eraseList e l = eraseList e l') (h2 : p.map e = p'.map e) :
    RelP e (listResult tag s l p) (listResult tag s' l' p') := by
  have hn : eraseList e [.seq l, .toks p] = eraseList e [.seq l', .toks p'] := by
    simp only [Tree.erase, eraseList, erase_toks, *]
  have hl : l.length = l'.length := by simpa [eraseList_eq_map] using congrArg List.length h1
  have hp : p.length = p'.length := by simpa using congrArg List.length h2
  unfold listResult
  match l, l', p, p' with
  | [x], [y], [], [] => exact rel_pure (show Tree.erase e _ = Tree.erase e _ by simpa [eraseList] using h1)
  | [], [], _, _ => exact rel_mk hn
  | _ :: _ :: _, _ :: _ :: _, _, _ => exact rel_mk hn
  | [x], [y], _ :: _, _ :: _ => exact rel_mk hn

theorem al_starResult {e : Token → Token} (s s' : Nat) (l l' : List Tree) (p p' : List Token)
    (h1 : eraseList e l = eraseList e l') (h2 : p.map e = p'.map e) :
    RelP e (testlistStarExprResult s l p) (testlistStarExprResult s' l' p') := by
  have := al_listResult .TestListStarExpr s s' l.reverse l'.reverse p.reverse p'.reverse (by rw [eraseList_reverse, eraseList_reverse, h1])
    (by rw [List.map_reverse, List.map_reverse, h2])
  have hx : ∀ s l p, testlistStarExprResult s l p = listResult .TestListStarExpr s l.reverse p.reverse := by
    intro s l p
    unfold testlistStarExprResult listResult
    generalize l.reverse = a
    generalize p.reverse = b
    match a, b with
    | [x], [] => rfl
    | [], _ => rfl
    | _ :: _ :: _, _ => rfl
    | [_], _ :: _ => rfl
  rw [hx, hx]
  exact this

macro "al_step" : tactic => `(tactic| first
  | al_step'
  | (refine al_fin _ _ _ _ _ _ _ _ ?_ ?_ ?_)
  | (refine al_listResult _ _ _ _ _ _ _ ?_ ?_)
  | (refine al_starResult _ _ _ _ _ _ ?_ ?_))

macro "al_auto" : tactic => `(tactic| (repeat' al_step))

theorem al_atom {e : Token → Token} [Keeps e]   : RelP e (atomBody) (atomBody) := by
  unfold atomBody; al_auto
theorem al_atomStrLoop {e : Token → Token} [Keeps e] (s s' : Nat) (toks toks' : List Token) (h0 : toks.map e = toks'.map e) : RelP e (atomStrLoopBody s toks) (atomStrLoopBody s' toks') := by
  unfold atomStrLoopBody; al_auto
theorem al_atomExpr {e : Token → Token} [Keeps e]   : RelP e (atomExprBody) (atomExprBody) := by
  unfold atomExprBody; al_auto
theorem al_trailerLoop {e : Token → Token} [Keeps e] (s s' : Nat) (await await' : Tree) (right right' : Tree) (lst lst' : List Tree) (h0 : Tree.erase e await = Tree.erase e await') (h1 : Tree.erase e right = Tree.erase e right') (h2 : eraseList e lst = eraseList e lst') : RelP e (trailerLoopBody s await right lst) (trailerLoopBody s' await' right' lst') := by
  unfold trailerLoopBody; al_auto
theorem al_power {e : Token → Token} [Keeps e]   : RelP e (powerBody) (powerBody) := by
  unfold powerBody; al_auto
theorem al_factor {e : Token → Token} [Keeps e]   : RelP e (factorBody) (factorBody) := by
  unfold factorBody; al_auto
theorem al_term {e : Token → Token} [Keeps e]   : RelP e (termBody) (termBody) := by
  unfold termBody; al_auto
theorem al_termLoop {e : Token → Token} [Keeps e] (s s' : Nat) (left left' : Tree) (h0 : Tree.erase e left = Tree.erase e left') : RelP e (termLoopBody s left) (termLoopBody s' left') := by
  unfold termLoopBody; exact al_left _ _ _ _ _ _ _ _ (by constructor) (by intros; constructor; assumption) h0
theorem al_arith {e : Token → Token} [Keeps e]   : RelP e (arithBody) (arithBody) := by
  unfold arithBody; al_auto
theorem al_arithLoop {e : Token → Token} [Keeps e] (s s' : Nat) (left left' : Tree) (h0 : Tree.erase e left = Tree.erase e left') : RelP e (arithLoopBody s left) (arithLoopBody s' left') := by
  unfold arithLoopBody; exact al_left _ _ _ _ _ _ _ _ (by constructor) (by intros; constructor; assumption) h0
theorem al_shift {e : Token → Token} [Keeps e]   : RelP e (shiftBody) (shiftBody) := by
  unfold shiftBody; al_auto
theorem al_shiftLoop {e : Token → Token} [Keeps e] (s s' : Nat) (left left' : Tree) (h0 : Tree.erase e left = Tree.erase e left') : RelP e (shiftLoopBody s left) (shiftLoopBody s' left') := by
  unfold shiftLoopBody; exact al_left _ _ _ _ _ _ _ _ (by constructor) (by intros; constructor; assumption) h0
theorem al_andExpr {e : Token → Token} [Keeps e]   : RelP e (andExprBody) (andExprBody) := by
  unfold andExprBody; al_auto
theorem al_andExprLoop {e : Token → Token} [Keeps e] (s s' : Nat) (left left' : Tree) (h0 : Tree.erase e left = Tree.erase e left') : RelP e (andExprLoopBody s left) (andExprLoopBody s' left') := by
  unfold andExprLoopBody; exact al_left _ _ _ _ _ _ _ _ (by constructor) (by intros; constructor; assumption) h0
theorem al_xorExpr {e : Token → Token} [Keeps e]   : RelP e (xorExprBody) (xorExprBody) := by
  unfold xorExprBody; al_auto
theorem al_xorExprLoop {e : Token → Token} [Keeps e] (s s' : Nat) (left left' : Tree) (h0 : Tree.erase e left = Tree.erase e left') : RelP e (xorExprLoopBody s left) (xorExprLoopBody s' left') := by
  unfold xorExprLoopBody; exact al_left _ _ _ _ _ _ _ _ (by constructor) (by intros; constructor; assumption) h0
theorem al_expr {e : Token → Token} [Keeps e]   : RelP e (exprBody) (exprBody) := by
  unfold exprBody; al_auto
theorem al_exprLoop {e : Token → Token} [Keeps e] (s s' : Nat) (left left' : Tree) (h0 : Tree.erase e left = Tree.erase e left') : RelP e (exprLoopBody s left) (exprLoopBody s' left') := by
  unfold exprLoopBody; exact al_left _ _ _ _ _ _ _ _ (by constructor) (by intros; constructor; assumption) h0
theorem al_starExpr {e : Token → Token} [Keeps e]   : RelP e (starExprBody) (starExprBody) := by
  unfold starExprBody; al_auto
theorem al_comparison {e : Token → Token} [Keeps e]   : RelP e (comparisonBody) (comparisonBody) := by
  unfold comparisonBody; al_auto
theorem al_comparisonLoop {e : Token → Token} [Keeps e] (s s' : Nat) (left left' : Tree) (h0 : Tree.erase e left = Tree.erase e left') : RelP e (comparisonLoopBody s left) (comparisonLoopBody s' left') := by
  unfold comparisonLoopBody; refine al_symAt ?_; intro t u h hk hm; rw [hk]; cases compOp u.kind <;> al_auto
theorem al_notTest {e : Token → Token} [Keeps e]   : RelP e (notTestBody) (notTestBody) := by
  unfold notTestBody; al_auto
theorem al_andTest {e : Token → Token} [Keeps e]   : RelP e (andTestBody) (andTestBody) := by
  unfold andTestBody; al_auto
theorem al_andTestLoop {e : Token → Token} [Keeps e] (s s' : Nat) (left left' : Tree) (h0 : Tree.erase e left = Tree.erase e left') : RelP e (andTestLoopBody s left) (andTestLoopBody s' left') := by
  unfold andTestLoopBody; exact al_left _ _ _ _ _ _ _ _ (by constructor) (by intros; constructor; assumption) h0
theorem al_orTest {e : Token → Token} [Keeps e]   : RelP e (orTestBody) (orTestBody) := by
  unfold orTestBody; al_auto
theorem al_orTestLoop {e : Token → Token} [Keeps e] (s s' : Nat) (left left' : Tree) (h0 : Tree.erase e left = Tree.erase e left') : RelP e (orTestLoopBody s left) (orTestLoopBody s' left') := by
  unfold orTestLoopBody; exact al_left _ _ _ _ _ _ _ _ (by constructor) (by intros; constructor; assumption) h0
theorem al_lambdaDef {e : Token → Token} [Keeps e] (cond : Bool)  : RelP e (lambdaDefBody cond) (lambdaDefBody cond) := by
  unfold lambdaDefBody; al_auto
theorem al_noCondTest {e : Token → Token} [Keeps e]   : RelP e (noCondTestBody) (noCondTestBody) := by
  unfold noCondTestBody; al_auto
theorem al_test {e : Token → Token} [Keeps e]   : RelP e (testBody) (testBody) := by
  unfold testBody; al_auto
theorem al_namedExpression {e : Token → Token} [Keeps e]   : RelP e (namedExpressionBody) (namedExpressionBody) := by
  unfold namedExpressionBody; al_auto
theorem al_testlistComp {e : Token → Token} [Keeps e]   : RelP e (testlistCompBody) (testlistCompBody) := by
  unfold testlistCompBody starOrNamed; al_auto
theorem al_testlistCompLoop {e : Token → Token} [Keeps e] (s s' : Nat) (nodes nodes' : List Tree) (seps seps' : List Token) (h0 : eraseList e nodes = eraseList e nodes') (h1 : seps.map e = seps'.map e) : RelP e (testlistCompLoopBody s nodes seps) (testlistCompLoopBody s' nodes' seps') := by
  unfold testlistCompLoopBody starOrNamed; al_auto
theorem al_trailer {e : Token → Token} [Keeps e]   : RelP e (trailerBody) (trailerBody) := by
  unfold trailerBody; al_auto
theorem al_subscriptList {e : Token → Token} [Keeps e]   : RelP e (subscriptListBody) (subscriptListBody) := by
  unfold subscriptListBody; al_auto
theorem al_subscriptListLoop {e : Token → Token} [Keeps e] (s s' : Nat) (nodes nodes' : List Tree) (seps seps' : List Token) (h0 : eraseList e nodes = eraseList e nodes') (h1 : seps.map e = seps'.map e) : RelP e (subscriptListLoopBody s nodes seps) (subscriptListLoopBody s' nodes' seps') := by
  unfold subscriptListLoopBody; al_auto
theorem al_subscript {e : Token → Token} [Keeps e]   : RelP e (subscriptBody) (subscriptBody) := by
  unfold subscriptBody; al_auto
theorem al_exprlist {e : Token → Token} [Keeps e]   : RelP e (exprlistBody) (exprlistBody) := by
  unfold exprlistBody starOrNamed; al_auto
theorem al_exprlistLoop {e : Token → Token} [Keeps e] (s s' : Nat) (nodes nodes' : List Tree) (seps seps' : List Token) (h0 : eraseList e nodes = eraseList e nodes') (h1 : seps.map e = seps'.map e) : RelP e (exprlistLoopBody s nodes seps) (exprlistLoopBody s' nodes' seps') := by
  unfold exprlistLoopBody; al_auto
theorem al_testlist {e : Token → Token} [Keeps e]   : RelP e (testlistBody) (testlistBody) := by
  unfold testlistBody; al_auto
theorem al_testlistLoop {e : Token → Token} [Keeps e] (s s' : Nat) (nodes nodes' : List Tree) (seps seps' : List Token) (h0 : eraseList e nodes = eraseList e nodes') (h1 : seps.map e = seps'.map e) : RelP e (testlistLoopBody s nodes seps) (testlistLoopBody s' nodes' seps') := by
  unfold testlistLoopBody; al_auto
theorem al_dictorsetMaker {e : Token → Token} [Keeps e]   : RelP e (dictorsetMakerBody) (dictorsetMakerBody) := by
  unfold dictorsetMakerBody dictRest dictRest.fin; al_auto
theorem al_setLoop {e : Token → Token} [Keeps e] (s s' : Nat) (nodes nodes' : List Tree) (seps seps' : List Token) (h0 : eraseList e nodes = eraseList e nodes') (h1 : seps.map e = seps'.map e) : RelP e (setLoopBody s nodes seps) (setLoopBody s' nodes' seps') := by
  unfold setLoopBody; al_auto
theorem al_arglist {e : Token → Token} [Keeps e]   : RelP e (arglistBody) (arglistBody) := by
  unfold arglistBody; al_auto
theorem al_arglistLoop {e : Token → Token} [Keeps e] (s s' : Nat) (nodes nodes' : List Tree) (seps seps' : List Token) (h0 : eraseList e nodes = eraseList e nodes') (h1 : seps.map e = seps'.map e) : RelP e (arglistLoopBody s nodes seps) (arglistLoopBody s' nodes' seps') := by
  unfold arglistLoopBody; al_auto
theorem al_argument {e : Token → Token} [Keeps e]   : RelP e (argumentBody) (argumentBody) := by
  unfold argumentBody; al_auto
theorem al_compIter {e : Token → Token} [Keeps e]   : RelP e (compIterBody) (compIterBody) := by
  unfold compIterBody; al_auto
theorem al_syncCompFor {e : Token → Token} [Keeps e]   : RelP e (syncCompForBody) (syncCompForBody) := by
  unfold syncCompForBody; al_auto
theorem al_compFor {e : Token → Token} [Keeps e]   : RelP e (compForBody) (compForBody) := by
  unfold compForBody; al_auto
theorem al_compIf {e : Token → Token} [Keeps e]   : RelP e (compIfBody) (compIfBody) := by
  unfold compIfBody; al_auto
theorem al_yieldExpr {e : Token → Token} [Keeps e]   : RelP e (yieldExprBody) (yieldExprBody) := by
  unfold yieldExprBody; al_auto
theorem al_testlistStarExpr {e : Token → Token} [Keeps e]   : RelP e (testlistStarExprBody) (testlistStarExprBody) := by
  unfold testlistStarExprBody; al_auto
theorem al_testlistStarExprLoop {e : Token → Token} [Keeps e] (s s' : Nat) (nodes nodes' : List Tree) (seps seps' : List Token) (h0 : eraseList e nodes = eraseList e nodes') (h1 : seps.map e = seps'.map e) : RelP e (testlistStarExprLoopBody s nodes seps) (testlistStarExprLoopBody s' nodes' seps') := by
  unfold testlistStarExprLoopBody; al_auto
theorem al_varArgsList {e : Token → Token} [Keeps e]   : RelP e (varArgsListBody) (varArgsListBody) := by
  unfold varArgsListBody varArgsMul varArgsPower varArgsResult; al_auto
theorem al_varArgsMainLoop {e : Token → Token} [Keeps e] (s s' : Nat) (v v' : VA) (h0 : v.erase e = v'.erase e) : RelP e (varArgsMainLoopBody s v) (varArgsMainLoopBody s' v') := by
  cases v; cases v'; simp only [VA.erase, VA.mk.injEq] at h0; obtain ⟨h1, h2, h3, h4, h5, h6, h7⟩ := h0; unfold varArgsMainLoopBody varArgsMul varArgsPower varArgsResult; al_auto
theorem al_varArgsStarLoop {e : Token → Token} [Keeps e] (s s' : Nat) (v v' : VA) (h0 : v.erase e = v'.erase e) : RelP e (varArgsStarLoopBody s v) (varArgsStarLoopBody s' v') := by
  cases v; cases v'; simp only [VA.erase, VA.mk.injEq] at h0; obtain ⟨h1, h2, h3, h4, h5, h6, h7⟩ := h0; unfold varArgsStarLoopBody varArgsPower varArgsResult; al_auto
theorem al_varArgsDivLoop {e : Token → Token} [Keeps e] (s s' : Nat) (v v' : VA) (h0 : v.erase e = v'.erase e) : RelP e (varArgsDivLoopBody s v) (varArgsDivLoopBody s' v') := by
  cases v; cases v'; simp only [VA.erase, VA.mk.injEq] at h0; obtain ⟨h1, h2, h3, h4, h5, h6, h7⟩ := h0; unfold varArgsDivLoopBody varArgsMul varArgsPower varArgsResult; al_auto
theorem al_varArgsAssignments {e : Token → Token} [Keeps e]   : RelP e (varArgsAssignmentsBody) (varArgsAssignmentsBody) := by
  unfold varArgsAssignmentsBody; al_auto
theorem al_vfpDef {e : Token → Token} [Keeps e]   : RelP e (vfpDefBody) (vfpDefBody) := by
  unfold vfpDefBody; al_auto
theorem al_stmt {e : Token → Token} [Keeps e]   : RelP e (stmtBody) (stmtBody) := by
  unfold stmtBody; al_auto
theorem al_simpleStmt {e : Token → Token} [Keeps e]   : RelP e (simpleStmtBody) (simpleStmtBody) := by
  unfold simpleStmtBody; al_auto
theorem al_simpleStmtLoop {e : Token → Token} [Keeps e] (s s' : Nat) (nodes nodes' : List Tree) (seps seps' : List Token) (h0 : eraseList e nodes = eraseList e nodes') (h1 : seps.map e = seps'.map e) : RelP e (simpleStmtLoopBody s nodes seps) (simpleStmtLoopBody s' nodes' seps') := by
  unfold simpleStmtLoopBody simpleStmtLoopBody.fin; al_auto
theorem al_smallStmt {e : Token → Token} [Keeps e]   : RelP e (smallStmtBody) (smallStmtBody) := by
  unfold smallStmtBody; al_auto
theorem al_exprStmt {e : Token → Token} [Keeps e]   : RelP e (exprStmtBody) (exprStmtBody) := by
  unfold exprStmtBody yieldOrTestlist
  refine rel_here_bind fun p q => al_parse (by constructor) ?_
  intro a b ha _
  refine al_symAt ?_; intro t u h hk hm; rw [hk]; cases augOp u.kind <;> al_auto
theorem al_assignLoop {e : Token → Token} [Keeps e] (s s' : Nat) (left left' : Tree) (nodes nodes' : List Tree) (h0 : Tree.erase e left = Tree.erase e left') (h1 : eraseList e nodes = eraseList e nodes') : RelP e (assignLoopBody s left nodes) (assignLoopBody s' left' nodes') := by
  unfold assignLoopBody yieldOrTestlist; al_auto
theorem al_annAssign {e : Token → Token} [Keeps e] (s s' : Nat) (left left' : Tree) (h0 : Tree.erase e left = Tree.erase e left') : RelP e (annAssignBody s left) (annAssignBody s' left') := by
  unfold annAssignBody yieldOrTestlist; al_auto
theorem al_delStmt {e : Token → Token} [Keeps e]   : RelP e (delStmtBody) (delStmtBody) := by
  unfold delStmtBody; al_auto
theorem al_passStmt {e : Token → Token} [Keeps e]   : RelP e (passStmtBody) (passStmtBody) := by
  unfold passStmtBody; al_auto
theorem al_flowStmt {e : Token → Token} [Keeps e]   : RelP e (flowStmtBody) (flowStmtBody) := by
  unfold flowStmtBody; al_auto
theorem al_breakStmt {e : Token → Token} [Keeps e]   : RelP e (breakStmtBody) (breakStmtBody) := by
  unfold breakStmtBody; al_auto
theorem al_continueStmt {e : Token → Token} [Keeps e]   : RelP e (continueStmtBody) (continueStmtBody) := by
  unfold continueStmtBody; al_auto
theorem al_returnStmt {e : Token → Token} [Keeps e]   : RelP e (returnStmtBody) (returnStmtBody) := by
  unfold returnStmtBody; al_auto
theorem al_yieldStmt {e : Token → Token} [Keeps e]   : RelP e (yieldStmtBody) (yieldStmtBody) := by
  unfold yieldStmtBody; al_auto
theorem al_raiseStmt {e : Token → Token} [Keeps e]   : RelP e (raiseStmtBody) (raiseStmtBody) := by
  unfold raiseStmtBody; al_auto
theorem al_importStmt {e : Token → Token} [Keeps e]   : RelP e (importStmtBody) (importStmtBody) := by
  unfold importStmtBody; al_auto
theorem al_importName {e : Token → Token} [Keeps e]   : RelP e (importNameBody) (importNameBody) := by
  unfold importNameBody; al_auto
theorem al_importFrom {e : Token → Token} [Keeps e]   : RelP e (importFromBody) (importFromBody) := by
  unfold importFromBody; al_auto
theorem al_importDotLoop {e : Token → Token} [Keeps e] (s s' : Nat) (sym1 sym1' : Token) (dots dots' : List Token) (h0 : e sym1 = e sym1') (h1 : dots.map e = dots'.map e) : RelP e (importDotLoopBody s sym1 dots) (importDotLoopBody s' sym1' dots') := by
  have hl : dots.reverse.length = dots'.reverse.length := by simpa using congrArg List.length h1
  unfold importDotLoopBody importFromRest; al_auto
theorem al_importAsName {e : Token → Token} [Keeps e]   : RelP e (importAsNameBody) (importAsNameBody) := by
  unfold importAsNameBody; al_auto
theorem al_dottedAsName {e : Token → Token} [Keeps e]   : RelP e (dottedAsNameBody) (dottedAsNameBody) := by
  unfold dottedAsNameBody; al_auto
theorem al_importAsNames {e : Token → Token} [Keeps e]   : RelP e (importAsNamesBody) (importAsNamesBody) := by
  unfold importAsNamesBody; al_auto
theorem al_importAsNamesLoop {e : Token → Token} [Keeps e] (s s' : Nat) (nodes nodes' : List Tree) (seps seps' : List Token) (h0 : eraseList e nodes = eraseList e nodes') (h1 : seps.map e = seps'.map e) : RelP e (importAsNamesLoopBody s nodes seps) (importAsNamesLoopBody s' nodes' seps') := by
  unfold importAsNamesLoopBody; al_auto
theorem al_dottedAsNames {e : Token → Token} [Keeps e]   : RelP e (dottedAsNamesBody) (dottedAsNamesBody) := by
  unfold dottedAsNamesBody; al_auto
theorem al_dottedAsNamesLoop {e : Token → Token} [Keeps e] (s s' : Nat) (nodes nodes' : List Tree) (seps seps' : List Token) (h0 : eraseList e nodes = eraseList e nodes') (h1 : seps.map e = seps'.map e) : RelP e (dottedAsNamesLoopBody s nodes seps) (dottedAsNamesLoopBody s' nodes' seps') := by
  unfold dottedAsNamesLoopBody; al_auto
theorem al_dottedName {e : Token → Token} [Keeps e]   : RelP e (dottedNameBody) (dottedNameBody) := by
  unfold dottedNameBody; al_auto
theorem al_dottedNameLoop {e : Token → Token} [Keeps e] (s s' : Nat) (nodes nodes' : List Token) (seps seps' : List Token) (h0 : nodes.map e = nodes'.map e) (h1 : seps.map e = seps'.map e) : RelP e (dottedNameLoopBody s nodes seps) (dottedNameLoopBody s' nodes' seps') := by
  unfold dottedNameLoopBody; al_auto
theorem al_globalStmt {e : Token → Token} [Keeps e]   : RelP e (globalStmtBody) (globalStmtBody) := by
  unfold globalStmtBody; al_auto
theorem al_globalLoop {e : Token → Token} [Keeps e] (s s' : Nat) (sym sym' : Token) (nodes nodes' : List Token) (seps seps' : List Token) (h0 : e sym = e sym') (h1 : nodes.map e = nodes'.map e) (h2 : seps.map e = seps'.map e) : RelP e (globalLoopBody s sym nodes seps) (globalLoopBody s' sym' nodes' seps') := by
  unfold globalLoopBody; al_auto
theorem al_nonlocalStmt {e : Token → Token} [Keeps e]   : RelP e (nonlocalStmtBody) (nonlocalStmtBody) := by
  unfold nonlocalStmtBody; al_auto
theorem al_nonlocalLoop {e : Token → Token} [Keeps e] (s s' : Nat) (sym sym' : Token) (nodes nodes' : List Token) (seps seps' : List Token) (h0 : e sym = e sym') (h1 : nodes.map e = nodes'.map e) (h2 : seps.map e = seps'.map e) : RelP e (nonlocalLoopBody s sym nodes seps) (nonlocalLoopBody s' sym' nodes' seps') := by
  unfold nonlocalLoopBody; al_auto
theorem al_assertStmt {e : Token → Token} [Keeps e]   : RelP e (assertStmtBody) (assertStmtBody) := by
  unfold assertStmtBody; al_auto
theorem al_compoundStmt {e : Token → Token} [Keeps e]   : RelP e (compoundStmtBody) (compoundStmtBody) := by
  unfold compoundStmtBody; al_auto
theorem al_asyncStmt {e : Token → Token} [Keeps e]   : RelP e (asyncStmtBody) (asyncStmtBody) := by
  unfold asyncStmtBody; al_auto
theorem al_ifStmt {e : Token → Token} [Keeps e]   : RelP e (ifStmtBody) (ifStmtBody) := by
  unfold ifStmtBody; al_auto
theorem al_ifLoop {e : Token → Token} [Keeps e] (s s' : Nat) (sym1 sym1' : Token) (left left' : Tree) (sym2 sym2' : Token) (right right' : Tree) (nodes nodes' : List Tree) (h0 : e sym1 = e sym1') (h1 : Tree.erase e left = Tree.erase e left') (h2 : e sym2 = e sym2') (h3 : Tree.erase e right = Tree.erase e right') (h4 : eraseList e nodes = eraseList e nodes') : RelP e (ifLoopBody s sym1 left sym2 right nodes) (ifLoopBody s' sym1' left' sym2' right' nodes') := by
  unfold ifLoopBody; al_auto
theorem al_elifStmt {e : Token → Token} [Keeps e]   : RelP e (elifStmtBody) (elifStmtBody) := by
  unfold elifStmtBody; al_auto
theorem al_elseStmt {e : Token → Token} [Keeps e]   : RelP e (elseStmtBody) (elseStmtBody) := by
  unfold elseStmtBody; al_auto
theorem al_whileStmt {e : Token → Token} [Keeps e]   : RelP e (whileStmtBody) (whileStmtBody) := by
  unfold whileStmtBody; al_auto
theorem al_forStmt {e : Token → Token} [Keeps e]   : RelP e (forStmtBody) (forStmtBody) := by
  unfold forStmtBody; al_auto
theorem al_tryStmt {e : Token → Token} [Keeps e]   : RelP e (tryStmtBody) (tryStmtBody) := by
  unfold tryStmtBody; al_auto
theorem al_tryLoop {e : Token → Token} [Keeps e] (s s' : Nat) (sym1 sym1' : Token) (sym2 sym2' : Token) (left left' : Tree) (nodes nodes' : List Tree) (h0 : e sym1 = e sym1') (h1 : e sym2 = e sym2') (h2 : Tree.erase e left = Tree.erase e left') (h3 : eraseList e nodes = eraseList e nodes') : RelP e (tryLoopBody s sym1 sym2 left nodes) (tryLoopBody s' sym1' sym2' left' nodes') := by
  unfold tryLoopBody; al_auto
theorem al_finallyStmt {e : Token → Token} [Keeps e]   : RelP e (finallyStmtBody) (finallyStmtBody) := by
  unfold finallyStmtBody; al_auto
theorem al_withStmt {e : Token → Token} [Keeps e]   : RelP e (withStmtBody) (withStmtBody) := by
  unfold withStmtBody; al_auto
theorem al_withParenLoop {e : Token → Token} [Keeps e] (s s' : Nat) (sym1 sym1' : Token) (lpar lpar' : Token) (nodes nodes' : List Tree) (seps seps' : List Token) (h0 : e sym1 = e sym1') (h1 : e lpar = e lpar') (h2 : eraseList e nodes = eraseList e nodes') (h3 : seps.map e = seps'.map e) : RelP e (withParenLoopBody s sym1 lpar nodes seps) (withParenLoopBody s' sym1' lpar' nodes' seps') := by
  unfold withParenLoopBody withParenEnd withRest; al_auto
theorem al_withLoop {e : Token → Token} [Keeps e] (s s' : Nat) (sym1 sym1' : Token) (nodes nodes' : List Tree) (seps seps' : List Token) (h0 : e sym1 = e sym1') (h1 : eraseList e nodes = eraseList e nodes') (h2 : seps.map e = seps'.map e) : RelP e (withLoopBody s sym1 nodes seps) (withLoopBody s' sym1' nodes' seps') := by
  unfold withLoopBody withRest; al_auto
theorem al_withItem {e : Token → Token} [Keeps e]   : RelP e (withItemBody) (withItemBody) := by
  unfold withItemBody; al_auto
theorem al_exceptStmt {e : Token → Token} [Keeps e]   : RelP e (exceptStmtBody) (exceptStmtBody) := by
  unfold exceptStmtBody; al_auto
theorem al_exceptClause {e : Token → Token} [Keeps e]   : RelP e (exceptClauseBody) (exceptClauseBody) := by
  unfold exceptClauseBody exceptStar; al_auto
theorem al_suite {e : Token → Token} [Keeps e]   : RelP e (suiteBody) (suiteBody) := by
  unfold suiteBody; al_auto
theorem al_suiteLoop {e : Token → Token} [Keeps e] (s s' : Nat) (sym1 sym1' : Token) (sym2 sym2' : Token) (nodes nodes' : List Tree) (h0 : e sym1 = e sym1') (h1 : e sym2 = e sym2') (h2 : eraseList e nodes = eraseList e nodes') : RelP e (suiteLoopBody s sym1 sym2 nodes) (suiteLoopBody s' sym1' sym2' nodes') := by
  unfold suiteLoopBody; al_auto
theorem al_evalLoop {e : Token → Token} [Keeps e] (s s' : Nat) (right right' : Tree) (seps seps' : List Token) (h0 : Tree.erase e right = Tree.erase e right') (h1 : seps.map e = seps'.map e) : RelP e (evalLoopBody s right seps) (evalLoopBody s' right' seps') := by
  unfold evalLoopBody; al_auto
theorem al_fileLoop {e : Token → Token} [Keeps e] (s s' : Nat) (nodes nodes' : List Tree) (seps seps' : List Token) (h0 : eraseList e nodes = eraseList e nodes') (h1 : seps.map e = seps'.map e) : RelP e (fileLoopBody s nodes seps) (fileLoopBody s' nodes' seps') := by
  unfold fileLoopBody; al_auto
theorem al_funcTypeLoop {e : Token → Token} [Keeps e] (s s' : Nat) (right right' : Tree) (seps seps' : List Token) (h0 : Tree.erase e right = Tree.erase e right') (h1 : seps.map e = seps'.map e) : RelP e (funcTypeLoopBody s right seps) (funcTypeLoopBody s' right' seps') := by
  unfold funcTypeLoopBody; al_auto
theorem al_decorator {e : Token → Token} [Keeps e]   : RelP e (decoratorBody) (decoratorBody) := by
  unfold decoratorBody decoratorEnd; al_auto
theorem al_decorators {e : Token → Token} [Keeps e]   : RelP e (decoratorsBody) (decoratorsBody) := by
  unfold decoratorsBody; al_auto
theorem al_decoratorsLoop {e : Token → Token} [Keeps e] (s s' : Nat) (nodes nodes' : List Tree) (h0 : eraseList e nodes = eraseList e nodes') : RelP e (decoratorsLoopBody s nodes) (decoratorsLoopBody s' nodes') := by
  unfold decoratorsLoopBody; al_auto
theorem al_decorated {e : Token → Token} [Keeps e]   : RelP e (decoratedBody) (decoratedBody) := by
  unfold decoratedBody; al_auto
theorem al_asyncFuncDef {e : Token → Token} [Keeps e]   : RelP e (asyncFuncDefBody) (asyncFuncDefBody) := by
  unfold asyncFuncDefBody; al_auto
theorem al_funcDef {e : Token → Token} [Keeps e]   : RelP e (funcDefBody) (funcDefBody) := by
  unfold funcDefBody; al_auto
theorem al_parameters {e : Token → Token} [Keeps e]   : RelP e (parametersBody) (parametersBody) := by
  unfold parametersBody; al_auto
theorem al_typedArgsList {e : Token → Token} [Keeps e]   : RelP e (typedArgsListBody) (typedArgsListBody) := by
  unfold typedArgsListBody; al_auto
theorem al_tfpDefAssign {e : Token → Token} [Keeps e]   : RelP e (tfpDefAssignBody) (tfpDefAssignBody) := by
  unfold tfpDefAssignBody; al_auto
theorem al_tfpDef {e : Token → Token} [Keeps e]   : RelP e (tfpDefBody) (tfpDefBody) := by
  unfold tfpDefBody; al_auto
theorem al_funcBodySuite {e : Token → Token} [Keeps e]   : RelP e (funcBodySuiteBody) (funcBodySuiteBody) := by
  unfold funcBodySuiteBody funcBodyIndent; al_auto
theorem al_funcBodyLoop {e : Token → Token} [Keeps e] (s s' : Nat) (sym1 sym1' : Token) (tc tc' : Tree) (tcnl tcnl' : Tree) (sym2 sym2' : Token) (nodes nodes' : List Tree) (h0 : e sym1 = e sym1') (h1 : Tree.erase e tc = Tree.erase e tc') (h2 : Tree.erase e tcnl = Tree.erase e tcnl') (h3 : e sym2 = e sym2') (h4 : eraseList e nodes = eraseList e nodes') : RelP e (funcBodyLoopBody s sym1 tc tcnl sym2 nodes) (funcBodyLoopBody s' sym1' tc' tcnl' sym2' nodes') := by
  unfold funcBodyLoopBody; al_auto
theorem al_classDef {e : Token → Token} [Keeps e]   : RelP e (classDefBody) (classDefBody) := by
  unfold classDefBody classRest; al_auto
theorem al_funcType {e : Token → Token} [Keeps e]   : RelP e (funcTypeBody) (funcTypeBody) := by
  unfold funcTypeBody; al_auto
theorem al_typeList {e : Token → Token} [Keeps e]   : RelP e (typeListBody) (typeListBody) := by
  unfold typeListBody typeListMul typeListPower typeListResult; al_auto
theorem al_typeListMainLoop {e : Token → Token} [Keeps e] (s s' : Nat) (v v' : VA) (h0 : v.erase e = v'.erase e) : RelP e (typeListMainLoopBody s v) (typeListMainLoopBody s' v') := by
  cases v; cases v'; simp only [VA.erase, VA.mk.injEq] at h0; obtain ⟨h1, h2, h3, h4, h5, h6, h7⟩ := h0; unfold typeListMainLoopBody typeListMul typeListPower typeListResult; al_auto
theorem al_typeListStarLoop {e : Token → Token} [Keeps e] (s s' : Nat) (v v' : VA) (h0 : v.erase e = v'.erase e) : RelP e (typeListStarLoopBody s v) (typeListStarLoopBody s' v') := by
  cases v; cases v'; simp only [VA.erase, VA.mk.injEq] at h0; obtain ⟨h1, h2, h3, h4, h5, h6, h7⟩ := h0; unfold typeListStarLoopBody typeListPower typeListResult; al_auto
theorem al_evalInput {e : Token → Token} [Keeps e]   : RelP e (evalInputBody) (evalInputBody) := by
  unfold evalInputBody; al_auto
theorem al_fileInput {e : Token → Token} [Keeps e]   : RelP e (fileInputBody) (fileInputBody) := by
  unfold fileInputBody; al_auto
theorem al_singleInput {e : Token → Token} [Keeps e]   : RelP e (singleInputBody) (singleInputBody) := by
  unfold singleInputBody; al_auto
theorem al_funcTypeInput {e : Token → Token} [Keeps e]   : RelP e (funcTypeInputBody) (funcTypeInputBody) := by
  unfold funcTypeInputBody; al_auto
theorem al_patternsMatch {e : Token → Token} [Keeps e]   : RelP e (patternsMatchBody) (patternsMatchBody) := by
  unfold patternsMatchBody; al_auto

theorem al_body {e : Token → Token} [Keeps e] {f g : Fn} (h : Fn.Like e f g) : RelP e (body f) (body g) := by
  cases h
  case atom => exact al_atom 
  case atomStrLoop => exact al_atomStrLoop _ _ _ _ (by assumption)
  case atomExpr => exact al_atomExpr 
  case trailerLoop => exact al_trailerLoop _ _ _ _ _ _ _ _ (by assumption) (by assumption) (by assumption)
  case power => exact al_power 
  case factor => exact al_factor 
  case term => exact al_term 
  case termLoop => exact al_termLoop _ _ _ _ (by assumption)
  case arith => exact al_arith 
  case arithLoop => exact al_arithLoop _ _ _ _ (by assumption)
  case shift => exact al_shift 
  case shiftLoop => exact al_shiftLoop _ _ _ _ (by assumption)
  case andExpr => exact al_andExpr 
  case andExprLoop => exact al_andExprLoop _ _ _ _ (by assumption)
  case xorExpr => exact al_xorExpr 
  case xorExprLoop => exact al_xorExprLoop _ _ _ _ (by assumption)
  case expr => exact al_expr 
  case exprLoop => exact al_exprLoop _ _ _ _ (by assumption)
  case starExpr => exact al_starExpr 
  case comparison => exact al_comparison 
  case comparisonLoop => exact al_comparisonLoop _ _ _ _ (by assumption)
  case notTest => exact al_notTest 
  case andTest => exact al_andTest 
  case andTestLoop => exact al_andTestLoop _ _ _ _ (by assumption)
  case orTest => exact al_orTest 
  case orTestLoop => exact al_orTestLoop _ _ _ _ (by assumption)
  case lambdaDef => exact al_lambdaDef _
  case noCondTest => exact al_noCondTest 
  case test => exact al_test 
  case namedExpression => exact al_namedExpression 
  case testlistComp => exact al_testlistComp 
  case testlistCompLoop => exact al_testlistCompLoop _ _ _ _ _ _ (by assumption) (by assumption)
  case trailer => exact al_trailer 
  case subscriptList => exact al_subscriptList 
  case subscriptListLoop => exact al_subscriptListLoop _ _ _ _ _ _ (by assumption) (by assumption)
  case subscript => exact al_subscript 
  case exprlist => exact al_exprlist 
  case exprlistLoop => exact al_exprlistLoop _ _ _ _ _ _ (by assumption) (by assumption)
  case testlist => exact al_testlist 
  case testlistLoop => exact al_testlistLoop _ _ _ _ _ _ (by assumption) (by assumption)
  case dictorsetMaker => exact al_dictorsetMaker 
  case setLoop => exact al_setLoop _ _ _ _ _ _ (by assumption) (by assumption)
  case arglist => exact al_arglist 
  case arglistLoop => exact al_arglistLoop _ _ _ _ _ _ (by assumption) (by assumption)
  case argument => exact al_argument 
  case compIter => exact al_compIter 
  case syncCompFor => exact al_syncCompFor 
  case compFor => exact al_compFor 
  case compIf => exact al_compIf 
  case yieldExpr => exact al_yieldExpr 
  case testlistStarExpr => exact al_testlistStarExpr 
  case testlistStarExprLoop => exact al_testlistStarExprLoop _ _ _ _ _ _ (by assumption) (by assumption)
  case varArgsList => exact al_varArgsList 
  case varArgsMainLoop => exact al_varArgsMainLoop _ _ _ _ (by assumption)
  case varArgsStarLoop => exact al_varArgsStarLoop _ _ _ _ (by assumption)
  case varArgsDivLoop => exact al_varArgsDivLoop _ _ _ _ (by assumption)
  case varArgsAssignments => exact al_varArgsAssignments 
  case vfpDef => exact al_vfpDef 
  case stmt => exact al_stmt 
  case simpleStmt => exact al_simpleStmt 
  case simpleStmtLoop => exact al_simpleStmtLoop _ _ _ _ _ _ (by assumption) (by assumption)
  case smallStmt => exact al_smallStmt 
  case exprStmt => exact al_exprStmt 
  case assignLoop => exact al_assignLoop _ _ _ _ _ _ (by assumption) (by assumption)
  case annAssign => exact al_annAssign _ _ _ _ (by assumption)
  case delStmt => exact al_delStmt 
  case passStmt => exact al_passStmt 
  case flowStmt => exact al_flowStmt 
  case breakStmt => exact al_breakStmt 
  case continueStmt => exact al_continueStmt 
  case returnStmt => exact al_returnStmt 
  case yieldStmt => exact al_yieldStmt 
  case raiseStmt => exact al_raiseStmt 
  case importStmt => exact al_importStmt 
  case importName => exact al_importName 
  case importFrom => exact al_importFrom 
  case importDotLoop => exact al_importDotLoop _ _ _ _ _ _ (by assumption) (by assumption)
  case importAsName => exact al_importAsName 
  case dottedAsName => exact al_dottedAsName 
  case importAsNames => exact al_importAsNames 
  case importAsNamesLoop => exact al_importAsNamesLoop _ _ _ _ _ _ (by assumption) (by assumption)
  case dottedAsNames => exact al_dottedAsNames 
  case dottedAsNamesLoop => exact al_dottedAsNamesLoop _ _ _ _ _ _ (by assumption) (by assumption)
  case dottedName => exact al_dottedName 
  case dottedNameLoop => exact al_dottedNameLoop _ _ _ _ _ _ (by assumption) (by assumption)
  case globalStmt => exact al_globalStmt 
  case globalLoop => exact al_globalLoop _ _ _ _ _ _ _ _ (by assumption) (by assumption) (by assumption)
  case nonlocalStmt => exact al_nonlocalStmt 
  case nonlocalLoop => exact al_nonlocalLoop _ _ _ _ _ _ _ _ (by assumption) (by assumption) (by assumption)
  case assertStmt => exact al_assertStmt 
  case compoundStmt => exact al_compoundStmt 
  case asyncStmt => exact al_asyncStmt 
  case ifStmt => exact al_ifStmt 
  case ifLoop => exact al_ifLoop _ _ _ _ _ _ _ _ _ _ _ _ (by assumption) (by assumption) (by assumption) (by assumption) (by assumption)
  case elifStmt => exact al_elifStmt 
  case elseStmt => exact al_elseStmt 
  case whileStmt => exact al_whileStmt 
  case forStmt => exact al_forStmt 
  case tryStmt => exact al_tryStmt 
  case tryLoop => exact al_tryLoop _ _ _ _ _ _ _ _ _ _ (by assumption) (by assumption) (by assumption) (by assumption)
  case finallyStmt => exact al_finallyStmt 
  case withStmt => exact al_withStmt 
  case withParenLoop => exact al_withParenLoop _ _ _ _ _ _ _ _ _ _ (by assumption) (by assumption) (by assumption) (by assumption)
  case withLoop => exact al_withLoop _ _ _ _ _ _ _ _ (by assumption) (by assumption) (by assumption)
  case withItem => exact al_withItem 
  case exceptStmt => exact al_exceptStmt 
  case exceptClause => exact al_exceptClause 
  case suite => exact al_suite 
  case suiteLoop => exact al_suiteLoop _ _ _ _ _ _ _ _ (by assumption) (by assumption) (by assumption)
  case evalLoop => exact al_evalLoop _ _ _ _ _ _ (by assumption) (by assumption)
  case fileLoop => exact al_fileLoop _ _ _ _ _ _ (by assumption) (by assumption)
  case funcTypeLoop => exact al_funcTypeLoop _ _ _ _ _ _ (by assumption) (by assumption)
  case decorator => exact al_decorator 
  case decorators => exact al_decorators 
  case decoratorsLoop => exact al_decoratorsLoop _ _ _ _ (by assumption)
  case decorated => exact al_decorated 
  case asyncFuncDef => exact al_asyncFuncDef 
  case funcDef => exact al_funcDef 
  case parameters => exact al_parameters 
  case typedArgsList => exact al_typedArgsList 
  case tfpDefAssign => exact al_tfpDefAssign 
  case tfpDef => exact al_tfpDef 
  case funcBodySuite => exact al_funcBodySuite 
  case funcBodyLoop => exact al_funcBodyLoop _ _ _ _ _ _ _ _ _ _ _ _ (by assumption) (by assumption) (by assumption) (by assumption) (by assumption)
  case classDef => exact al_classDef 
  case funcType => exact al_funcType 
  case typeList => exact al_typeList 
  case typeListMainLoop => exact al_typeListMainLoop _ _ _ _ (by assumption)
  case typeListStarLoop => exact al_typeListStarLoop _ _ _ _ (by assumption)
  case evalInput => exact al_evalInput 
  case fileInput => exact al_fileInput 
  case singleInput => exact al_singleInput 
  case funcTypeInput => exact al_funcTypeInput 
  case patternsMatch => exact al_patternsMatch 

end Verif
