import Verif.Proof.Moved

/-!
# Every parse function returns the same tree for the same text further on, moved by the distance
-/

namespace Verif
open Prog

section
variable {d : Nat} {β : Type} [LkMv d β]

theorem mv_symAt {p q m} {f g : Token → Prog β} (hp : p + d = q)
    (h : ∀ t u, Token.shift d t = u → t.kind = u.kind → t.isMatchName = u.isMatchName → RelMv d (f t) (g u)) :
    RelMv d (Prog.symAt p m >>= f) (Prog.symAt q m >>= g) :=
  rmv_symAt_bind hp fun t u x => h t u x (shift_kind x) (shift_isMatchName x)
theorem mv_symHere {m} {f g : Token → Prog β}
    (h : ∀ t u, Token.shift d t = u → t.kind = u.kind → t.isMatchName = u.isMatchName → RelMv d (f t) (g u)) :
    RelMv d (Prog.symHere m >>= f) (Prog.symHere m >>= g) :=
  rmv_symHere_bind fun t u x => h t u x (shift_kind x) (shift_isMatchName x)
theorem mv_sym? {f g : Option Token → Prog β}
    (h : ∀ t u, Token.shift d t = u → t.kind = u.kind → t.isMatchName = u.isMatchName → RelMv d (f (some t)) (g (some u)))
    (hn : RelMv d (f none) (g none)) : RelMv d (Prog.sym? >>= f) (Prog.sym? >>= g) :=
  rmv_sym?_bind (fun t u x => h t u x (shift_kind x) (shift_isMatchName x)) hn
theorem mv_parse {x y : Fn} {f g : Tree → Prog β} (hx : FnMv d x y)
    (h : ∀ t u : Tree, Tree.mv d t = u → t.tag? = u.tag? → RelMv d (f t) (g u)) :
    RelMv d (Prog.parse x >>= f) (Prog.parse y >>= g) :=
  rmv_parse_bind hx fun t u x => h t u x (tag_of_mv x)
theorem mv_bindT {p q : Prog Tree} {f g : Tree → Prog β} (hx : RelMv d p q)
    (h : ∀ t u : Tree, Tree.mv d t = u → t.tag? = u.tag? → RelMv d (f t) (g u)) : RelMv d (p >>= f) (q >>= g) :=
  rmv_bind hx fun t u x => h t u x (tag_of_mv x)
end

attribute [local irreducible] RelMv

macro "mv_leaf" : tactic => `(tactic| first
  | trivial
  | rfl
  | assumption
  | (simp only [LkMv.rel, Tree.mv, mvList, mvList_append, mv_toks, List.map_append, List.map_reverse, mvList_reverse,
      List.map_cons, List.map_nil, VA.mv, *]; done))

macro "mv_step'" : tactic => `(tactic| first
  | exact rmv_panic
  | exact rmv_fail (by assumption)
  | exact rmv_failHere
  | (refine rmv_here_bind ?_; intro _ _ _)
  | (refine rmv_next_bind ?_)
  | (refine mv_symAt (by assumption) ?_; intro _ _ _ _ _)
  | (refine mv_symHere ?_; intro _ _ _ _ _)
  | (refine mv_sym? ?_ ?_; intro _ _ _ _ _)
  | (refine mv_parse ?_ ?_; rotate_left; intro _ _ _ _)
  | (refine rmv_mk_bind (by assumption) ?_ ?_; rotate_left; intro _ _ _)
  | (refine rmv_parse ?_)
  | (refine rmv_mk (by assumption) ?_)
  | (refine rmv_ite ?_ ?_ ?_)
  | (refine rmv_pure ?_)
  | (refine rmv_getExc ?_; intro x; cases x)
  | (refine rmv_setExc ?_)
  | (refine mv_bindT ?_ ?_; rotate_left; intro _ _ _ _)
  | (refine rmv_bind ?_ ?_; rotate_left; intro _ _ _)
  | mv_leaf
  | (with_reducible constructor)
  | (show RelMv _ _ _; dsimp only))

theorem mv_left {d : Nat} (op : Kind → Option Tag) (operand : Fn) (self : Nat → Tree → Fn) (msg : String) (s s' : Nat) (left left' : Tree)
    (ho : FnMv d operand operand) (hp : s + d = s') (hs : ∀ s s' l l', s + d = s' → Tree.mv d l = l' → FnMv d (self s l) (self s' l'))
    (hl : Tree.mv d left = left') : RelMv d (leftLoopBody op operand self msg s left) (leftLoopBody op operand self msg s' left') := by
  unfold leftLoopBody
  refine mv_symAt (by assumption) ?_
  intro t u h hk hm
  rw [hk]
  cases op u.kind with
  | none => exact rmv_pure hl
  | some tag =>
    refine rmv_next_bind (rmv_parse_bind ho fun a b hab => rmv_mk_bind hp ?_ fun x y hxy => rmv_parse (hs _ _ _ _ hp hxy))
    simp only [Tree.mv, mvList, *]

theorem mv_fin {d : Nat} (s s' : Nat) (await await' right right' : Tree) (lst lst' : List Tree)
    (hs : s + d = s') (h1 : Tree.mv d await = await') (h2 : Tree.mv d right = right') (h3 : mvList d lst = lst') :
    RelMv d (trailerLoopBody.fin s await right lst) (trailerLoopBody.fin s' await' right' lst') := by
  have hn : mvList d [await, right, .seq lst] = [await', right', .seq lst'] := by
    simp only [Tree.mv, mvList, *]
  unfold trailerLoopBody.fin
  cases await <;> cases await' <;> first | (simp only [Tree.mv, reduceCtorEq] at h1; done) | skip
  all_goals first
    | (cases lst <;> cases lst' <;> first
        | (simp only [mvList, reduceCtorEq] at h3; done)
        | exact rmv_pure h2
        | exact rmv_mk hs hn)
    | exact rmv_mk hs hn

theorem mv_listResult {d : Nat} (tag) (s s' : Nat) (l l' : List Tree) (p p' : List Token)
    (hs : s + d = s') (h1 : mvList d l = l') (h2 : p.map (Token.shift d) = p') :
    RelMv d (listResult tag s l p) (listResult tag s' l' p') := by
  have hn : mvList d [.seq l, .toks p] = [.seq l', .toks p'] := by
    simp only [Tree.mv, mvList, mv_toks, *]
  have hl : l.length = l'.length := by simpa [mvList_eq_map] using congrArg List.length h1
  have hp : p.length = p'.length := by simpa using congrArg List.length h2
  unfold listResult
  match l, l', p, p' with
  | [x], [y], [], [] => exact rmv_pure (show Tree.mv d _ = _ by simpa [mvList] using h1)
  | [], [], _, _ => exact rmv_mk hs hn
  | _ :: _ :: _, _ :: _ :: _, _, _ => exact rmv_mk hs hn
  | [x], [y], _ :: _, _ :: _ => exact rmv_mk hs hn

theorem mv_starResult {d : Nat} (s s' : Nat) (l l' : List Tree) (p p' : List Token)
    (hs : s + d = s') (h1 : mvList d l = l') (h2 : p.map (Token.shift d) = p') :
    RelMv d (testlistStarExprResult s l p) (testlistStarExprResult s' l' p') := by
  have := mv_listResult (d := d) .TestListStarExpr s s' l.reverse l'.reverse p.reverse p'.reverse hs (by rw [mvList_reverse, h1])
    (by rw [List.map_reverse, h2])
  have hx : ∀ s l p, testlistStarExprResult s l p = listResult .TestListStarExpr s l.reverse p.reverse := by
    intro s l p
    unfold testlistStarExprResult listResult
    generalize l.reverse = a
    generalize p.reverse = b
    match a, b with
    | [x], [] => rfl
    | [], _ => rfl
    | _ :: _ :: _, _ => rfl
    | [_], _ :: _ => rfl
  rw [hx, hx]
  exact this

macro "mv_step" : tactic => `(tactic| first
  | mv_step'
  | (refine mv_fin _ _ _ _ _ _ _ _ (by assumption) ?_ ?_ ?_)
  | (refine mv_listResult _ _ _ _ _ _ _ (by assumption) ?_ ?_)
  | (refine mv_starResult _ _ _ _ _ _ (by assumption) ?_ ?_))

macro "mv_auto" : tactic => `(tactic| (repeat' mv_step))

theorem mv_atom {d : Nat}   : RelMv d (atomBody) (atomBody) := by
  unfold atomBody; mv_auto
theorem mv_atomStrLoop {d : Nat} (s s' : Nat) (toks toks' : List Token) (hs : s + d = s') (h0 : toks.map (Token.shift d) = toks') : RelMv d (atomStrLoopBody s toks) (atomStrLoopBody s' toks') := by
  unfold atomStrLoopBody; mv_auto
theorem mv_atomExpr {d : Nat}   : RelMv d (atomExprBody) (atomExprBody) := by
  unfold atomExprBody; mv_auto
theorem mv_trailerLoop {d : Nat} (s s' : Nat) (await await' : Tree) (right right' : Tree) (lst lst' : List Tree) (hs : s + d = s') (h0 : Tree.mv d await = await') (h1 : Tree.mv d right = right') (h2 : mvList d lst = lst') : RelMv d (trailerLoopBody s await right lst) (trailerLoopBody s' await' right' lst') := by
  unfold trailerLoopBody; mv_auto
theorem mv_power {d : Nat}   : RelMv d (powerBody) (powerBody) := by
  unfold powerBody; mv_auto
theorem mv_factor {d : Nat}   : RelMv d (factorBody) (factorBody) := by
  unfold factorBody; mv_auto
theorem mv_term {d : Nat}   : RelMv d (termBody) (termBody) := by
  unfold termBody; mv_auto
theorem mv_termLoop {d : Nat} (s s' : Nat) (left left' : Tree) (hs : s + d = s') (h0 : Tree.mv d left = left') : RelMv d (termLoopBody s left) (termLoopBody s' left') := by
  unfold termLoopBody; exact mv_left _ _ _ _ _ _ _ _ (by constructor) hs (by intros; constructor <;> assumption) h0
theorem mv_arith {d : Nat}   : RelMv d (arithBody) (arithBody) := by
  unfold arithBody; mv_auto
theorem mv_arithLoop {d : Nat} (s s' : Nat) (left left' : Tree) (hs : s + d = s') (h0 : Tree.mv d left = left') : RelMv d (arithLoopBody s left) (arithLoopBody s' left') := by
  unfold arithLoopBody; exact mv_left _ _ _ _ _ _ _ _ (by constructor) hs (by intros; constructor <;> assumption) h0
theorem mv_shift {d : Nat}   : RelMv d (shiftBody) (shiftBody) := by
  unfold shiftBody; mv_auto
theorem mv_shiftLoop {d : Nat} (s s' : Nat) (left left' : Tree) (hs : s + d = s') (h0 : Tree.mv d left = left') : RelMv d (shiftLoopBody s left) (shiftLoopBody s' left') := by
  unfold shiftLoopBody; exact mv_left _ _ _ _ _ _ _ _ (by constructor) hs (by intros; constructor <;> assumption) h0
theorem mv_andExpr {d : Nat}   : RelMv d (andExprBody) (andExprBody) := by
  unfold andExprBody; mv_auto
theorem mv_andExprLoop {d : Nat} (s s' : Nat) (left left' : Tree) (hs : s + d = s') (h0 : Tree.mv d left = left') : RelMv d (andExprLoopBody s left) (andExprLoopBody s' left') := by
  unfold andExprLoopBody; exact mv_left _ _ _ _ _ _ _ _ (by constructor) hs (by intros; constructor <;> assumption) h0
theorem mv_xorExpr {d : Nat}   : RelMv d (xorExprBody) (xorExprBody) := by
  unfold xorExprBody; mv_auto
theorem mv_xorExprLoop {d : Nat} (s s' : Nat) (left left' : Tree) (hs : s + d = s') (h0 : Tree.mv d left = left') : RelMv d (xorExprLoopBody s left) (xorExprLoopBody s' left') := by
  unfold xorExprLoopBody; exact mv_left _ _ _ _ _ _ _ _ (by constructor) hs (by intros; constructor <;> assumption) h0
theorem mv_expr {d : Nat}   : RelMv d (exprBody) (exprBody) := by
  unfold exprBody; mv_auto
theorem mv_exprLoop {d : Nat} (s s' : Nat) (left left' : Tree) (hs : s + d = s') (h0 : Tree.mv d left = left') : RelMv d (exprLoopBody s left) (exprLoopBody s' left') := by
  unfold exprLoopBody; exact mv_left _ _ _ _ _ _ _ _ (by constructor) hs (by intros; constructor <;> assumption) h0
theorem mv_starExpr {d : Nat}   : RelMv d (starExprBody) (starExprBody) := by
  unfold starExprBody; mv_auto
theorem mv_comparison {d : Nat}   : RelMv d (comparisonBody) (comparisonBody) := by
  unfold comparisonBody; mv_auto
theorem mv_comparisonLoop {d : Nat} (s s' : Nat) (left left' : Tree) (hs : s + d = s') (h0 : Tree.mv d left = left') : RelMv d (comparisonLoopBody s left) (comparisonLoopBody s' left') := by
  unfold comparisonLoopBody; refine mv_symAt (by assumption) ?_; intro t u h hk hm; rw [hk]; cases compOp u.kind <;> mv_auto
theorem mv_notTest {d : Nat}   : RelMv d (notTestBody) (notTestBody) := by
  unfold notTestBody; mv_auto
theorem mv_andTest {d : Nat}   : RelMv d (andTestBody) (andTestBody) := by
  unfold andTestBody; mv_auto
theorem mv_andTestLoop {d : Nat} (s s' : Nat) (left left' : Tree) (hs : s + d = s') (h0 : Tree.mv d left = left') : RelMv d (andTestLoopBody s left) (andTestLoopBody s' left') := by
  unfold andTestLoopBody; exact mv_left _ _ _ _ _ _ _ _ (by constructor) hs (by intros; constructor <;> assumption) h0
theorem mv_orTest {d : Nat}   : RelMv d (orTestBody) (orTestBody) := by
  unfold orTestBody; mv_auto
theorem mv_orTestLoop {d : Nat} (s s' : Nat) (left left' : Tree) (hs : s + d = s') (h0 : Tree.mv d left = left') : RelMv d (orTestLoopBody s left) (orTestLoopBody s' left') := by
  unfold orTestLoopBody; exact mv_left _ _ _ _ _ _ _ _ (by constructor) hs (by intros; constructor <;> assumption) h0
theorem mv_lambdaDef {d : Nat} (cond : Bool)  : RelMv d (lambdaDefBody cond) (lambdaDefBody cond) := by
  unfold lambdaDefBody; mv_auto
theorem mv_noCondTest {d : Nat}   : RelMv d (noCondTestBody) (noCondTestBody) := by
  unfold noCondTestBody; mv_auto
theorem mv_test {d : Nat}   : RelMv d (testBody) (testBody) := by
  unfold testBody; mv_auto
theorem mv_namedExpression {d : Nat}   : RelMv d (namedExpressionBody) (namedExpressionBody) := by
  unfold namedExpressionBody; mv_auto
theorem mv_testlistComp {d : Nat}   : RelMv d (testlistCompBody) (testlistCompBody) := by
  unfold testlistCompBody starOrNamed; mv_auto
theorem mv_testlistCompLoop {d : Nat} (s s' : Nat) (nodes nodes' : List Tree) (seps seps' : List Token) (hs : s + d = s') (h0 : mvList d nodes = nodes') (h1 : seps.map (Token.shift d) = seps') : RelMv d (testlistCompLoopBody s nodes seps) (testlistCompLoopBody s' nodes' seps') := by
  unfold testlistCompLoopBody starOrNamed; mv_auto
theorem mv_trailer {d : Nat}   : RelMv d (trailerBody) (trailerBody) := by
  unfold trailerBody; mv_auto
theorem mv_subscriptList {d : Nat}   : RelMv d (subscriptListBody) (subscriptListBody) := by
  unfold subscriptListBody; mv_auto
theorem mv_subscriptListLoop {d : Nat} (s s' : Nat) (nodes nodes' : List Tree) (seps seps' : List Token) (hs : s + d = s') (h0 : mvList d nodes = nodes') (h1 : seps.map (Token.shift d) = seps') : RelMv d (subscriptListLoopBody s nodes seps) (subscriptListLoopBody s' nodes' seps') := by
  unfold subscriptListLoopBody; mv_auto
theorem mv_subscript {d : Nat}   : RelMv d (subscriptBody) (subscriptBody) := by
  unfold subscriptBody; mv_auto
theorem mv_exprlist {d : Nat}   : RelMv d (exprlistBody) (exprlistBody) := by
  unfold exprlistBody starOrNamed; mv_auto
theorem mv_exprlistLoop {d : Nat} (s s' : Nat) (nodes nodes' : List Tree) (seps seps' : List Token) (hs : s + d = s') (h0 : mvList d nodes = nodes') (h1 : seps.map (Token.shift d) = seps') : RelMv d (exprlistLoopBody s nodes seps) (exprlistLoopBody s' nodes' seps') := by
  unfold exprlistLoopBody; mv_auto
theorem mv_testlist {d : Nat}   : RelMv d (testlistBody) (testlistBody) := by
  unfold testlistBody; mv_auto
theorem mv_testlistLoop {d : Nat} (s s' : Nat) (nodes nodes' : List Tree) (seps seps' : List Token) (hs : s + d = s') (h0 : mvList d nodes = nodes') (h1 : seps.map (Token.shift d) = seps') : RelMv d (testlistLoopBody s nodes seps) (testlistLoopBody s' nodes' seps') := by
  unfold testlistLoopBody; mv_auto
theorem mv_dictorsetMaker {d : Nat}   : RelMv d (dictorsetMakerBody) (dictorsetMakerBody) := by
  unfold dictorsetMakerBody dictRest dictRest.fin; mv_auto
theorem mv_setLoop {d : Nat} (s s' : Nat) (nodes nodes' : List Tree) (seps seps' : List Token) (hs : s + d = s') (h0 : mvList d nodes = nodes') (h1 : seps.map (Token.shift d) = seps') : RelMv d (setLoopBody s nodes seps) (setLoopBody s' nodes' seps') := by
  unfold setLoopBody; mv_auto
theorem mv_arglist {d : Nat}   : RelMv d (arglistBody) (arglistBody) := by
  unfold arglistBody; mv_auto
theorem mv_arglistLoop {d : Nat} (s s' : Nat) (nodes nodes' : List Tree) (seps seps' : List Token) (hs : s + d = s') (h0 : mvList d nodes = nodes') (h1 : seps.map (Token.shift d) = seps') : RelMv d (arglistLoopBody s nodes seps) (arglistLoopBody s' nodes' seps') := by
  unfold arglistLoopBody; mv_auto
theorem mv_argument {d : Nat}   : RelMv d (argumentBody) (argumentBody) := by
  unfold argumentBody; mv_auto
theorem mv_compIter {d : Nat}   : RelMv d (compIterBody) (compIterBody) := by
  unfold compIterBody; mv_auto
theorem mv_syncCompFor {d : Nat}   : RelMv d (syncCompForBody) (syncCompForBody) := by
  unfold syncCompForBody; mv_auto
theorem mv_compFor {d : Nat}   : RelMv d (compForBody) (compForBody) := by
  unfold compForBody; mv_auto
theorem mv_compIf {d : Nat}   : RelMv d (compIfBody) (compIfBody) := by
  unfold compIfBody; mv_auto
theorem mv_yieldExpr {d : Nat}   : RelMv d (yieldExprBody) (yieldExprBody) := by
  unfold yieldExprBody; mv_auto
theorem mv_testlistStarExpr {d : Nat}   : RelMv d (testlistStarExprBody) (testlistStarExprBody) := by
  unfold testlistStarExprBody; mv_auto
theorem mv_testlistStarExprLoop {d : Nat} (s s' : Nat) (nodes nodes' : List Tree) (seps seps' : List Token) (hs : s + d = s') (h0 : mvList d nodes = nodes') (h1 : seps.map (Token.shift d) = seps') : RelMv d (testlistStarExprLoopBody s nodes seps) (testlistStarExprLoopBody s' nodes' seps') := by
  unfold testlistStarExprLoopBody; mv_auto
theorem mv_varArgsList {d : Nat}   : RelMv d (varArgsListBody) (varArgsListBody) := by
  unfold varArgsListBody varArgsMul varArgsPower varArgsResult; mv_auto
theorem mv_varArgsMainLoop {d : Nat} (s s' : Nat) (v v' : VA) (hs : s + d = s') (h0 : VA.mv d v = v') : RelMv d (varArgsMainLoopBody s v) (varArgsMainLoopBody s' v') := by
  cases v; cases v'; simp only [VA.mv, VA.mk.injEq] at h0; obtain ⟨h1, h2, h3, h4, h5, h6, h7⟩ := h0; unfold varArgsMainLoopBody varArgsMul varArgsPower varArgsResult; mv_auto
theorem mv_varArgsStarLoop {d : Nat} (s s' : Nat) (v v' : VA) (hs : s + d = s') (h0 : VA.mv d v = v') : RelMv d (varArgsStarLoopBody s v) (varArgsStarLoopBody s' v') := by
  cases v; cases v'; simp only [VA.mv, VA.mk.injEq] at h0; obtain ⟨h1, h2, h3, h4, h5, h6, h7⟩ := h0; unfold varArgsStarLoopBody varArgsPower varArgsResult; mv_auto
theorem mv_varArgsDivLoop {d : Nat} (s s' : Nat) (v v' : VA) (hs : s + d = s') (h0 : VA.mv d v = v') : RelMv d (varArgsDivLoopBody s v) (varArgsDivLoopBody s' v') := by
  cases v; cases v'; simp only [VA.mv, VA.mk.injEq] at h0; obtain ⟨h1, h2, h3, h4, h5, h6, h7⟩ := h0; unfold varArgsDivLoopBody varArgsMul varArgsPower varArgsResult; mv_auto
theorem mv_varArgsAssignments {d : Nat}   : RelMv d (varArgsAssignmentsBody) (varArgsAssignmentsBody) := by
  unfold varArgsAssignmentsBody; mv_auto
theorem mv_vfpDef {d : Nat}   : RelMv d (vfpDefBody) (vfpDefBody) := by
  unfold vfpDefBody; mv_auto
theorem mv_stmt {d : Nat}   : RelMv d (stmtBody) (stmtBody) := by
  unfold stmtBody; mv_auto
theorem mv_simpleStmt {d : Nat}   : RelMv d (simpleStmtBody) (simpleStmtBody) := by
  unfold simpleStmtBody; mv_auto
theorem mv_simpleStmtLoop {d : Nat} (s s' : Nat) (nodes nodes' : List Tree) (seps seps' : List Token) (hs : s + d = s') (h0 : mvList d nodes = nodes') (h1 : seps.map (Token.shift d) = seps') : RelMv d (simpleStmtLoopBody s nodes seps) (simpleStmtLoopBody s' nodes' seps') := by
  unfold simpleStmtLoopBody simpleStmtLoopBody.fin; mv_auto
theorem mv_smallStmt {d : Nat}   : RelMv d (smallStmtBody) (smallStmtBody) := by
  unfold smallStmtBody; mv_auto
theorem mv_exprStmt {d : Nat}   : RelMv d (exprStmtBody) (exprStmtBody) := by
  unfold exprStmtBody yieldOrTestlist
  refine rmv_here_bind fun p q hp => mv_parse (by constructor) ?_
  intro a b ha _
  refine mv_symAt (by assumption) ?_; intro t u h hk hm; rw [hk]; cases augOp u.kind <;> mv_auto
theorem mv_assignLoop {d : Nat} (s s' : Nat) (left left' : Tree) (nodes nodes' : List Tree) (hs : s + d = s') (h0 : Tree.mv d left = left') (h1 : mvList d nodes = nodes') : RelMv d (assignLoopBody s left nodes) (assignLoopBody s' left' nodes') := by
  unfold assignLoopBody yieldOrTestlist; mv_auto
theorem mv_annAssign {d : Nat} (s s' : Nat) (left left' : Tree) (hs : s + d = s') (h0 : Tree.mv d left = left') : RelMv d (annAssignBody s left) (annAssignBody s' left') := by
  unfold annAssignBody yieldOrTestlist; mv_auto
theorem mv_delStmt {d : Nat}   : RelMv d (delStmtBody) (delStmtBody) := by
  unfold delStmtBody; mv_auto
theorem mv_passStmt {d : Nat}   : RelMv d (passStmtBody) (passStmtBody) := by
  unfold passStmtBody; mv_auto
theorem mv_flowStmt {d : Nat}   : RelMv d (flowStmtBody) (flowStmtBody) := by
  unfold flowStmtBody; mv_auto
theorem mv_breakStmt {d : Nat}   : RelMv d (breakStmtBody) (breakStmtBody) := by
  unfold breakStmtBody; mv_auto
theorem mv_continueStmt {d : Nat}   : RelMv d (continueStmtBody) (continueStmtBody) := by
  unfold continueStmtBody; mv_auto
theorem mv_returnStmt {d : Nat}   : RelMv d (returnStmtBody) (returnStmtBody) := by
  unfold returnStmtBody; mv_auto
theorem mv_yieldStmt {d : Nat}   : RelMv d (yieldStmtBody) (yieldStmtBody) := by
  unfold yieldStmtBody; mv_auto
theorem mv_raiseStmt {d : Nat}   : RelMv d (raiseStmtBody) (raiseStmtBody) := by
  unfold raiseStmtBody; mv_auto
theorem mv_importStmt {d : Nat}   : RelMv d (importStmtBody) (importStmtBody) := by
  unfold importStmtBody; mv_auto
theorem mv_importName {d : Nat}   : RelMv d (importNameBody) (importNameBody) := by
  unfold importNameBody; mv_auto
theorem mv_importFrom {d : Nat}   : RelMv d (importFromBody) (importFromBody) := by
  unfold importFromBody; mv_auto
theorem mv_importDotLoop {d : Nat} (s s' : Nat) (sym1 sym1' : Token) (dots dots' : List Token) (hs : s + d = s') (h0 : Token.shift d sym1 = sym1') (h1 : dots.map (Token.shift d) = dots') : RelMv d (importDotLoopBody s sym1 dots) (importDotLoopBody s' sym1' dots') := by
  have hl : dots.reverse.length = dots'.reverse.length := by simpa using congrArg List.length h1
  unfold importDotLoopBody importFromRest; mv_auto
theorem mv_importAsName {d : Nat}   : RelMv d (importAsNameBody) (importAsNameBody) := by
  unfold importAsNameBody; mv_auto
theorem mv_dottedAsName {d : Nat}   : RelMv d (dottedAsNameBody) (dottedAsNameBody) := by
  unfold dottedAsNameBody; mv_auto
theorem mv_importAsNames {d : Nat}   : RelMv d (importAsNamesBody) (importAsNamesBody) := by
  unfold importAsNamesBody; mv_auto
theorem mv_importAsNamesLoop {d : Nat} (s s' : Nat) (nodes nodes' : List Tree) (seps seps' : List Token) (hs : s + d = s') (h0 : mvList d nodes = nodes') (h1 : seps.map (Token.shift d) = seps') : RelMv d (importAsNamesLoopBody s nodes seps) (importAsNamesLoopBody s' nodes' seps') := by
  unfold importAsNamesLoopBody; mv_auto
theorem mv_dottedAsNames {d : Nat}   : RelMv d (dottedAsNamesBody) (dottedAsNamesBody) := by
  unfold dottedAsNamesBody; mv_auto
theorem mv_dottedAsNamesLoop {d : Nat} (s s' : Nat) (nodes nodes' : List Tree) (seps seps' : List Token) (hs : s + d = s') (h0 : mvList d nodes = nodes') (h1 : seps.map (Token.shift d) = seps') : RelMv d (dottedAsNamesLoopBody s nodes seps) (dottedAsNamesLoopBody s' nodes' seps') := by
  unfold dottedAsNamesLoopBody; mv_auto
theorem mv_dottedName {d : Nat}   : RelMv d (dottedNameBody) (dottedNameBody) := by
  unfold dottedNameBody; mv_auto
theorem mv_dottedNameLoop {d : Nat} (s s' : Nat) (nodes nodes' : List Token) (seps seps' : List Token) (hs : s + d = s') (h0 : nodes.map (Token.shift d) = nodes') (h1 : seps.map (Token.shift d) = seps') : RelMv d (dottedNameLoopBody s nodes seps) (dottedNameLoopBody s' nodes' seps') := by
  unfold dottedNameLoopBody; mv_auto
theorem mv_globalStmt {d : Nat}   : RelMv d (globalStmtBody) (globalStmtBody) := by
  unfold globalStmtBody; mv_auto
theorem mv_globalLoop {d : Nat} (s s' : Nat) (sym sym' : Token) (nodes nodes' : List Token) (seps seps' : List Token) (hs : s + d = s') (h0 : Token.shift d sym = sym') (h1 : nodes.map (Token.shift d) = nodes') (h2 : seps.map (Token.shift d) = seps') : RelMv d (globalLoopBody s sym nodes seps) (globalLoopBody s' sym' nodes' seps') := by
  unfold globalLoopBody; mv_auto
theorem mv_nonlocalStmt {d : Nat}   : RelMv d (nonlocalStmtBody) (nonlocalStmtBody) := by
  unfold nonlocalStmtBody; mv_auto
theorem mv_nonlocalLoop {d : Nat} (s s' : Nat) (sym sym' : Token) (nodes nodes' : List Token) (seps seps' : List Token) (hs : s + d = s') (h0 : Token.shift d sym = sym') (h1 : nodes.map (Token.shift d) = nodes') (h2 : seps.map (Token.shift d) = seps') : RelMv d (nonlocalLoopBody s sym nodes seps) (nonlocalLoopBody s' sym' nodes' seps') := by
  unfold nonlocalLoopBody; mv_auto
theorem mv_assertStmt {d : Nat}   : RelMv d (assertStmtBody) (assertStmtBody) := by
  unfold assertStmtBody; mv_auto
theorem mv_compoundStmt {d : Nat}   : RelMv d (compoundStmtBody) (compoundStmtBody) := by
  unfold compoundStmtBody; mv_auto
theorem mv_asyncStmt {d : Nat}   : RelMv d (asyncStmtBody) (asyncStmtBody) := by
  unfold asyncStmtBody; mv_auto
theorem mv_ifStmt {d : Nat}   : RelMv d (ifStmtBody) (ifStmtBody) := by
  unfold ifStmtBody; mv_auto
theorem mv_ifLoop {d : Nat} (s s' : Nat) (sym1 sym1' : Token) (left left' : Tree) (sym2 sym2' : Token) (right right' : Tree) (nodes nodes' : List Tree) (hs : s + d = s') (h0 : Token.shift d sym1 = sym1') (h1 : Tree.mv d left = left') (h2 : Token.shift d sym2 = sym2') (h3 : Tree.mv d right = right') (h4 : mvList d nodes = nodes') : RelMv d (ifLoopBody s sym1 left sym2 right nodes) (ifLoopBody s' sym1' left' sym2' right' nodes') := by
  unfold ifLoopBody; mv_auto
theorem mv_elifStmt {d : Nat}   : RelMv d (elifStmtBody) (elifStmtBody) := by
  unfold elifStmtBody; mv_auto
theorem mv_elseStmt {d : Nat}   : RelMv d (elseStmtBody) (elseStmtBody) := by
  unfold elseStmtBody; mv_auto
theorem mv_whileStmt {d : Nat}   : RelMv d (whileStmtBody) (whileStmtBody) := by
  unfold whileStmtBody; mv_auto
theorem mv_forStmt {d : Nat}   : RelMv d (forStmtBody) (forStmtBody) := by
  unfold forStmtBody; mv_auto
theorem mv_tryStmt {d : Nat}   : RelMv d (tryStmtBody) (tryStmtBody) := by
  unfold tryStmtBody; mv_auto
theorem mv_tryLoop {d : Nat} (s s' : Nat) (sym1 sym1' : Token) (sym2 sym2' : Token) (left left' : Tree) (nodes nodes' : List Tree) (hs : s + d = s') (h0 : Token.shift d sym1 = sym1') (h1 : Token.shift d sym2 = sym2') (h2 : Tree.mv d left = left') (h3 : mvList d nodes = nodes') : RelMv d (tryLoopBody s sym1 sym2 left nodes) (tryLoopBody s' sym1' sym2' left' nodes') := by
  unfold tryLoopBody; mv_auto
theorem mv_finallyStmt {d : Nat}   : RelMv d (finallyStmtBody) (finallyStmtBody) := by
  unfold finallyStmtBody; mv_auto
theorem mv_withStmt {d : Nat}   : RelMv d (withStmtBody) (withStmtBody) := by
  unfold withStmtBody; mv_auto
theorem mv_withParenLoop {d : Nat} (s s' : Nat) (sym1 sym1' : Token) (lpar lpar' : Token) (nodes nodes' : List Tree) (seps seps' : List Token) (hs : s + d = s') (h0 : Token.shift d sym1 = sym1') (h1 : Token.shift d lpar = lpar') (h2 : mvList d nodes = nodes') (h3 : seps.map (Token.shift d) = seps') : RelMv d (withParenLoopBody s sym1 lpar nodes seps) (withParenLoopBody s' sym1' lpar' nodes' seps') := by
  unfold withParenLoopBody withParenEnd withRest; mv_auto
theorem mv_withLoop {d : Nat} (s s' : Nat) (sym1 sym1' : Token) (nodes nodes' : List Tree) (seps seps' : List Token) (hs : s + d = s') (h0 : Token.shift d sym1 = sym1') (h1 : mvList d nodes = nodes') (h2 : seps.map (Token.shift d) = seps') : RelMv d (withLoopBody s sym1 nodes seps) (withLoopBody s' sym1' nodes' seps') := by
  unfold withLoopBody withRest; mv_auto
theorem mv_withItem {d : Nat}   : RelMv d (withItemBody) (withItemBody) := by
  unfold withItemBody; mv_auto
theorem mv_exceptStmt {d : Nat}   : RelMv d (exceptStmtBody) (exceptStmtBody) := by
  unfold exceptStmtBody; mv_auto
theorem mv_exceptClause {d : Nat}   : RelMv d (exceptClauseBody) (exceptClauseBody) := by
  unfold exceptClauseBody exceptStar; mv_auto
theorem mv_suite {d : Nat}   : RelMv d (suiteBody) (suiteBody) := by
  unfold suiteBody; mv_auto
theorem mv_suiteLoop {d : Nat} (s s' : Nat) (sym1 sym1' : Token) (sym2 sym2' : Token) (nodes nodes' : List Tree) (hs : s + d = s') (h0 : Token.shift d sym1 = sym1') (h1 : Token.shift d sym2 = sym2') (h2 : mvList d nodes = nodes') : RelMv d (suiteLoopBody s sym1 sym2 nodes) (suiteLoopBody s' sym1' sym2' nodes') := by
  unfold suiteLoopBody; mv_auto
theorem mv_evalLoop {d : Nat} (s s' : Nat) (right right' : Tree) (seps seps' : List Token) (hs : s + d = s') (h0 : Tree.mv d right = right') (h1 : seps.map (Token.shift d) = seps') : RelMv d (evalLoopBody s right seps) (evalLoopBody s' right' seps') := by
  unfold evalLoopBody; mv_auto
theorem mv_fileLoop {d : Nat} (s s' : Nat) (nodes nodes' : List Tree) (seps seps' : List Token) (hs : s + d = s') (h0 : mvList d nodes = nodes') (h1 : seps.map (Token.shift d) = seps') : RelMv d (fileLoopBody s nodes seps) (fileLoopBody s' nodes' seps') := by
  unfold fileLoopBody; mv_auto
theorem mv_funcTypeLoop {d : Nat} (s s' : Nat) (right right' : Tree) (seps seps' : List Token) (hs : s + d = s') (h0 : Tree.mv d right = right') (h1 : seps.map (Token.shift d) = seps') : RelMv d (funcTypeLoopBody s right seps) (funcTypeLoopBody s' right' seps') := by
  unfold funcTypeLoopBody; mv_auto
theorem mv_decorator {d : Nat}   : RelMv d (decoratorBody) (decoratorBody) := by
  unfold decoratorBody decoratorEnd; mv_auto
theorem mv_decorators {d : Nat}   : RelMv d (decoratorsBody) (decoratorsBody) := by
  unfold decoratorsBody; mv_auto
theorem mv_decoratorsLoop {d : Nat} (s s' : Nat) (nodes nodes' : List Tree) (hs : s + d = s') (h0 : mvList d nodes = nodes') : RelMv d (decoratorsLoopBody s nodes) (decoratorsLoopBody s' nodes') := by
  unfold decoratorsLoopBody; mv_auto
theorem mv_decorated {d : Nat}   : RelMv d (decoratedBody) (decoratedBody) := by
  unfold decoratedBody; mv_auto
theorem mv_asyncFuncDef {d : Nat}   : RelMv d (asyncFuncDefBody) (asyncFuncDefBody) := by
  unfold asyncFuncDefBody; mv_auto
theorem mv_funcDef {d : Nat}   : RelMv d (funcDefBody) (funcDefBody) := by
  unfold funcDefBody; mv_auto
theorem mv_parameters {d : Nat}   : RelMv d (parametersBody) (parametersBody) := by
  unfold parametersBody; mv_auto
theorem mv_typedArgsList {d : Nat}   : RelMv d (typedArgsListBody) (typedArgsListBody) := by
  unfold typedArgsListBody; mv_auto
theorem mv_tfpDefAssign {d : Nat}   : RelMv d (tfpDefAssignBody) (tfpDefAssignBody) := by
  unfold tfpDefAssignBody; mv_auto
theorem mv_tfpDef {d : Nat}   : RelMv d (tfpDefBody) (tfpDefBody) := by
  unfold tfpDefBody; mv_auto
theorem mv_funcBodySuite {d : Nat}   : RelMv d (funcBodySuiteBody) (funcBodySuiteBody) := by
  unfold funcBodySuiteBody funcBodyIndent; mv_auto
theorem mv_funcBodyLoop {d : Nat} (s s' : Nat) (sym1 sym1' : Token) (tc tc' : Tree) (tcnl tcnl' : Tree) (sym2 sym2' : Token) (nodes nodes' : List Tree) (hs : s + d = s') (h0 : Token.shift d sym1 = sym1') (h1 : Tree.mv d tc = tc') (h2 : Tree.mv d tcnl = tcnl') (h3 : Token.shift d sym2 = sym2') (h4 : mvList d nodes = nodes') : RelMv d (funcBodyLoopBody s sym1 tc tcnl sym2 nodes) (funcBodyLoopBody s' sym1' tc' tcnl' sym2' nodes') := by
  unfold funcBodyLoopBody; mv_auto
theorem mv_classDef {d : Nat}   : RelMv d (classDefBody) (classDefBody) := by
  unfold classDefBody classRest; mv_auto
theorem mv_funcType {d : Nat}   : RelMv d (funcTypeBody) (funcTypeBody) := by
  unfold funcTypeBody; mv_auto
theorem mv_typeList {d : Nat}   : RelMv d (typeListBody) (typeListBody) := by
  unfold typeListBody typeListMul typeListPower typeListResult; mv_auto
theorem mv_typeListMainLoop {d : Nat} (s s' : Nat) (v v' : VA) (hs : s + d = s') (h0 : VA.mv d v = v') : RelMv d (typeListMainLoopBody s v) (typeListMainLoopBody s' v') := by
  cases v; cases v'; simp only [VA.mv, VA.mk.injEq] at h0; obtain ⟨h1, h2, h3, h4, h5, h6, h7⟩ := h0; unfold typeListMainLoopBody typeListMul typeListPower typeListResult; mv_auto
theorem mv_typeListStarLoop {d : Nat} (s s' : Nat) (v v' : VA) (hs : s + d = s') (h0 : VA.mv d v = v') : RelMv d (typeListStarLoopBody s v) (typeListStarLoopBody s' v') := by
  cases v; cases v'; simp only [VA.mv, VA.mk.injEq] at h0; obtain ⟨h1, h2, h3, h4, h5, h6, h7⟩ := h0; unfold typeListStarLoopBody typeListPower typeListResult; mv_auto
theorem mv_evalInput {d : Nat}   : RelMv d (evalInputBody) (evalInputBody) := by
  unfold evalInputBody; mv_auto
theorem mv_fileInput {d : Nat}   : RelMv d (fileInputBody) (fileInputBody) := by
  unfold fileInputBody; mv_auto
theorem mv_singleInput {d : Nat}   : RelMv d (singleInputBody) (singleInputBody) := by
  unfold singleInputBody; mv_auto
theorem mv_funcTypeInput {d : Nat}   : RelMv d (funcTypeInputBody) (funcTypeInputBody) := by
  unfold funcTypeInputBody; mv_auto
theorem mv_patternsMatch {d : Nat}   : RelMv d (patternsMatchBody) (patternsMatchBody) := by
  unfold patternsMatchBody; mv_auto

theorem mv_body {d : Nat} {f g : Fn} (h : FnMv d f g) : RelMv d (body f) (body g) := by
  cases h
  case atom => exact mv_atom 
  case atomStrLoop => exact mv_atomStrLoop _ _ _ _ (by assumption) (by assumption)
  case atomExpr => exact mv_atomExpr 
  case trailerLoop => exact mv_trailerLoop _ _ _ _ _ _ _ _ (by assumption) (by assumption) (by assumption) (by assumption)
  case power => exact mv_power 
  case factor => exact mv_factor 
  case term => exact mv_term 
  case termLoop => exact mv_termLoop _ _ _ _ (by assumption) (by assumption)
  case arith => exact mv_arith 
  case arithLoop => exact mv_arithLoop _ _ _ _ (by assumption) (by assumption)
  case shift => exact mv_shift 
  case shiftLoop => exact mv_shiftLoop _ _ _ _ (by assumption) (by assumption)
  case andExpr => exact mv_andExpr 
  case andExprLoop => exact mv_andExprLoop _ _ _ _ (by assumption) (by assumption)
  case xorExpr => exact mv_xorExpr 
  case xorExprLoop => exact mv_xorExprLoop _ _ _ _ (by assumption) (by assumption)
  case expr => exact mv_expr 
  case exprLoop => exact mv_exprLoop _ _ _ _ (by assumption) (by assumption)
  case starExpr => exact mv_starExpr 
  case comparison => exact mv_comparison 
  case comparisonLoop => exact mv_comparisonLoop _ _ _ _ (by assumption) (by assumption)
  case notTest => exact mv_notTest 
  case andTest => exact mv_andTest 
  case andTestLoop => exact mv_andTestLoop _ _ _ _ (by assumption) (by assumption)
  case orTest => exact mv_orTest 
  case orTestLoop => exact mv_orTestLoop _ _ _ _ (by assumption) (by assumption)
  case lambdaDef => exact mv_lambdaDef _
  case noCondTest => exact mv_noCondTest 
  case test => exact mv_test 
  case namedExpression => exact mv_namedExpression 
  case testlistComp => exact mv_testlistComp 
  case testlistCompLoop => exact mv_testlistCompLoop _ _ _ _ _ _ (by assumption) (by assumption) (by assumption)
  case trailer => exact mv_trailer 
  case subscriptList => exact mv_subscriptList 
  case subscriptListLoop => exact mv_subscriptListLoop _ _ _ _ _ _ (by assumption) (by assumption) (by assumption)
  case subscript => exact mv_subscript 
  case exprlist => exact mv_exprlist 
  case exprlistLoop => exact mv_exprlistLoop _ _ _ _ _ _ (by assumption) (by assumption) (by assumption)
  case testlist => exact mv_testlist 
  case testlistLoop => exact mv_testlistLoop _ _ _ _ _ _ (by assumption) (by assumption) (by assumption)
  case dictorsetMaker => exact mv_dictorsetMaker 
  case setLoop => exact mv_setLoop _ _ _ _ _ _ (by assumption) (by assumption) (by assumption)
  case arglist => exact mv_arglist 
  case arglistLoop => exact mv_arglistLoop _ _ _ _ _ _ (by assumption) (by assumption) (by assumption)
  case argument => exact mv_argument 
  case compIter => exact mv_compIter 
  case syncCompFor => exact mv_syncCompFor 
  case compFor => exact mv_compFor 
  case compIf => exact mv_compIf 
  case yieldExpr => exact mv_yieldExpr 
  case testlistStarExpr => exact mv_testlistStarExpr 
  case testlistStarExprLoop => exact mv_testlistStarExprLoop _ _ _ _ _ _ (by assumption) (by assumption) (by assumption)
  case varArgsList => exact mv_varArgsList 
  case varArgsMainLoop => exact mv_varArgsMainLoop _ _ _ _ (by assumption) (by assumption)
  case varArgsStarLoop => exact mv_varArgsStarLoop _ _ _ _ (by assumption) (by assumption)
  case varArgsDivLoop => exact mv_varArgsDivLoop _ _ _ _ (by assumption) (by assumption)
  case varArgsAssignments => exact mv_varArgsAssignments 
  case vfpDef => exact mv_vfpDef 
  case stmt => exact mv_stmt 
  case simpleStmt => exact mv_simpleStmt 
  case simpleStmtLoop => exact mv_simpleStmtLoop _ _ _ _ _ _ (by assumption) (by assumption) (by assumption)
  case smallStmt => exact mv_smallStmt 
  case exprStmt => exact mv_exprStmt 
  case assignLoop => exact mv_assignLoop _ _ _ _ _ _ (by assumption) (by assumption) (by assumption)
  case annAssign => exact mv_annAssign _ _ _ _ (by assumption) (by assumption)
  case delStmt => exact mv_delStmt 
  case passStmt => exact mv_passStmt 
  case flowStmt => exact mv_flowStmt 
  case breakStmt => exact mv_breakStmt 
  case continueStmt => exact mv_continueStmt 
  case returnStmt => exact mv_returnStmt 
  case yieldStmt => exact mv_yieldStmt 
  case raiseStmt => exact mv_raiseStmt 
  case importStmt => exact mv_importStmt 
  case importName => exact mv_importName 
  case importFrom => exact mv_importFrom 
  case importDotLoop => exact mv_importDotLoop _ _ _ _ _ _ (by assumption) (by assumption) (by assumption)
  case importAsName => exact mv_importAsName 
  case dottedAsName => exact mv_dottedAsName 
  case importAsNames => exact mv_importAsNames 
  case importAsNamesLoop => exact mv_importAsNamesLoop _ _ _ _ _ _ (by assumption) (by assumption) (by assumption)
  case dottedAsNames => exact mv_dottedAsNames 
  case dottedAsNamesLoop => exact mv_dottedAsNamesLoop _ _ _ _ _ _ (by assumption) (by assumption) (by assumption)
  case dottedName => exact mv_dottedName 
  case dottedNameLoop => exact mv_dottedNameLoop _ _ _ _ _ _ (by assumption) (by assumption) (by assumption)
  case globalStmt => exact mv_globalStmt 
  case globalLoop => exact mv_globalLoop _ _ _ _ _ _ _ _ (by assumption) (by assumption) (by assumption) (by assumption)
  case nonlocalStmt => exact mv_nonlocalStmt 
  case nonlocalLoop => exact mv_nonlocalLoop _ _ _ _ _ _ _ _ (by assumption) (by assumption) (by assumption) (by assumption)
  case assertStmt => exact mv_assertStmt 
  case compoundStmt => exact mv_compoundStmt 
  case asyncStmt => exact mv_asyncStmt 
  case ifStmt => exact mv_ifStmt 
  case ifLoop => exact mv_ifLoop _ _ _ _ _ _ _ _ _ _ _ _ (by assumption) (by assumption) (by assumption) (by assumption) (by assumption) (by assumption)
  case elifStmt => exact mv_elifStmt 
  case elseStmt => exact mv_elseStmt 
  case whileStmt => exact mv_whileStmt 
  case forStmt => exact mv_forStmt 
  case tryStmt => exact mv_tryStmt 
  case tryLoop => exact mv_tryLoop _ _ _ _ _ _ _ _ _ _ (by assumption) (by assumption) (by assumption) (by assumption) (by assumption)
  case finallyStmt => exact mv_finallyStmt 
  case withStmt => exact mv_withStmt 
  case withParenLoop => exact mv_withParenLoop _ _ _ _ _ _ _ _ _ _ (by assumption) (by assumption) (by assumption) (by assumption) (by assumption)
  case withLoop => exact mv_withLoop _ _ _ _ _ _ _ _ (by assumption) (by assumption) (by assumption) (by assumption)
  case withItem => exact mv_withItem 
  case exceptStmt => exact mv_exceptStmt 
  case exceptClause => exact mv_exceptClause 
  case suite => exact mv_suite 
  case suiteLoop => exact mv_suiteLoop _ _ _ _ _ _ _ _ (by assumption) (by assumption) (by assumption) (by assumption)
  case evalLoop => exact mv_evalLoop _ _ _ _ _ _ (by assumption) (by assumption) (by assumption)
  case fileLoop => exact mv_fileLoop _ _ _ _ _ _ (by assumption) (by assumption) (by assumption)
  case funcTypeLoop => exact mv_funcTypeLoop _ _ _ _ _ _ (by assumption) (by assumption) (by assumption)
  case decorator => exact mv_decorator 
  case decorators => exact mv_decorators 
  case decoratorsLoop => exact mv_decoratorsLoop _ _ _ _ (by assumption) (by assumption)
  case decorated => exact mv_decorated 
  case asyncFuncDef => exact mv_asyncFuncDef 
  case funcDef => exact mv_funcDef 
  case parameters => exact mv_parameters 
  case typedArgsList => exact mv_typedArgsList 
  case tfpDefAssign => exact mv_tfpDefAssign 
  case tfpDef => exact mv_tfpDef 
  case funcBodySuite => exact mv_funcBodySuite 
  case funcBodyLoop => exact mv_funcBodyLoop _ _ _ _ _ _ _ _ _ _ _ _ (by assumption) (by assumption) (by assumption) (by assumption) (by assumption) (by assumption)
  case classDef => exact mv_classDef 
  case funcType => exact mv_funcType 
  case typeList => exact mv_typeList 
  case typeListMainLoop => exact mv_typeListMainLoop _ _ _ _ (by assumption) (by assumption)
  case typeListStarLoop => exact mv_typeListStarLoop _ _ _ _ (by assumption) (by assumption)
  case evalInput => exact mv_evalInput 
  case fileInput => exact mv_fileInput 
  case singleInput => exact mv_singleInput 
  case funcTypeInput => exact mv_funcTypeInput 
  case patternsMatch => exact mv_patternsMatch 

end Verif
