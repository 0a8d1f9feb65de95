import Verif.Proof.PlaceAlike

/-!
# Every parse function does the same on symbols that are alike, and reports errors at the same symbol
-/

namespace Verif
open Prog

section
variable {e : Token → Token} {P : Nat → Nat → Prop} [Keeps e] {β : Type} [LkAt e P β]

theorem ala_symAt {p q m} {f g : Token → Prog β} (hp : P p q)
    (h : ∀ t u, e t = e u → t.kind = u.kind → t.isMatchName = u.isMatchName → RelAt e P (f t) (g u)) :
    RelAt e P (Prog.symAt p m >>= f) (Prog.symAt q m >>= g) :=
  rat_symAt_bind hp fun t u x => h t u x (Keeps.kind x) (Keeps.isMatch x)
theorem ala_symHere {m} {f g : Token → Prog β}
    (h : ∀ t u, e t = e u → t.kind = u.kind → t.isMatchName = u.isMatchName → RelAt e P (f t) (g u)) :
    RelAt e P (Prog.symHere m >>= f) (Prog.symHere m >>= g) :=
  rat_symHere_bind fun t u x => h t u x (Keeps.kind x) (Keeps.isMatch x)
theorem ala_sym? {f g : Option Token → Prog β}
    (h : ∀ t u, e t = e u → t.kind = u.kind → t.isMatchName = u.isMatchName → RelAt e P (f (some t)) (g (some u)))
    (hn : RelAt e P (f none) (g none)) : RelAt e P (Prog.sym? >>= f) (Prog.sym? >>= g) :=
  rat_sym?_bind (fun t u x => h t u x (Keeps.kind x) (Keeps.isMatch x)) hn
omit [Keeps e] in
theorem ala_parse {x y : Fn} {f g : Tree → Prog β} (hx : FnAt e P x y)
    (h : ∀ t u : Tree, t.erase e = u.erase e → t.tag? = u.tag? → RelAt e P (f t) (g u)) :
    RelAt e P (Prog.parse x >>= f) (Prog.parse y >>= g) :=
  rat_parse_bind hx fun t u x => h t u x (tag_of_erase x)
omit [Keeps e] in
theorem ala_bindT {p q : Prog Tree} {f g : Tree → Prog β} (hx : RelAt e P p q)
    (h : ∀ t u : Tree, t.erase e = u.erase e → t.tag? = u.tag? → RelAt e P (f t) (g u)) : RelAt e P (p >>= f) (q >>= g) :=
  rat_bind hx fun t u x => h t u x (tag_of_erase x)
end

attribute [local irreducible] RelAt

macro "ala_leaf" : tactic => `(tactic| first
  | trivial
  | rfl
  | assumption
  | (simp only [LkAt.rel, Tree.erase, eraseList, eraseList_append, erase_toks, List.map_append, List.map_reverse, eraseList_reverse,
      List.map_cons, List.map_nil, VA.erase, *]; done))

macro "ala_step'" : tactic => `(tactic| first
  | exact rat_panic
  | exact rat_fail (by assumption)
  | exact rat_failHere
  | (refine rat_here_bind ?_; intro _ _ _)
  | (refine rat_next_bind ?_)
  | (refine ala_symAt (by assumption) ?_; intro _ _ _ _ _)
  | (refine ala_symHere ?_; intro _ _ _ _ _)
  | (refine ala_sym? ?_ ?_; intro _ _ _ _ _)
  | (refine ala_parse ?_ ?_; rotate_left; intro _ _ _ _)
  | (refine rat_mk_bind ?_ ?_; rotate_left; intro _ _ _)
  | (refine rat_parse ?_)
  | (refine rat_mk ?_)
  | (refine rat_ite ?_ ?_ ?_)
  | (refine rat_pure ?_)
  | (refine rat_getExc ?_; intro x; cases x)
  | (refine rat_setExc ?_)
  | (refine ala_bindT ?_ ?_; rotate_left; intro _ _ _ _)
  | (refine rat_bind ?_ ?_; rotate_left; intro _ _ _)
  | ala_leaf
  | (with_reducible constructor)
  | (show RelAt _ _ _ _; dsimp only))

theorem ala_left {e : Token → Token} {P : Nat → Nat → Prop} [Keeps e] (op : Kind → Option Tag) (operand : Fn) (self : Nat → Tree → Fn) (msg : String) (s s' : Nat) (left left' : Tree)
    (ho : FnAt e P operand operand) (hp : P s s') (hs : ∀ s s' l l', P s s' → Tree.erase e l = Tree.erase e l' → FnAt e P (self s l) (self s' l'))
    (hl : left.erase e = left'.erase e) : RelAt e P (leftLoopBody op operand self msg s left) (leftLoopBody op operand self msg s' left') := by
  unfold leftLoopBody
  refine ala_symAt (by assumption) ?_
  intro t u h hk hm
  rw [hk]
  cases op u.kind with
  | none => exact rat_pure hl
  | some tag =>
    refine rat_next_bind (rat_parse_bind ho fun a b hab => rat_mk_bind ?_ fun x y hxy => rat_parse (hs _ _ _ _ hp hxy))
    simp only [Tree.erase, eraseList, *]

theorem ala_fin {e : Token → Token} {P : Nat → Nat → Prop} (s s' : Nat) (await await' right right' : Tree) (lst lst' : List Tree)
    (h1 : await.erase e = await'.erase e) (h2 : right.erase e = right'.erase e) (h3 : eraseList e lst = eraseList e lst') :
    RelAt e P (trailerLoopBody.fin s await right lst) (trailerLoopBody.fin s' await' right' lst') := by
  have hn : eraseList e [await, right, .seq lst] = eraseList e [await', right', .seq lst'] := by
    simp only [Tree.erase, eraseList, *]
  unfold trailerLoopBody.fin
  cases await <;> cases await' <;> first | (simp only [Tree.erase, reduceCtorEq] at h1; done) | skip
  all_goals first
    | (cases lst <;> cases lst' <;> first
        | (simp only [eraseList, reduceCtorEq] at h3; done)
        | exact rat_pure h2
        | exact rat_mk hn)
    | exact rat_mk hn

theorem ala_listResult {e : Token → Token} {P : Nat → Nat → Prop} (tag) (s s' : Nat) (l l' : List Tree) (p p' : List Token)
    (h1 : eraseList e l = eraseList e l') (h2 : p.map e = p'.map e) :
    RelAt e P (listResult tag s l p) (listResult tag s' l' p') := by
  have hn : eraseList e [.seq l, .toks p] = eraseList e [.seq l', .toks p'] := by
    simp only [Tree.erase, eraseList, erase_toks, *]
  have hl : l.length = l'.length := by simpa [eraseList_eq_map] using congrArg List.length h1
  have hp : p.length = p'.length := by simpa using congrArg List.length h2
  unfold listResult
  match l, l', p, p' with
  | [x], [y], [], [] => exact rat_pure (show Tree.erase e _ = Tree.erase e _ by simpa [eraseList] using h1)
  | [], [], _, _ => exact rat_mk hn
  | _ :: _ :: _, _ :: _ :: _, _, _ => exact rat_mk hn
  | [x], [y], _ :: _, _ :: _ => exact rat_mk hn

theorem ala_starResult {e : Token → Token} {P : Nat → Nat → Prop} (s s' : Nat) (l l' : List Tree) (p p' : List Token)
    (h1 : eraseList e l = eraseList e l') (h2 : p.map e = p'.map e) :
    RelAt e P (testlistStarExprResult s l p) (testlistStarExprResult s' l' p') := by
  have := ala_listResult (P := P) .TestListStarExpr s s' l.reverse l'.reverse p.reverse p'.reverse (by rw [eraseList_reverse, eraseList_reverse, h1])
    (by rw [List.map_reverse, List.map_reverse, h2])
  have hx : ∀ s l p, testlistStarExprResult s l p = listResult .TestListStarExpr s l.reverse p.reverse := by
    intro s l p
    unfold testlistStarExprResult listResult
    generalize l.reverse = a
    generalize p.reverse = b
    match a, b with
    | [x], [] => rfl
    | [], _ => rfl
    | _ :: _ :: _, _ => rfl
    | [_], _ :: _ => rfl
  rw [hx, hx]
  exact this

macro "ala_step" : tactic => `(tactic| first
  | ala_step'
  | (refine ala_fin _ _ _ _ _ _ _ _ ?_ ?_ ?_)
  | (refine ala_listResult _ _ _ _ _ _ _ ?_ ?_)
  | (refine ala_starResult _ _ _ _ _ _ ?_ ?_))

macro "ala_auto" : tactic => `(tactic| (repeat' ala_step))

theorem ala_atom {e : Token → Token} {P : Nat → Nat → Prop} [Keeps e]   : RelAt e P (atomBody) (atomBody) := by
  unfold atomBody; ala_auto
theorem ala_atomStrLoop {e : Token → Token} {P : Nat → Nat → Prop} [Keeps e] (s s' : Nat) (toks toks' : List Token) (hs : P s s') (h0 : toks.map e = toks'.map e) : RelAt e P (atomStrLoopBody s toks) (atomStrLoopBody s' toks') := by
  unfold atomStrLoopBody; ala_auto
theorem ala_atomExpr {e : Token → Token} {P : Nat → Nat → Prop} [Keeps e]   : RelAt e P (atomExprBody) (atomExprBody) := by
  unfold atomExprBody; ala_auto
theorem ala_trailerLoop {e : Token → Token} {P : Nat → Nat → Prop} [Keeps e] (s s' : Nat) (await await' : Tree) (right right' : Tree) (lst lst' : List Tree) (hs : P s s') (h0 : Tree.erase e await = Tree.erase e await') (h1 : Tree.erase e right = Tree.erase e right') (h2 : eraseList e lst = eraseList e lst') : RelAt e P (trailerLoopBody s await right lst) (trailerLoopBody s' await' right' lst') := by
  unfold trailerLoopBody; ala_auto
theorem ala_power {e : Token → Token} {P : Nat → Nat → Prop} [Keeps e]   : RelAt e P (powerBody) (powerBody) := by
  unfold powerBody; ala_auto
theorem ala_factor {e : Token → Token} {P : Nat → Nat → Prop} [Keeps e]   : RelAt e P (factorBody) (factorBody) := by
  unfold factorBody; ala_auto
theorem ala_term {e : Token → Token} {P : Nat → Nat → Prop} [Keeps e]   : RelAt e P (termBody) (termBody) := by
  unfold termBody; ala_auto
theorem ala_termLoop {e : Token → Token} {P : Nat → Nat → Prop} [Keeps e] (s s' : Nat) (left left' : Tree) (hs : P s s') (h0 : Tree.erase e left = Tree.erase e left') : RelAt e P (termLoopBody s left) (termLoopBody s' left') := by
  unfold termLoopBody; exact ala_left _ _ _ _ _ _ _ _ (by constructor) hs (by intros; constructor <;> assumption) h0
theorem ala_arith {e : Token → Token} {P : Nat → Nat → Prop} [Keeps e]   : RelAt e P (arithBody) (arithBody) := by
  unfold arithBody; ala_auto
theorem ala_arithLoop {e : Token → Token} {P : Nat → Nat → Prop} [Keeps e] (s s' : Nat) (left left' : Tree) (hs : P s s') (h0 : Tree.erase e left = Tree.erase e left') : RelAt e P (arithLoopBody s left) (arithLoopBody s' left') := by
  unfold arithLoopBody; exact ala_left _ _ _ _ _ _ _ _ (by constructor) hs (by intros; constructor <;> assumption) h0
theorem ala_shift {e : Token → Token} {P : Nat → Nat → Prop} [Keeps e]   : RelAt e P (shiftBody) (shiftBody) := by
  unfold shiftBody; ala_auto
theorem ala_shiftLoop {e : Token → Token} {P : Nat → Nat → Prop} [Keeps e] (s s' : Nat) (left left' : Tree) (hs : P s s') (h0 : Tree.erase e left = Tree.erase e left') : RelAt e P (shiftLoopBody s left) (shiftLoopBody s' left') := by
  unfold shiftLoopBody; exact ala_left _ _ _ _ _ _ _ _ (by constructor) hs (by intros; constructor <;> assumption) h0
theorem ala_andExpr {e : Token → Token} {P : Nat → Nat → Prop} [Keeps e]   : RelAt e P (andExprBody) (andExprBody) := by
  unfold andExprBody; ala_auto
theorem ala_andExprLoop {e : Token → Token} {P : Nat → Nat → Prop} [Keeps e] (s s' : Nat) (left left' : Tree) (hs : P s s') (h0 : Tree.erase e left = Tree.erase e left') : RelAt e P (andExprLoopBody s left) (andExprLoopBody s' left') := by
  unfold andExprLoopBody; exact ala_left _ _ _ _ _ _ _ _ (by constructor) hs (by intros; constructor <;> assumption) h0
theorem ala_xorExpr {e : Token → Token} {P : Nat → Nat → Prop} [Keeps e]   : RelAt e P (xorExprBody) (xorExprBody) := by
  unfold xorExprBody; ala_auto
theorem ala_xorExprLoop {e : Token → Token} {P : Nat → Nat → Prop} [Keeps e] (s s' : Nat) (left left' : Tree) (hs : P s s') (h0 : Tree.erase e left = Tree.erase e left') : RelAt e P (xorExprLoopBody s left) (xorExprLoopBody s' left') := by
  unfold xorExprLoopBody; exact ala_left _ _ _ _ _ _ _ _ (by constructor) hs (by intros; constructor <;> assumption) h0
theorem ala_expr {e : Token → Token} {P : Nat → Nat → Prop} [Keeps e]   : RelAt e P (exprBody) (exprBody) := by
  unfold exprBody; ala_auto
theorem ala_exprLoop {e : Token → Token} {P : Nat → Nat → Prop} [Keeps e] (s s' : Nat) (left left' : Tree) (hs : P s s') (h0 : Tree.erase e left = Tree.erase e left') : RelAt e P (exprLoopBody s left) (exprLoopBody s' left') := by
  unfold exprLoopBody; exact ala_left _ _ _ _ _ _ _ _ (by constructor) hs (by intros; constructor <;> assumption) h0
theorem ala_starExpr {e : Token → Token} {P : Nat → Nat → Prop} [Keeps e]   : RelAt e P (starExprBody) (starExprBody) := by
  unfold starExprBody; ala_auto
theorem ala_comparison {e : Token → Token} {P : Nat → Nat → Prop} [Keeps e]   : RelAt e P (comparisonBody) (comparisonBody) := by
  unfold comparisonBody; ala_auto
theorem ala_comparisonLoop {e : Token → Token} {P : Nat → Nat → Prop} [Keeps e] (s s' : Nat) (left left' : Tree) (hs : P s s') (h0 : Tree.erase e left = Tree.erase e left') : RelAt e P (comparisonLoopBody s left) (comparisonLoopBody s' left') := by
  unfold comparisonLoopBody; refine ala_symAt (by assumption) ?_; intro t u h hk hm; rw [hk]; cases compOp u.kind <;> ala_auto
theorem ala_notTest {e : Token → Token} {P : Nat → Nat → Prop} [Keeps e]   : RelAt e P (notTestBody) (notTestBody) := by
  unfold notTestBody; ala_auto
theorem ala_andTest {e : Token → Token} {P : Nat → Nat → Prop} [Keeps e]   : RelAt e P (andTestBody) (andTestBody) := by
  unfold andTestBody; ala_auto
theorem ala_andTestLoop {e : Token → Token} {P : Nat → Nat → Prop} [Keeps e] (s s' : Nat) (left left' : Tree) (hs : P s s') (h0 : Tree.erase e left = Tree.erase e left') : RelAt e P (andTestLoopBody s left) (andTestLoopBody s' left') := by
  unfold andTestLoopBody; exact ala_left _ _ _ _ _ _ _ _ (by constructor) hs (by intros; constructor <;> assumption) h0
theorem ala_orTest {e : Token → Token} {P : Nat → Nat → Prop} [Keeps e]   : RelAt e P (orTestBody) (orTestBody) := by
  unfold orTestBody; ala_auto
theorem ala_orTestLoop {e : Token → Token} {P : Nat → Nat → Prop} [Keeps e] (s s' : Nat) (left left' : Tree) (hs : P s s') (h0 : Tree.erase e left = Tree.erase e left') : RelAt e P (orTestLoopBody s left) (orTestLoopBody s' left') := by
  unfold orTestLoopBody; exact ala_left _ _ _ _ _ _ _ _ (by constructor) hs (by intros; constructor <;> assumption) h0
theorem ala_lambdaDef {e : Token → Token} {P : Nat → Nat → Prop} [Keeps e] (cond : Bool)  : RelAt e P (lambdaDefBody cond) (lambdaDefBody cond) := by
  unfold lambdaDefBody; ala_auto
theorem ala_noCondTest {e : Token → Token} {P : Nat → Nat → Prop} [Keeps e]   : RelAt e P (noCondTestBody) (noCondTestBody) := by
  unfold noCondTestBody; ala_auto
theorem ala_test {e : Token → Token} {P : Nat → Nat → Prop} [Keeps e]   : RelAt e P (testBody) (testBody) := by
  unfold testBody; ala_auto
theorem ala_namedExpression {e : Token → Token} {P : Nat → Nat → Prop} [Keeps e]   : RelAt e P (namedExpressionBody) (namedExpressionBody) := by
  unfold namedExpressionBody; ala_auto
theorem ala_testlistComp {e : Token → Token} {P : Nat → Nat → Prop} [Keeps e]   : RelAt e P (testlistCompBody) (testlistCompBody) := by
  unfold testlistCompBody starOrNamed; ala_auto
theorem ala_testlistCompLoop {e : Token → Token} {P : Nat → Nat → Prop} [Keeps e] (s s' : Nat) (nodes nodes' : List Tree) (seps seps' : List Token) (hs : P s s') (h0 : eraseList e nodes = eraseList e nodes') (h1 : seps.map e = seps'.map e) : RelAt e P (testlistCompLoopBody s nodes seps) (testlistCompLoopBody s' nodes' seps') := by
  unfold testlistCompLoopBody starOrNamed; ala_auto
theorem ala_trailer {e : Token → Token} {P : Nat → Nat → Prop} [Keeps e]   : RelAt e P (trailerBody) (trailerBody) := by
  unfold trailerBody; ala_auto
theorem ala_subscriptList {e : Token → Token} {P : Nat → Nat → Prop} [Keeps e]   : RelAt e P (subscriptListBody) (subscriptListBody) := by
  unfold subscriptListBody; ala_auto
theorem ala_subscriptListLoop {e : Token → Token} {P : Nat → Nat → Prop} [Keeps e] (s s' : Nat) (nodes nodes' : List Tree) (seps seps' : List Token) (hs : P s s') (h0 : eraseList e nodes = eraseList e nodes') (h1 : seps.map e = seps'.map e) : RelAt e P (subscriptListLoopBody s nodes seps) (subscriptListLoopBody s' nodes' seps') := by
  unfold subscriptListLoopBody; ala_auto
theorem ala_subscript {e : Token → Token} {P : Nat → Nat → Prop} [Keeps e]   : RelAt e P (subscriptBody) (subscriptBody) := by
  unfold subscriptBody; ala_auto
theorem ala_exprlist {e : Token → Token} {P : Nat → Nat → Prop} [Keeps e]   : RelAt e P (exprlistBody) (exprlistBody) := by
  unfold exprlistBody starOrNamed; ala_auto
theorem ala_exprlistLoop {e : Token → Token} {P : Nat → Nat → Prop} [Keeps e] (s s' : Nat) (nodes nodes' : List Tree) (seps seps' : List Token) (hs : P s s') (h0 : eraseList e nodes = eraseList e nodes') (h1 : seps.map e = seps'.map e) : RelAt e P (exprlistLoopBody s nodes seps) (exprlistLoopBody s' nodes' seps') := by
  unfold exprlistLoopBody; ala_auto
theorem ala_testlist {e : Token → Token} {P : Nat → Nat → Prop} [Keeps e]   : RelAt e P (testlistBody) (testlistBody) := by
  unfold testlistBody; ala_auto
theorem ala_testlistLoop {e : Token → Token} {P : Nat → Nat → Prop} [Keeps e] (s s' : Nat) (nodes nodes' : List Tree) (seps seps' : List Token) (hs : P s s') (h0 : eraseList e nodes = eraseList e nodes') (h1 : seps.map e = seps'.map e) : RelAt e P (testlistLoopBody s nodes seps) (testlistLoopBody s' nodes' seps') := by
  unfold testlistLoopBody; ala_auto
theorem ala_dictorsetMaker {e : Token → Token} {P : Nat → Nat → Prop} [Keeps e]   : RelAt e P (dictorsetMakerBody) (dictorsetMakerBody) := by
  unfold dictorsetMakerBody dictRest dictRest.fin; ala_auto
theorem ala_setLoop {e : Token → Token} {P : Nat → Nat → Prop} [Keeps e] (s s' : Nat) (nodes nodes' : List Tree) (seps seps' : List Token) (hs : P s s') (h0 : eraseList e nodes = eraseList e nodes') (h1 : seps.map e = seps'.map e) : RelAt e P (setLoopBody s nodes seps) (setLoopBody s' nodes' seps') := by
  unfold setLoopBody; ala_auto
theorem ala_arglist {e : Token → Token} {P : Nat → Nat → Prop} [Keeps e]   : RelAt e P (arglistBody) (arglistBody) := by
  unfold arglistBody; ala_auto
theorem ala_arglistLoop {e : Token → Token} {P : Nat → Nat → Prop} [Keeps e] (s s' : Nat) (nodes nodes' : List Tree) (seps seps' : List Token) (hs : P s s') (h0 : eraseList e nodes = eraseList e nodes') (h1 : seps.map e = seps'.map e) : RelAt e P (arglistLoopBody s nodes seps) (arglistLoopBody s' nodes' seps') := by
  unfold arglistLoopBody; ala_auto
theorem ala_argument {e : Token → Token} {P : Nat → Nat → Prop} [Keeps e]   : RelAt e P (argumentBody) (argumentBody) := by
  unfold argumentBody; ala_auto
theorem ala_compIter {e : Token → Token} {P : Nat → Nat → Prop} [Keeps e]   : RelAt e P (compIterBody) (compIterBody) := by
  unfold compIterBody; ala_auto
theorem ala_syncCompFor {e : Token → Token} {P : Nat → Nat → Prop} [Keeps e]   : RelAt e P (syncCompForBody) (syncCompForBody) := by
  unfold syncCompForBody; ala_auto
theorem ala_compFor {e : Token → Token} {P : Nat → Nat → Prop} [Keeps e]   : RelAt e P (compForBody) (compForBody) := by
  unfold compForBody; ala_auto
theorem ala_compIf {e : Token → Token} {P : Nat → Nat → Prop} [Keeps e]   : RelAt e P (compIfBody) (compIfBody) := by
  unfold compIfBody; ala_auto
theorem ala_yieldExpr {e : Token → Token} {P : Nat → Nat → Prop} [Keeps e]   : RelAt e P (yieldExprBody) (yieldExprBody) := by
  unfold yieldExprBody; ala_auto
theorem ala_testlistStarExpr {e : Token → Token} {P : Nat → Nat → Prop} [Keeps e]   : RelAt e P (testlistStarExprBody) (testlistStarExprBody) := by
  unfold testlistStarExprBody; ala_auto
theorem ala_testlistStarExprLoop {e : Token → Token} {P : Nat → Nat → Prop} [Keeps e] (s s' : Nat) (nodes nodes' : List Tree) (seps seps' : List Token) (hs : P s s') (h0 : eraseList e nodes = eraseList e nodes') (h1 : seps.map e = seps'.map e) : RelAt e P (testlistStarExprLoopBody s nodes seps) (testlistStarExprLoopBody s' nodes' seps') := by
  unfold testlistStarExprLoopBody; ala_auto
theorem ala_varArgsList {e : Token → Token} {P : Nat → Nat → Prop} [Keeps e]   : RelAt e P (varArgsListBody) (varArgsListBody) := by
  unfold varArgsListBody varArgsMul varArgsPower varArgsResult; ala_auto
theorem ala_varArgsMainLoop {e : Token → Token} {P : Nat → Nat → Prop} [Keeps e] (s s' : Nat) (v v' : VA) (hs : P s s') (h0 : v.erase e = v'.erase e) : RelAt e P (varArgsMainLoopBody s v) (varArgsMainLoopBody s' v') := by
  cases v; cases v'; simp only [VA.erase, VA.mk.injEq] at h0; obtain ⟨h1, h2, h3, h4, h5, h6, h7⟩ := h0; unfold varArgsMainLoopBody varArgsMul varArgsPower varArgsResult; ala_auto
theorem ala_varArgsStarLoop {e : Token → Token} {P : Nat → Nat → Prop} [Keeps e] (s s' : Nat) (v v' : VA) (hs : P s s') (h0 : v.erase e = v'.erase e) : RelAt e P (varArgsStarLoopBody s v) (varArgsStarLoopBody s' v') := by
  cases v; cases v'; simp only [VA.erase, VA.mk.injEq] at h0; obtain ⟨h1, h2, h3, h4, h5, h6, h7⟩ := h0; unfold varArgsStarLoopBody varArgsPower varArgsResult; ala_auto
theorem ala_varArgsDivLoop {e : Token → Token} {P : Nat → Nat → Prop} [Keeps e] (s s' : Nat) (v v' : VA) (hs : P s s') (h0 : v.erase e = v'.erase e) : RelAt e P (varArgsDivLoopBody s v) (varArgsDivLoopBody s' v') := by
  cases v; cases v'; simp only [VA.erase, VA.mk.injEq] at h0; obtain ⟨h1, h2, h3, h4, h5, h6, h7⟩ := h0; unfold varArgsDivLoopBody varArgsMul varArgsPower varArgsResult; ala_auto
theorem ala_varArgsAssignments {e : Token → Token} {P : Nat → Nat → Prop} [Keeps e]   : RelAt e P (varArgsAssignmentsBody) (varArgsAssignmentsBody) := by
  unfold varArgsAssignmentsBody; ala_auto
theorem ala_vfpDef {e : Token → Token} {P : Nat → Nat → Prop} [Keeps e]   : RelAt e P (vfpDefBody) (vfpDefBody) := by
  unfold vfpDefBody; ala_auto
theorem ala_stmt {e : Token → Token} {P : Nat → Nat → Prop} [Keeps e]   : RelAt e P (stmtBody) (stmtBody) := by
  unfold stmtBody; ala_auto
theorem ala_simpleStmt {e : Token → Token} {P : Nat → Nat → Prop} [Keeps e]   : RelAt e P (simpleStmtBody) (simpleStmtBody) := by
  unfold simpleStmtBody; ala_auto
theorem ala_simpleStmtLoop {e : Token → Token} {P : Nat → Nat → Prop} [Keeps e] (s s' : Nat) (nodes nodes' : List Tree) (seps seps' : List Token) (hs : P s s') (h0 : eraseList e nodes = eraseList e nodes') (h1 : seps.map e = seps'.map e) : RelAt e P (simpleStmtLoopBody s nodes seps) (simpleStmtLoopBody s' nodes' seps') := by
  unfold simpleStmtLoopBody simpleStmtLoopBody.fin; ala_auto
theorem ala_smallStmt {e : Token → Token} {P : Nat → Nat → Prop} [Keeps e]   : RelAt e P (smallStmtBody) (smallStmtBody) := by
  unfold smallStmtBody; ala_auto
theorem ala_exprStmt {e : Token → Token} {P : Nat → Nat → Prop} [Keeps e]   : RelAt e P (exprStmtBody) (exprStmtBody) := by
  unfold exprStmtBody yieldOrTestlist
  refine rat_here_bind fun p q hp => ala_parse (by constructor) ?_
  intro a b ha _
  refine ala_symAt (by assumption) ?_; intro t u h hk hm; rw [hk]; cases augOp u.kind <;> ala_auto
theorem ala_assignLoop {e : Token → Token} {P : Nat → Nat → Prop} [Keeps e] (s s' : Nat) (left left' : Tree) (nodes nodes' : List Tree) (hs : P s s') (h0 : Tree.erase e left = Tree.erase e left') (h1 : eraseList e nodes = eraseList e nodes') : RelAt e P (assignLoopBody s left nodes) (assignLoopBody s' left' nodes') := by
  unfold assignLoopBody yieldOrTestlist; ala_auto
theorem ala_annAssign {e : Token → Token} {P : Nat → Nat → Prop} [Keeps e] (s s' : Nat) (left left' : Tree) (hs : P s s') (h0 : Tree.erase e left = Tree.erase e left') : RelAt e P (annAssignBody s left) (annAssignBody s' left') := by
  unfold annAssignBody yieldOrTestlist; ala_auto
theorem ala_delStmt {e : Token → Token} {P : Nat → Nat → Prop} [Keeps e]   : RelAt e P (delStmtBody) (delStmtBody) := by
  unfold delStmtBody; ala_auto
theorem ala_passStmt {e : Token → Token} {P : Nat → Nat → Prop} [Keeps e]   : RelAt e P (passStmtBody) (passStmtBody) := by
  unfold passStmtBody; ala_auto
theorem ala_flowStmt {e : Token → Token} {P : Nat → Nat → Prop} [Keeps e]   : RelAt e P (flowStmtBody) (flowStmtBody) := by
  unfold flowStmtBody; ala_auto
theorem ala_breakStmt {e : Token → Token} {P : Nat → Nat → Prop} [Keeps e]   : RelAt e P (breakStmtBody) (breakStmtBody) := by
  unfold breakStmtBody; ala_auto
theorem ala_continueStmt {e : Token → Token} {P : Nat → Nat → Prop} [Keeps e]   : RelAt e P (continueStmtBody) (continueStmtBody) := by
  unfold continueStmtBody; ala_auto
theorem ala_returnStmt {e : Token → Token} {P : Nat → Nat → Prop} [Keeps e]   : RelAt e P (returnStmtBody) (returnStmtBody) := by
  unfold returnStmtBody; ala_auto
theorem ala_yieldStmt {e : Token → Token} {P : Nat → Nat → Prop} [Keeps e]   : RelAt e P (yieldStmtBody) (yieldStmtBody) := by
  unfold yieldStmtBody; ala_auto
theorem ala_raiseStmt {e : Token → Token} {P : Nat → Nat → Prop} [Keeps e]   : RelAt e P (raiseStmtBody) (raiseStmtBody) := by
  unfold raiseStmtBody; ala_auto
theorem ala_importStmt {e : Token → Token} {P : Nat → Nat → Prop} [Keeps e]   : RelAt e P (importStmtBody) (importStmtBody) := by
  unfold importStmtBody; ala_auto
theorem ala_importName {e : Token → Token} {P : Nat → Nat → Prop} [Keeps e]   : RelAt e P (importNameBody) (importNameBody) := by
  unfold importNameBody; ala_auto
theorem ala_importFrom {e : Token → Token} {P : Nat → Nat → Prop} [Keeps e]   : RelAt e P (importFromBody) (importFromBody) := by
  unfold importFromBody; ala_auto
theorem ala_importDotLoop {e : Token → Token} {P : Nat → Nat → Prop} [Keeps e] (s s' : Nat) (sym1 sym1' : Token) (dots dots' : List Token) (hs : P s s') (h0 : e sym1 = e sym1') (h1 : dots.map e = dots'.map e) : RelAt e P (importDotLoopBody s sym1 dots) (importDotLoopBody s' sym1' dots') := by
  have hl : dots.reverse.length = dots'.reverse.length := by simpa using congrArg List.length h1
  unfold importDotLoopBody importFromRest; ala_auto
theorem ala_importAsName {e : Token → Token} {P : Nat → Nat → Prop} [Keeps e]   : RelAt e P (importAsNameBody) (importAsNameBody) := by
  unfold importAsNameBody; ala_auto
theorem ala_dottedAsName {e : Token → Token} {P : Nat → Nat → Prop} [Keeps e]   : RelAt e P (dottedAsNameBody) (dottedAsNameBody) := by
  unfold dottedAsNameBody; ala_auto
theorem ala_importAsNames {e : Token → Token} {P : Nat → Nat → Prop} [Keeps e]   : RelAt e P (importAsNamesBody) (importAsNamesBody) := by
  unfold importAsNamesBody; ala_auto
theorem ala_importAsNamesLoop {e : Token → Token} {P : Nat → Nat → Prop} [Keeps e] (s s' : Nat) (nodes nodes' : List Tree) (seps seps' : List Token) (hs : P s s') (h0 : eraseList e nodes = eraseList e nodes') (h1 : seps.map e = seps'.map e) : RelAt e P (importAsNamesLoopBody s nodes seps) (importAsNamesLoopBody s' nodes' seps') := by
  unfold importAsNamesLoopBody; ala_auto
theorem ala_dottedAsNames {e : Token → Token} {P : Nat → Nat → Prop} [Keeps e]   : RelAt e P (dottedAsNamesBody) (dottedAsNamesBody) := by
  unfold dottedAsNamesBody; ala_auto
theorem ala_dottedAsNamesLoop {e : Token → Token} {P : Nat → Nat → Prop} [Keeps e] (s s' : Nat) (nodes nodes' : List Tree) (seps seps' : List Token) (hs : P s s') (h0 : eraseList e nodes = eraseList e nodes') (h1 : seps.map e = seps'.map e) : RelAt e P (dottedAsNamesLoopBody s nodes seps) (dottedAsNamesLoopBody s' nodes' seps') := by
  unfold dottedAsNamesLoopBody; ala_auto
theorem ala_dottedName {e : Token → Token} {P : Nat → Nat → Prop} [Keeps e]   : RelAt e P (dottedNameBody) (dottedNameBody) := by
  unfold dottedNameBody; ala_auto
theorem ala_dottedNameLoop {e : Token → Token} {P : Nat → Nat → Prop} [Keeps e] (s s' : Nat) (nodes nodes' : List Token) (seps seps' : List Token) (hs : P s s') (h0 : nodes.map e = nodes'.map e) (h1 : seps.map e = seps'.map e) : RelAt e P (dottedNameLoopBody s nodes seps) (dottedNameLoopBody s' nodes' seps') := by
  unfold dottedNameLoopBody; ala_auto
theorem ala_globalStmt {e : Token → Token} {P : Nat → Nat → Prop} [Keeps e]   : RelAt e P (globalStmtBody) (globalStmtBody) := by
  unfold globalStmtBody; ala_auto
theorem ala_globalLoop {e : Token → Token} {P : Nat → Nat → Prop} [Keeps e] (s s' : Nat) (sym sym' : Token) (nodes nodes' : List Token) (seps seps' : List Token) (hs : P s s') (h0 : e sym = e sym') (h1 : nodes.map e = nodes'.map e) (h2 : seps.map e = seps'.map e) : RelAt e P (globalLoopBody s sym nodes seps) (globalLoopBody s' sym' nodes' seps') := by
  unfold globalLoopBody; ala_auto
theorem ala_nonlocalStmt {e : Token → Token} {P : Nat → Nat → Prop} [Keeps e]   : RelAt e P (nonlocalStmtBody) (nonlocalStmtBody) := by
  unfold nonlocalStmtBody; ala_auto
theorem ala_nonlocalLoop {e : Token → Token} {P : Nat → Nat → Prop} [Keeps e] (s s' : Nat) (sym sym' : Token) (nodes nodes' : List Token) (seps seps' : List Token) (hs : P s s') (h0 : e sym = e sym') (h1 : nodes.map e = nodes'.map e) (h2 : seps.map e = seps'.map e) : RelAt e P (nonlocalLoopBody s sym nodes seps) (nonlocalLoopBody s' sym' nodes' seps') := by
  unfold nonlocalLoopBody; ala_auto
theorem ala_assertStmt {e : Token → Token} {P : Nat → Nat → Prop} [Keeps e]   : RelAt e P (assertStmtBody) (assertStmtBody) := by
  unfold assertStmtBody; ala_auto
theorem ala_compoundStmt {e : Token → Token} {P : Nat → Nat → Prop} [Keeps e]   : RelAt e P (compoundStmtBody) (compoundStmtBody) := by
  unfold compoundStmtBody; ala_auto
theorem ala_asyncStmt {e : Token → Token} {P : Nat → Nat → Prop} [Keeps e]   : RelAt e P (asyncStmtBody) (asyncStmtBody) := by
  unfold asyncStmtBody; ala_auto
theorem ala_ifStmt {e : Token → Token} {P : Nat → Nat → Prop} [Keeps e]   : RelAt e P (ifStmtBody) (ifStmtBody) := by
  unfold ifStmtBody; ala_auto
theorem ala_ifLoop {e : Token → Token} {P : Nat → Nat → Prop} [Keeps e] (s s' : Nat) (sym1 sym1' : Token) (left left' : Tree) (sym2 sym2' : Token) (right right' : Tree) (nodes nodes' : List Tree) (hs : P s s') (h0 : e sym1 = e sym1') (h1 : Tree.erase e left = Tree.erase e left') (h2 : e sym2 = e sym2') (h3 : Tree.erase e right = Tree.erase e right') (h4 : eraseList e nodes = eraseList e nodes') : RelAt e P (ifLoopBody s sym1 left sym2 right nodes) (ifLoopBody s' sym1' left' sym2' right' nodes') := by
  unfold ifLoopBody; ala_auto
theorem ala_elifStmt {e : Token → Token} {P : Nat → Nat → Prop} [Keeps e]   : RelAt e P (elifStmtBody) (elifStmtBody) := by
  unfold elifStmtBody; ala_auto
theorem ala_elseStmt {e : Token → Token} {P : Nat → Nat → Prop} [Keeps e]   : RelAt e P (elseStmtBody) (elseStmtBody) := by
  unfold elseStmtBody; ala_auto
theorem ala_whileStmt {e : Token → Token} {P : Nat → Nat → Prop} [Keeps e]   : RelAt e P (whileStmtBody) (whileStmtBody) := by
  unfold whileStmtBody; ala_auto
theorem ala_forStmt {e : Token → Token} {P : Nat → Nat → Prop} [Keeps e]   : RelAt e P (forStmtBody) (forStmtBody) := by
  unfold forStmtBody; ala_auto
theorem ala_tryStmt {e : Token → Token} {P : Nat → Nat → Prop} [Keeps e]   : RelAt e P (tryStmtBody) (tryStmtBody) := by
  unfold tryStmtBody; ala_auto
theorem ala_tryLoop {e : Token → Token} {P : Nat → Nat → Prop} [Keeps e] (s s' : Nat) (sym1 sym1' : Token) (sym2 sym2' : Token) (left left' : Tree) (nodes nodes' : List Tree) (hs : P s s') (h0 : e sym1 = e sym1') (h1 : e sym2 = e sym2') (h2 : Tree.erase e left = Tree.erase e left') (h3 : eraseList e nodes = eraseList e nodes') : RelAt e P (tryLoopBody s sym1 sym2 left nodes) (tryLoopBody s' sym1' sym2' left' nodes') := by
  unfold tryLoopBody; ala_auto
theorem ala_finallyStmt {e : Token → Token} {P : Nat → Nat → Prop} [Keeps e]   : RelAt e P (finallyStmtBody) (finallyStmtBody) := by
  unfold finallyStmtBody; ala_auto
theorem ala_withStmt {e : Token → Token} {P : Nat → Nat → Prop} [Keeps e]   : RelAt e P (withStmtBody) (withStmtBody) := by
  unfold withStmtBody; ala_auto
theorem ala_withParenLoop {e : Token → Token} {P : Nat → Nat → Prop} [Keeps e] (s s' : Nat) (sym1 sym1' : Token) (lpar lpar' : Token) (nodes nodes' : List Tree) (seps seps' : List Token) (hs : P s s') (h0 : e sym1 = e sym1') (h1 : e lpar = e lpar') (h2 : eraseList e nodes = eraseList e nodes') (h3 : seps.map e = seps'.map e) : RelAt e P (withParenLoopBody s sym1 lpar nodes seps) (withParenLoopBody s' sym1' lpar' nodes' seps') := by
  unfold withParenLoopBody withParenEnd withRest; ala_auto
theorem ala_withLoop {e : Token → Token} {P : Nat → Nat → Prop} [Keeps e] (s s' : Nat) (sym1 sym1' : Token) (nodes nodes' : List Tree) (seps seps' : List Token) (hs : P s s') (h0 : e sym1 = e sym1') (h1 : eraseList e nodes = eraseList e nodes') (h2 : seps.map e = seps'.map e) : RelAt e P (withLoopBody s sym1 nodes seps) (withLoopBody s' sym1' nodes' seps') := by
  unfold withLoopBody withRest; ala_auto
theorem ala_withItem {e : Token → Token} {P : Nat → Nat → Prop} [Keeps e]   : RelAt e P (withItemBody) (withItemBody) := by
  unfold withItemBody; ala_auto
theorem ala_exceptStmt {e : Token → Token} {P : Nat → Nat → Prop} [Keeps e]   : RelAt e P (exceptStmtBody) (exceptStmtBody) := by
  unfold exceptStmtBody; ala_auto
theorem ala_exceptClause {e : Token → Token} {P : Nat → Nat → Prop} [Keeps e]   : RelAt e P (exceptClauseBody) (exceptClauseBody) := by
  unfold exceptClauseBody exceptStar; ala_auto
theorem ala_suite {e : Token → Token} {P : Nat → Nat → Prop} [Keeps e]   : RelAt e P (suiteBody) (suiteBody) := by
  unfold suiteBody; ala_auto
theorem ala_suiteLoop {e : Token → Token} {P : Nat → Nat → Prop} [Keeps e] (s s' : Nat) (sym1 sym1' : Token) (sym2 sym2' : Token) (nodes nodes' : List Tree) (hs : P s s') (h0 : e sym1 = e sym1') (h1 : e sym2 = e sym2') (h2 : eraseList e nodes = eraseList e nodes') : RelAt e P (suiteLoopBody s sym1 sym2 nodes) (suiteLoopBody s' sym1' sym2' nodes') := by
  unfold suiteLoopBody; ala_auto
theorem ala_evalLoop {e : Token → Token} {P : Nat → Nat → Prop} [Keeps e] (s s' : Nat) (right right' : Tree) (seps seps' : List Token) (hs : P s s') (h0 : Tree.erase e right = Tree.erase e right') (h1 : seps.map e = seps'.map e) : RelAt e P (evalLoopBody s right seps) (evalLoopBody s' right' seps') := by
  unfold evalLoopBody; ala_auto
theorem ala_fileLoop {e : Token → Token} {P : Nat → Nat → Prop} [Keeps e] (s s' : Nat) (nodes nodes' : List Tree) (seps seps' : List Token) (hs : P s s') (h0 : eraseList e nodes = eraseList e nodes') (h1 : seps.map e = seps'.map e) : RelAt e P (fileLoopBody s nodes seps) (fileLoopBody s' nodes' seps') := by
  unfold fileLoopBody; ala_auto
theorem ala_funcTypeLoop {e : Token → Token} {P : Nat → Nat → Prop} [Keeps e] (s s' : Nat) (right right' : Tree) (seps seps' : List Token) (hs : P s s') (h0 : Tree.erase e right = Tree.erase e right') (h1 : seps.map e = seps'.map e) : RelAt e P (funcTypeLoopBody s right seps) (funcTypeLoopBody s' right' seps') := by
  unfold funcTypeLoopBody; ala_auto
theorem ala_decorator {e : Token → Token} {P : Nat → Nat → Prop} [Keeps e]   : RelAt e P (decoratorBody) (decoratorBody) := by
  unfold decoratorBody decoratorEnd; ala_auto
theorem ala_decorators {e : Token → Token} {P : Nat → Nat → Prop} [Keeps e]   : RelAt e P (decoratorsBody) (decoratorsBody) := by
  unfold decoratorsBody; ala_auto
theorem ala_decoratorsLoop {e : Token → Token} {P : Nat → Nat → Prop} [Keeps e] (s s' : Nat) (nodes nodes' : List Tree) (hs : P s s') (h0 : eraseList e nodes = eraseList e nodes') : RelAt e P (decoratorsLoopBody s nodes) (decoratorsLoopBody s' nodes') := by
  unfold decoratorsLoopBody; ala_auto
theorem ala_decorated {e : Token → Token} {P : Nat → Nat → Prop} [Keeps e]   : RelAt e P (decoratedBody) (decoratedBody) := by
  unfold decoratedBody; ala_auto
theorem ala_asyncFuncDef {e : Token → Token} {P : Nat → Nat → Prop} [Keeps e]   : RelAt e P (asyncFuncDefBody) (asyncFuncDefBody) := by
  unfold asyncFuncDefBody; ala_auto
theorem ala_funcDef {e : Token → Token} {P : Nat → Nat → Prop} [Keeps e]   : RelAt e P (funcDefBody) (funcDefBody) := by
  unfold funcDefBody; ala_auto
theorem ala_parameters {e : Token → Token} {P : Nat → Nat → Prop} [Keeps e]   : RelAt e P (parametersBody) (parametersBody) := by
  unfold parametersBody; ala_auto
theorem ala_typedArgsList {e : Token → Token} {P : Nat → Nat → Prop} [Keeps e]   : RelAt e P (typedArgsListBody) (typedArgsListBody) := by
  unfold typedArgsListBody; ala_auto
theorem ala_tfpDefAssign {e : Token → Token} {P : Nat → Nat → Prop} [Keeps e]   : RelAt e P (tfpDefAssignBody) (tfpDefAssignBody) := by
  unfold tfpDefAssignBody; ala_auto
theorem ala_tfpDef {e : Token → Token} {P : Nat → Nat → Prop} [Keeps e]   : RelAt e P (tfpDefBody) (tfpDefBody) := by
  unfold tfpDefBody; ala_auto
theorem ala_funcBodySuite {e : Token → Token} {P : Nat → Nat → Prop} [Keeps e]   : RelAt e P (funcBodySuiteBody) (funcBodySuiteBody) := by
  unfold funcBodySuiteBody funcBodyIndent; ala_auto
theorem ala_funcBodyLoop {e : Token → Token} {P : Nat → Nat → Prop} [Keeps e] (s s' : Nat) (sym1 sym1' : Token) (tc tc' : Tree) (tcnl tcnl' : Tree) (sym2 sym2' : Token) (nodes nodes' : List Tree) (hs : P s s') (h0 : e sym1 = e sym1') (h1 : Tree.erase e tc = Tree.erase e tc') (h2 : Tree.erase e tcnl = Tree.erase e tcnl') (h3 : e sym2 = e sym2') (h4 : eraseList e nodes = eraseList e nodes') : RelAt e P (funcBodyLoopBody s sym1 tc tcnl sym2 nodes) (funcBodyLoopBody s' sym1' tc' tcnl' sym2' nodes') := by
  unfold funcBodyLoopBody; ala_auto
theorem ala_classDef {e : Token → Token} {P : Nat → Nat → Prop} [Keeps e]   : RelAt e P (classDefBody) (classDefBody) := by
  unfold classDefBody classRest; ala_auto
theorem ala_funcType {e : Token → Token} {P : Nat → Nat → Prop} [Keeps e]   : RelAt e P (funcTypeBody) (funcTypeBody) := by
  unfold funcTypeBody; ala_auto
theorem ala_typeList {e : Token → Token} {P : Nat → Nat → Prop} [Keeps e]   : RelAt e P (typeListBody) (typeListBody) := by
  unfold typeListBody typeListMul typeListPower typeListResult; ala_auto
theorem ala_typeListMainLoop {e : Token → Token} {P : Nat → Nat → Prop} [Keeps e] (s s' : Nat) (v v' : VA) (hs : P s s') (h0 : v.erase e = v'.erase e) : RelAt e P (typeListMainLoopBody s v) (typeListMainLoopBody s' v') := by
  cases v; cases v'; simp only [VA.erase, VA.mk.injEq] at h0; obtain ⟨h1, h2, h3, h4, h5, h6, h7⟩ := h0; unfold typeListMainLoopBody typeListMul typeListPower typeListResult; ala_auto
theorem ala_typeListStarLoop {e : Token → Token} {P : Nat → Nat → Prop} [Keeps e] (s s' : Nat) (v v' : VA) (hs : P s s') (h0 : v.erase e = v'.erase e) : RelAt e P (typeListStarLoopBody s v) (typeListStarLoopBody s' v') := by
  cases v; cases v'; simp only [VA.erase, VA.mk.injEq] at h0; obtain ⟨h1, h2, h3, h4, h5, h6, h7⟩ := h0; unfold typeListStarLoopBody typeListPower typeListResult; ala_auto
theorem ala_evalInput {e : Token → Token} {P : Nat → Nat → Prop} [Keeps e]   : RelAt e P (evalInputBody) (evalInputBody) := by
  unfold evalInputBody; ala_auto
theorem ala_fileInput {e : Token → Token} {P : Nat → Nat → Prop} [Keeps e]   : RelAt e P (fileInputBody) (fileInputBody) := by
  unfold fileInputBody; ala_auto
theorem ala_singleInput {e : Token → Token} {P : Nat → Nat → Prop} [Keeps e]   : RelAt e P (singleInputBody) (singleInputBody) := by
  unfold singleInputBody; ala_auto
theorem ala_funcTypeInput {e : Token → Token} {P : Nat → Nat → Prop} [Keeps e]   : RelAt e P (funcTypeInputBody) (funcTypeInputBody) := by
  unfold funcTypeInputBody; ala_auto
theorem ala_patternsMatch {e : Token → Token} {P : Nat → Nat → Prop} [Keeps e]   : RelAt e P (patternsMatchBody) (patternsMatchBody) := by
  unfold patternsMatchBody; ala_auto

theorem ala_body {e : Token → Token} {P : Nat → Nat → Prop} [Keeps e] {f g : Fn} (h : FnAt e P f g) : RelAt e P (body f) (body g) := by
  cases h
  case atom => exact ala_atom 
  case atomStrLoop => exact ala_atomStrLoop _ _ _ _ (by assumption) (by assumption)
  case atomExpr => exact ala_atomExpr 
  case trailerLoop => exact ala_trailerLoop _ _ _ _ _ _ _ _ (by assumption) (by assumption) (by assumption) (by assumption)
  case power => exact ala_power 
  case factor => exact ala_factor 
  case term => exact ala_term 
  case termLoop => exact ala_termLoop _ _ _ _ (by assumption) (by assumption)
  case arith => exact ala_arith 
  case arithLoop => exact ala_arithLoop _ _ _ _ (by assumption) (by assumption)
  case shift => exact ala_shift 
  case shiftLoop => exact ala_shiftLoop _ _ _ _ (by assumption) (by assumption)
  case andExpr => exact ala_andExpr 
  case andExprLoop => exact ala_andExprLoop _ _ _ _ (by assumption) (by assumption)
  case xorExpr => exact ala_xorExpr 
  case xorExprLoop => exact ala_xorExprLoop _ _ _ _ (by assumption) (by assumption)
  case expr => exact ala_expr 
  case exprLoop => exact ala_exprLoop _ _ _ _ (by assumption) (by assumption)
  case starExpr => exact ala_starExpr 
  case comparison => exact ala_comparison 
  case comparisonLoop => exact ala_comparisonLoop _ _ _ _ (by assumption) (by assumption)
  case notTest => exact ala_notTest 
  case andTest => exact ala_andTest 
  case andTestLoop => exact ala_andTestLoop _ _ _ _ (by assumption) (by assumption)
  case orTest => exact ala_orTest 
  case orTestLoop => exact ala_orTestLoop _ _ _ _ (by assumption) (by assumption)
  case lambdaDef => exact ala_lambdaDef _
  case noCondTest => exact ala_noCondTest 
  case test => exact ala_test 
  case namedExpression => exact ala_namedExpression 
  case testlistComp => exact ala_testlistComp 
  case testlistCompLoop => exact ala_testlistCompLoop _ _ _ _ _ _ (by assumption) (by assumption) (by assumption)
  case trailer => exact ala_trailer 
  case subscriptList => exact ala_subscriptList 
  case subscriptListLoop => exact ala_subscriptListLoop _ _ _ _ _ _ (by assumption) (by assumption) (by assumption)
  case subscript => exact ala_subscript 
  case exprlist => exact ala_exprlist 
  case exprlistLoop => exact ala_exprlistLoop _ _ _ _ _ _ (by assumption) (by assumption) (by assumption)
  case testlist => exact ala_testlist 
  case testlistLoop => exact ala_testlistLoop _ _ _ _ _ _ (by assumption) (by assumption) (by assumption)
  case dictorsetMaker => exact ala_dictorsetMaker 
  case setLoop => exact ala_setLoop _ _ _ _ _ _ (by assumption) (by assumption) (by assumption)
  case arglist => exact ala_arglist 
  case arglistLoop => exact ala_arglistLoop _ _ _ _ _ _ (by assumption) (by assumption) (by assumption)
  case argument => exact ala_argument 
  case compIter => exact ala_compIter 
  case syncCompFor => exact ala_syncCompFor 
  case compFor => exact ala_compFor 
  case compIf => exact ala_compIf 
  case yieldExpr => exact ala_yieldExpr 
  case testlistStarExpr => exact ala_testlistStarExpr 
  case testlistStarExprLoop => exact ala_testlistStarExprLoop _ _ _ _ _ _ (by assumption) (by assumption) (by assumption)
  case varArgsList => exact ala_varArgsList 
  case varArgsMainLoop => exact ala_varArgsMainLoop _ _ _ _ (by assumption) (by assumption)
  case varArgsStarLoop => exact ala_varArgsStarLoop _ _ _ _ (by assumption) (by assumption)
  case varArgsDivLoop => exact ala_varArgsDivLoop _ _ _ _ (by assumption) (by assumption)
  case varArgsAssignments => exact ala_varArgsAssignments 
  case vfpDef => exact ala_vfpDef 
  case stmt => exact ala_stmt 
  case simpleStmt => exact ala_simpleStmt 
  case simpleStmtLoop => exact ala_simpleStmtLoop _ _ _ _ _ _ (by assumption) (by assumption) (by assumption)
  case smallStmt => exact ala_smallStmt 
  case exprStmt => exact ala_exprStmt 
  case assignLoop => exact ala_assignLoop _ _ _ _ _ _ (by assumption) (by assumption) (by assumption)
  case annAssign => exact ala_annAssign _ _ _ _ (by assumption) (by assumption)
  case delStmt => exact ala_delStmt 
  case passStmt => exact ala_passStmt 
  case flowStmt => exact ala_flowStmt 
  case breakStmt => exact ala_breakStmt 
  case continueStmt => exact ala_continueStmt 
  case returnStmt => exact ala_returnStmt 
  case yieldStmt => exact ala_yieldStmt 
  case raiseStmt => exact ala_raiseStmt 
  case importStmt => exact ala_importStmt 
  case importName => exact ala_importName 
  case importFrom => exact ala_importFrom 
  case importDotLoop => exact ala_importDotLoop _ _ _ _ _ _ (by assumption) (by assumption) (by assumption)
  case importAsName => exact ala_importAsName 
  case dottedAsName => exact ala_dottedAsName 
  case importAsNames => exact ala_importAsNames 
  case importAsNamesLoop => exact ala_importAsNamesLoop _ _ _ _ _ _ (by assumption) (by assumption) (by assumption)
  case dottedAsNames => exact ala_dottedAsNames 
  case dottedAsNamesLoop => exact ala_dottedAsNamesLoop _ _ _ _ _ _ (by assumption) (by assumption) (by assumption)
  case dottedName => exact ala_dottedName 
  case dottedNameLoop => exact ala_dottedNameLoop _ _ _ _ _ _ (by assumption) (by assumption) (by assumption)
  case globalStmt => exact ala_globalStmt 
  case globalLoop => exact ala_globalLoop _ _ _ _ _ _ _ _ (by assumption) (by assumption) (by assumption) (by assumption)
  case nonlocalStmt => exact ala_nonlocalStmt 
  case nonlocalLoop => exact ala_nonlocalLoop _ _ _ _ _ _ _ _ (by assumption) (by assumption) (by assumption) (by assumption)
  case assertStmt => exact ala_assertStmt 
  case compoundStmt => exact ala_compoundStmt 
  case asyncStmt => exact ala_asyncStmt 
  case ifStmt => exact ala_ifStmt 
  case ifLoop => exact ala_ifLoop _ _ _ _ _ _ _ _ _ _ _ _ (by assumption) (by assumption) (by assumption) (by assumption) (by assumption) (by assumption)
  case elifStmt => exact ala_elifStmt 
  case elseStmt => exact ala_elseStmt 
  case whileStmt => exact ala_whileStmt 
  case forStmt => exact ala_forStmt 
  case tryStmt => exact ala_tryStmt 
  case tryLoop => exact ala_tryLoop _ _ _ _ _ _ _ _ _ _ (by assumption) (by assumption) (by assumption) (by assumption) (by assumption)
  case finallyStmt => exact ala_finallyStmt 
  case withStmt => exact ala_withStmt 
  case withParenLoop => exact ala_withParenLoop _ _ _ _ _ _ _ _ _ _ (by assumption) (by assumption) (by assumption) (by assumption) (by assumption)
  case withLoop => exact ala_withLoop _ _ _ _ _ _ _ _ (by assumption) (by assumption) (by assumption) (by assumption)
  case withItem => exact ala_withItem 
  case exceptStmt => exact ala_exceptStmt 
  case exceptClause => exact ala_exceptClause 
  case suite => exact ala_suite 
  case suiteLoop => exact ala_suiteLoop _ _ _ _ _ _ _ _ (by assumption) (by assumption) (by assumption) (by assumption)
  case evalLoop => exact ala_evalLoop _ _ _ _ _ _ (by assumption) (by assumption) (by assumption)
  case fileLoop => exact ala_fileLoop _ _ _ _ _ _ (by assumption) (by assumption) (by assumption)
  case funcTypeLoop => exact ala_funcTypeLoop _ _ _ _ _ _ (by assumption) (by assumption) (by assumption)
  case decorator => exact ala_decorator 
  case decorators => exact ala_decorators 
  case decoratorsLoop => exact ala_decoratorsLoop _ _ _ _ (by assumption) (by assumption)
  case decorated => exact ala_decorated 
  case asyncFuncDef => exact ala_asyncFuncDef 
  case funcDef => exact ala_funcDef 
  case parameters => exact ala_parameters 
  case typedArgsList => exact ala_typedArgsList 
  case tfpDefAssign => exact ala_tfpDefAssign 
  case tfpDef => exact ala_tfpDef 
  case funcBodySuite => exact ala_funcBodySuite 
  case funcBodyLoop => exact ala_funcBodyLoop _ _ _ _ _ _ _ _ _ _ _ _ (by assumption) (by assumption) (by assumption) (by assumption) (by assumption) (by assumption)
  case classDef => exact ala_classDef 
  case funcType => exact ala_funcType 
  case typeList => exact ala_typeList 
  case typeListMainLoop => exact ala_typeListMainLoop _ _ _ _ (by assumption) (by assumption)
  case typeListStarLoop => exact ala_typeListStarLoop _ _ _ _ (by assumption) (by assumption)
  case evalInput => exact ala_evalInput 
  case fileInput => exact ala_fileInput 
  case singleInput => exact ala_singleInput 
  case funcTypeInput => exact ala_funcTypeInput 
  case patternsMatch => exact ala_patternsMatch 

end Verif
