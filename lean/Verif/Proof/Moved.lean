import Verif.Proof.PlaceAlikeAll
import Verif.Proof.ShiftAt
import Verif.Spec.Moved

/-!
# Two runs of a parse function on the same text, `d` characters apart

As in `Proof/PlaceAlike.lean`, for trees that are equal up to the distance.
-/

namespace Verif
variable {d : Nat}

theorem mvList_append (d : Nat) (a b : List Tree) : mvList d (a ++ b) = mvList d a ++ mvList d b := by
  induction a with
  | nil => rfl
  | cons x a ih => simp [mvList, ih]
theorem mvList_eq_map (d : Nat) (a : List Tree) : mvList d a = a.map (Tree.mv d) := by
  induction a with
  | nil => rfl
  | cons x a ih => simp [mvList, ih]
theorem mvList_reverse (d : Nat) (a : List Tree) : mvList d a.reverse = (mvList d a).reverse := by
  simp [mvList_eq_map]
theorem mvList_toks (d : Nat) (a : List Token) : mvList d (a.map .tok) = (a.map (Token.shift d)).map .tok := by
  induction a with
  | nil => rfl
  | cons x a ih => simp [mvList, Tree.mv, ih]
theorem mv_toks (d : Nat) (a : List Token) : (Tree.toks a).mv d = Tree.toks (a.map (Token.shift d)) := by
  simp [Tree.toks, Tree.mv, mvList_toks]
theorem mv_tag (d : Nat) (t : Tree) : (t.mv d).tag? = t.tag? := by cases t <;> rfl
theorem tag_of_mv {t u : Tree} (h : t.mv d = u) : t.tag? = u.tag? := by rw [← h, mv_tag]
theorem shift_kind {t u : Token} (h : Token.shift d t = u) : t.kind = u.kind := by subst h; cases t <;> rfl
theorem shift_isMatchName {t u : Token} (h : Token.shift d t = u) : t.isMatchName = u.isMatchName := by subst h; cases t <;> rfl

def VA.mv (d : Nat) (v : VA) : VA :=
  { nodes := mvList d v.nodes, seps := v.seps.map (Token.shift d), mulS := v.mulS.mv d, mulN := v.mulN.mv d, powS := v.powS.mv d,
    powN := v.powN.mv d, div := v.div.mv d }

/-- Calls that are alike. -/
inductive FnMv (d : Nat) : Fn → Fn → Prop
  | atom : FnMv d .atom .atom
  | atomStrLoop (s s' : Nat) (toks toks' : List Token) : s + d = s' → toks.map (Token.shift d) = toks' → FnMv d (.atomStrLoop s toks) (.atomStrLoop s' toks')
  | atomExpr : FnMv d .atomExpr .atomExpr
  | trailerLoop (s s' : Nat) (await await' : Tree) (right right' : Tree) (lst lst' : List Tree) : s + d = s' → Tree.mv d await = await' → Tree.mv d right = right' → mvList d lst = lst' → FnMv d (.trailerLoop s await right lst) (.trailerLoop s' await' right' lst')
  | power : FnMv d .power .power
  | factor : FnMv d .factor .factor
  | term : FnMv d .term .term
  | termLoop (s s' : Nat) (left left' : Tree) : s + d = s' → Tree.mv d left = left' → FnMv d (.termLoop s left) (.termLoop s' left')
  | arith : FnMv d .arith .arith
  | arithLoop (s s' : Nat) (left left' : Tree) : s + d = s' → Tree.mv d left = left' → FnMv d (.arithLoop s left) (.arithLoop s' left')
  | shift : FnMv d .shift .shift
  | shiftLoop (s s' : Nat) (left left' : Tree) : s + d = s' → Tree.mv d left = left' → FnMv d (.shiftLoop s left) (.shiftLoop s' left')
  | andExpr : FnMv d .andExpr .andExpr
  | andExprLoop (s s' : Nat) (left left' : Tree) : s + d = s' → Tree.mv d left = left' → FnMv d (.andExprLoop s left) (.andExprLoop s' left')
  | xorExpr : FnMv d .xorExpr .xorExpr
  | xorExprLoop (s s' : Nat) (left left' : Tree) : s + d = s' → Tree.mv d left = left' → FnMv d (.xorExprLoop s left) (.xorExprLoop s' left')
  | expr : FnMv d .expr .expr
  | exprLoop (s s' : Nat) (left left' : Tree) : s + d = s' → Tree.mv d left = left' → FnMv d (.exprLoop s left) (.exprLoop s' left')
  | starExpr : FnMv d .starExpr .starExpr
  | comparison : FnMv d .comparison .comparison
  | comparisonLoop (s s' : Nat) (left left' : Tree) : s + d = s' → Tree.mv d left = left' → FnMv d (.comparisonLoop s left) (.comparisonLoop s' left')
  | notTest : FnMv d .notTest .notTest
  | andTest : FnMv d .andTest .andTest
  | andTestLoop (s s' : Nat) (left left' : Tree) : s + d = s' → Tree.mv d left = left' → FnMv d (.andTestLoop s left) (.andTestLoop s' left')
  | orTest : FnMv d .orTest .orTest
  | orTestLoop (s s' : Nat) (left left' : Tree) : s + d = s' → Tree.mv d left = left' → FnMv d (.orTestLoop s left) (.orTestLoop s' left')
  | lambdaDef (cond : Bool) : FnMv d (.lambdaDef cond) (.lambdaDef cond)
  | noCondTest : FnMv d .noCondTest .noCondTest
  | test : FnMv d .test .test
  | namedExpression : FnMv d .namedExpression .namedExpression
  | testlistComp : FnMv d .testlistComp .testlistComp
  | testlistCompLoop (s s' : Nat) (nodes nodes' : List Tree) (seps seps' : List Token) : s + d = s' → mvList d nodes = nodes' → seps.map (Token.shift d) = seps' → FnMv d (.testlistCompLoop s nodes seps) (.testlistCompLoop s' nodes' seps')
  | trailer : FnMv d .trailer .trailer
  | subscriptList : FnMv d .subscriptList .subscriptList
  | subscriptListLoop (s s' : Nat) (nodes nodes' : List Tree) (seps seps' : List Token) : s + d = s' → mvList d nodes = nodes' → seps.map (Token.shift d) = seps' → FnMv d (.subscriptListLoop s nodes seps) (.subscriptListLoop s' nodes' seps')
  | subscript : FnMv d .subscript .subscript
  | exprlist : FnMv d .exprlist .exprlist
  | exprlistLoop (s s' : Nat) (nodes nodes' : List Tree) (seps seps' : List Token) : s + d = s' → mvList d nodes = nodes' → seps.map (Token.shift d) = seps' → FnMv d (.exprlistLoop s nodes seps) (.exprlistLoop s' nodes' seps')
  | testlist : FnMv d .testlist .testlist
  | testlistLoop (s s' : Nat) (nodes nodes' : List Tree) (seps seps' : List Token) : s + d = s' → mvList d nodes = nodes' → seps.map (Token.shift d) = seps' → FnMv d (.testlistLoop s nodes seps) (.testlistLoop s' nodes' seps')
  | dictorsetMaker : FnMv d .dictorsetMaker .dictorsetMaker
  | setLoop (s s' : Nat) (nodes nodes' : List Tree) (seps seps' : List Token) : s + d = s' → mvList d nodes = nodes' → seps.map (Token.shift d) = seps' → FnMv d (.setLoop s nodes seps) (.setLoop s' nodes' seps')
  | arglist : FnMv d .arglist .arglist
  | arglistLoop (s s' : Nat) (nodes nodes' : List Tree) (seps seps' : List Token) : s + d = s' → mvList d nodes = nodes' → seps.map (Token.shift d) = seps' → FnMv d (.arglistLoop s nodes seps) (.arglistLoop s' nodes' seps')
  | argument : FnMv d .argument .argument
  | compIter : FnMv d .compIter .compIter
  | syncCompFor : FnMv d .syncCompFor .syncCompFor
  | compFor : FnMv d .compFor .compFor
  | compIf : FnMv d .compIf .compIf
  | yieldExpr : FnMv d .yieldExpr .yieldExpr
  | testlistStarExpr : FnMv d .testlistStarExpr .testlistStarExpr
  | testlistStarExprLoop (s s' : Nat) (nodes nodes' : List Tree) (seps seps' : List Token) : s + d = s' → mvList d nodes = nodes' → seps.map (Token.shift d) = seps' → FnMv d (.testlistStarExprLoop s nodes seps) (.testlistStarExprLoop s' nodes' seps')
  | varArgsList : FnMv d .varArgsList .varArgsList
  | varArgsMainLoop (s s' : Nat) (v v' : VA) : s + d = s' → VA.mv d v = v' → FnMv d (.varArgsMainLoop s v) (.varArgsMainLoop s' v')
  | varArgsStarLoop (s s' : Nat) (v v' : VA) : s + d = s' → VA.mv d v = v' → FnMv d (.varArgsStarLoop s v) (.varArgsStarLoop s' v')
  | varArgsDivLoop (s s' : Nat) (v v' : VA) : s + d = s' → VA.mv d v = v' → FnMv d (.varArgsDivLoop s v) (.varArgsDivLoop s' v')
  | varArgsAssignments : FnMv d .varArgsAssignments .varArgsAssignments
  | vfpDef : FnMv d .vfpDef .vfpDef
  | stmt : FnMv d .stmt .stmt
  | simpleStmt : FnMv d .simpleStmt .simpleStmt
  | simpleStmtLoop (s s' : Nat) (nodes nodes' : List Tree) (seps seps' : List Token) : s + d = s' → mvList d nodes = nodes' → seps.map (Token.shift d) = seps' → FnMv d (.simpleStmtLoop s nodes seps) (.simpleStmtLoop s' nodes' seps')
  | smallStmt : FnMv d .smallStmt .smallStmt
  | exprStmt : FnMv d .exprStmt .exprStmt
  | assignLoop (s s' : Nat) (left left' : Tree) (nodes nodes' : List Tree) : s + d = s' → Tree.mv d left = left' → mvList d nodes = nodes' → FnMv d (.assignLoop s left nodes) (.assignLoop s' left' nodes')
  | annAssign (s s' : Nat) (left left' : Tree) : s + d = s' → Tree.mv d left = left' → FnMv d (.annAssign s left) (.annAssign s' left')
  | delStmt : FnMv d .delStmt .delStmt
  | passStmt : FnMv d .passStmt .passStmt
  | flowStmt : FnMv d .flowStmt .flowStmt
  | breakStmt : FnMv d .breakStmt .breakStmt
  | continueStmt : FnMv d .continueStmt .continueStmt
  | returnStmt : FnMv d .returnStmt .returnStmt
  | yieldStmt : FnMv d .yieldStmt .yieldStmt
  | raiseStmt : FnMv d .raiseStmt .raiseStmt
  | importStmt : FnMv d .importStmt .importStmt
  | importName : FnMv d .importName .importName
  | importFrom : FnMv d .importFrom .importFrom
  | importDotLoop (s s' : Nat) (sym1 sym1' : Token) (dots dots' : List Token) : s + d = s' → Token.shift d sym1 = sym1' → dots.map (Token.shift d) = dots' → FnMv d (.importDotLoop s sym1 dots) (.importDotLoop s' sym1' dots')
  | importAsName : FnMv d .importAsName .importAsName
  | dottedAsName : FnMv d .dottedAsName .dottedAsName
  | importAsNames : FnMv d .importAsNames .importAsNames
  | importAsNamesLoop (s s' : Nat) (nodes nodes' : List Tree) (seps seps' : List Token) : s + d = s' → mvList d nodes = nodes' → seps.map (Token.shift d) = seps' → FnMv d (.importAsNamesLoop s nodes seps) (.importAsNamesLoop s' nodes' seps')
  | dottedAsNames : FnMv d .dottedAsNames .dottedAsNames
  | dottedAsNamesLoop (s s' : Nat) (nodes nodes' : List Tree) (seps seps' : List Token) : s + d = s' → mvList d nodes = nodes' → seps.map (Token.shift d) = seps' → FnMv d (.dottedAsNamesLoop s nodes seps) (.dottedAsNamesLoop s' nodes' seps')
  | dottedName : FnMv d .dottedName .dottedName
  | dottedNameLoop (s s' : Nat) (nodes nodes' : List Token) (seps seps' : List Token) : s + d = s' → nodes.map (Token.shift d) = nodes' → seps.map (Token.shift d) = seps' → FnMv d (.dottedNameLoop s nodes seps) (.dottedNameLoop s' nodes' seps')
  | globalStmt : FnMv d .globalStmt .globalStmt
  | globalLoop (s s' : Nat) (sym sym' : Token) (nodes nodes' : List Token) (seps seps' : List Token) : s + d = s' → Token.shift d sym = sym' → nodes.map (Token.shift d) = nodes' → seps.map (Token.shift d) = seps' → FnMv d (.globalLoop s sym nodes seps) (.globalLoop s' sym' nodes' seps')
  | nonlocalStmt : FnMv d .nonlocalStmt .nonlocalStmt
  | nonlocalLoop (s s' : Nat) (sym sym' : Token) (nodes nodes' : List Token) (seps seps' : List Token) : s + d = s' → Token.shift d sym = sym' → nodes.map (Token.shift d) = nodes' → seps.map (Token.shift d) = seps' → FnMv d (.nonlocalLoop s sym nodes seps) (.nonlocalLoop s' sym' nodes' seps')
  | assertStmt : FnMv d .assertStmt .assertStmt
  | compoundStmt : FnMv d .compoundStmt .compoundStmt
  | asyncStmt : FnMv d .asyncStmt .asyncStmt
  | ifStmt : FnMv d .ifStmt .ifStmt
  | ifLoop (s s' : Nat) (sym1 sym1' : Token) (left left' : Tree) (sym2 sym2' : Token) (right right' : Tree) (nodes nodes' : List Tree) : s + d = s' → Token.shift d sym1 = sym1' → Tree.mv d left = left' → Token.shift d sym2 = sym2' → Tree.mv d right = right' → mvList d nodes = nodes' → FnMv d (.ifLoop s sym1 left sym2 right nodes) (.ifLoop s' sym1' left' sym2' right' nodes')
  | elifStmt : FnMv d .elifStmt .elifStmt
  | elseStmt : FnMv d .elseStmt .elseStmt
  | whileStmt : FnMv d .whileStmt .whileStmt
  | forStmt : FnMv d .forStmt .forStmt
  | tryStmt : FnMv d .tryStmt .tryStmt
  | tryLoop (s s' : Nat) (sym1 sym1' : Token) (sym2 sym2' : Token) (left left' : Tree) (nodes nodes' : List Tree) : s + d = s' → Token.shift d sym1 = sym1' → Token.shift d sym2 = sym2' → Tree.mv d left = left' → mvList d nodes = nodes' → FnMv d (.tryLoop s sym1 sym2 left nodes) (.tryLoop s' sym1' sym2' left' nodes')
  | finallyStmt : FnMv d .finallyStmt .finallyStmt
  | withStmt : FnMv d .withStmt .withStmt
  | withParenLoop (s s' : Nat) (sym1 sym1' : Token) (lpar lpar' : Token) (nodes nodes' : List Tree) (seps seps' : List Token) : s + d = s' → Token.shift d sym1 = sym1' → Token.shift d lpar = lpar' → mvList d nodes = nodes' → seps.map (Token.shift d) = seps' → FnMv d (.withParenLoop s sym1 lpar nodes seps) (.withParenLoop s' sym1' lpar' nodes' seps')
  | withLoop (s s' : Nat) (sym1 sym1' : Token) (nodes nodes' : List Tree) (seps seps' : List Token) : s + d = s' → Token.shift d sym1 = sym1' → mvList d nodes = nodes' → seps.map (Token.shift d) = seps' → FnMv d (.withLoop s sym1 nodes seps) (.withLoop s' sym1' nodes' seps')
  | withItem : FnMv d .withItem .withItem
  | exceptStmt : FnMv d .exceptStmt .exceptStmt
  | exceptClause : FnMv d .exceptClause .exceptClause
  | suite : FnMv d .suite .suite
  | suiteLoop (s s' : Nat) (sym1 sym1' : Token) (sym2 sym2' : Token) (nodes nodes' : List Tree) : s + d = s' → Token.shift d sym1 = sym1' → Token.shift d sym2 = sym2' → mvList d nodes = nodes' → FnMv d (.suiteLoop s sym1 sym2 nodes) (.suiteLoop s' sym1' sym2' nodes')
  | evalInput : FnMv d .evalInput .evalInput
  | evalLoop (s s' : Nat) (right right' : Tree) (seps seps' : List Token) : s + d = s' → Tree.mv d right = right' → seps.map (Token.shift d) = seps' → FnMv d (.evalLoop s right seps) (.evalLoop s' right' seps')
  | fileInput : FnMv d .fileInput .fileInput
  | fileLoop (s s' : Nat) (nodes nodes' : List Tree) (seps seps' : List Token) : s + d = s' → mvList d nodes = nodes' → seps.map (Token.shift d) = seps' → FnMv d (.fileLoop s nodes seps) (.fileLoop s' nodes' seps')
  | singleInput : FnMv d .singleInput .singleInput
  | funcTypeInput : FnMv d .funcTypeInput .funcTypeInput
  | funcTypeLoop (s s' : Nat) (right right' : Tree) (seps seps' : List Token) : s + d = s' → Tree.mv d right = right' → seps.map (Token.shift d) = seps' → FnMv d (.funcTypeLoop s right seps) (.funcTypeLoop s' right' seps')
  | decorator : FnMv d .decorator .decorator
  | decorators : FnMv d .decorators .decorators
  | decoratorsLoop (s s' : Nat) (nodes nodes' : List Tree) : s + d = s' → mvList d nodes = nodes' → FnMv d (.decoratorsLoop s nodes) (.decoratorsLoop s' nodes')
  | decorated : FnMv d .decorated .decorated
  | asyncFuncDef : FnMv d .asyncFuncDef .asyncFuncDef
  | funcDef : FnMv d .funcDef .funcDef
  | parameters : FnMv d .parameters .parameters
  | typedArgsList : FnMv d .typedArgsList .typedArgsList
  | tfpDefAssign : FnMv d .tfpDefAssign .tfpDefAssign
  | tfpDef : FnMv d .tfpDef .tfpDef
  | funcBodySuite : FnMv d .funcBodySuite .funcBodySuite
  | funcBodyLoop (s s' : Nat) (sym1 sym1' : Token) (tc tc' : Tree) (tcnl tcnl' : Tree) (sym2 sym2' : Token) (nodes nodes' : List Tree) : s + d = s' → Token.shift d sym1 = sym1' → Tree.mv d tc = tc' → Tree.mv d tcnl = tcnl' → Token.shift d sym2 = sym2' → mvList d nodes = nodes' → FnMv d (.funcBodyLoop s sym1 tc tcnl sym2 nodes) (.funcBodyLoop s' sym1' tc' tcnl' sym2' nodes')
  | classDef : FnMv d .classDef .classDef
  | funcType : FnMv d .funcType .funcType
  | typeList : FnMv d .typeList .typeList
  | typeListMainLoop (s s' : Nat) (v v' : VA) : s + d = s' → VA.mv d v = v' → FnMv d (.typeListMainLoop s v) (.typeListMainLoop s' v')
  | typeListStarLoop (s s' : Nat) (v v' : VA) : s + d = s' → VA.mv d v = v' → FnMv d (.typeListStarLoop s v) (.typeListStarLoop s' v')
  | patternsMatch : FnMv d .patternsMatch .patternsMatch

/-! ### The logic -/

/-- Values that are alike. -/
class LkMv (d : Nat) (α : Type) where
  rel : α → α → Prop

instance : LkMv d Tree := ⟨fun a b => Tree.mv d a = b⟩
instance : LkMv d Nat := ⟨fun a b => a + d = b⟩
instance : LkMv d Unit := ⟨fun _ _ => True⟩
instance : LkMv d Token := ⟨fun a b => Token.shift d a = b⟩
instance {α} [LkMv d α] : LkMv d (Option α) := ⟨fun a b => match a, b with
  | some a, some b => LkMv.rel d a b
  | none, none => True
  | _, _ => False⟩

/-- Two bodies that do the same on symbols that are alike. -/
def RelMv (d : Nat) {α : Type} [LkMv d α] : Prog α → Prog α → Prop
  | .ret a, .ret b => LkMv.rel d a b
  | .fail p m, .fail q m' => p + d = q ∧ m = m'
  | .panic, .panic => True
  | .getPos k, .getPos l => ∀ p q, p + d = q → RelMv d (k p) (l q)
  | .sym k x, .sym l y => (∀ t u, Token.shift d t = u → RelMv d (k t) (l u)) ∧ RelMv d x y
  | .adv k, .adv l => RelMv d k l
  | .call f k, .call g l => FnMv d f g ∧ ∀ t u, Tree.mv d t = u → RelMv d (k t) (l u)
  | .getExc k, .getExc l => ∀ x, RelMv d (k x) (l x)
  | .setExc x k, .setExc y l => x = y ∧ RelMv d k l
  | _, _ => False

section
variable {α β : Type} [LkMv d α] [LkMv d β]

theorem rmv_bind {p q : Prog α} {f g : α → Prog β} (h : RelMv d p q) (hf : ∀ a b, LkMv.rel d a b → RelMv d (f a) (g b)) :
    RelMv d (p >>= f) (q >>= g) := by
  show RelMv d (p.bind f) (q.bind g)
  induction p generalizing q with
  | ret a => cases q <;> first | exact hf _ _ h | exact h.elim
  | fail => cases q <;> first | exact h | exact h.elim
  | panic => cases q <;> first | exact h | exact h.elim
  | getPos k ih => cases q <;> first | exact fun p q hp => ih _ (h p q hp) | exact h.elim
  | getExc k ih => cases q <;> first | exact fun p => ih _ (h p) | exact h.elim
  | sym k x ih1 ih2 => cases q <;> first | exact ⟨fun t u htu => ih1 _ (h.1 t u htu), ih2 h.2⟩ | exact h.elim
  | adv k ih => cases q <;> first | exact ih h | exact h.elim
  | call f k ih => cases q <;> first | exact ⟨h.1, fun t u htu => ih _ (h.2 t u htu)⟩ | exact h.elim
  | setExc x k ih => cases q <;> first | exact ⟨h.1, ih h.2⟩ | exact h.elim

theorem rmv_ite {b b' : Prop} [Decidable b] [Decidable b'] {p q p' q' : Prog α} (hb : b ↔ b') (h1 : RelMv d p p')
    (h2 : RelMv d q q') : RelMv d (if b then p else q) (if b' then p' else q') := by
  by_cases h : b
  · rw [if_pos h, if_pos (hb.mp h)]; exact h1
  · rw [if_neg h, if_neg (fun x => h (hb.mpr x))]; exact h2
theorem rmv_pure {a b : α} (h : LkMv.rel d a b) : RelMv d (pure a : Prog α) (pure b) := h
theorem rmv_ret {a b : α} (h : LkMv.rel d a b) : RelMv d (Prog.ret a : Prog α) (.ret b) := h
theorem rmv_fail {p q : Nat} {m : String} (hp : p + d = q) : RelMv d (Prog.fail p m : Prog α) (.fail q m) := ⟨hp, rfl⟩
theorem rmv_panic : RelMv d (Prog.panic : Prog α) .panic := trivial
theorem rmv_failHere {m : String} : RelMv d (Prog.failHere m : Prog α) (.failHere m) := fun _ _ hp => ⟨hp, rfl⟩
theorem rmv_getExc {k l : ExcStatus → Prog α} (h : ∀ x, RelMv d (k x) (l x)) : RelMv d (.getExc k) (.getExc l) := h
theorem rmv_setExc {x} {k l : Prog α} (h : RelMv d k l) : RelMv d (.setExc x k) (.setExc x l) := ⟨rfl, h⟩
theorem rmv_here_bind {f g : Nat → Prog β} (h : ∀ p q, p + d = q → RelMv d (f p) (g q)) : RelMv d (Prog.here >>= f) (Prog.here >>= g) := h
theorem rmv_next_bind {f g : Unit → Prog β} (h : RelMv d (f ()) (g ())) : RelMv d (Prog.next >>= f) (Prog.next >>= g) := h
theorem rmv_symAt_bind {p q m} {f g : Token → Prog β} (hp : p + d = q) (h : ∀ t u, Token.shift d t = u → RelMv d (f t) (g u)) :
    RelMv d (Prog.symAt p m >>= f) (Prog.symAt q m >>= g) := ⟨h, hp, rfl⟩
theorem rmv_symHere_bind {m} {f g : Token → Prog β} (h : ∀ t u, Token.shift d t = u → RelMv d (f t) (g u)) :
    RelMv d (Prog.symHere m >>= f) (Prog.symHere m >>= g) := ⟨h, fun _ _ hp => ⟨hp, rfl⟩⟩
theorem rmv_sym?_bind {f g : Option Token → Prog β} (h : ∀ t u, Token.shift d t = u → RelMv d (f (some t)) (g (some u)))
    (hn : RelMv d (f none) (g none)) : RelMv d (Prog.sym? >>= f) (Prog.sym? >>= g) := ⟨h, hn⟩
theorem rmv_parse_bind {x y : Fn} {f g : Tree → Prog β} (hx : FnMv d x y)
    (h : ∀ t u : Tree, Tree.mv d t = u → RelMv d (f t) (g u)) : RelMv d (Prog.parse x >>= f) (Prog.parse y >>= g) := ⟨hx, h⟩
theorem rmv_mk_bind {tag s s' l l'} {f g : Tree → Prog β} (hs : s + d = s') (hl : mvList d l = l')
    (h : ∀ t u : Tree, Tree.mv d t = u → RelMv d (f t) (g u)) : RelMv d (Prog.mk tag s l >>= f) (Prog.mk tag s' l' >>= g) :=
  fun p q hp => h _ _ (by simp [Tree.mv, hl, hs, hp])
end

theorem rmv_parse {x y : Fn} (hx : FnMv d x y) : RelMv d (Prog.parse x) (Prog.parse y) := ⟨hx, fun _ _ h => h⟩
theorem rmv_mk {tag s s' l l'} (hs : s + d = s') (hl : mvList d l = l') : RelMv d (Prog.mk tag s l) (Prog.mk tag s' l') :=
  fun p q hp => by show Tree.mv d _ = _; simp [Tree.mv, hl, hs, hp]


end Verif
