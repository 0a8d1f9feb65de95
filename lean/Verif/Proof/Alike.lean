import Verif.Spec.Erase
import Verif.Proof.View
import Verif.Proof.ExactRun

/-!
# Two runs of a parse function on symbols that are alike
-/

namespace Verif
variable {e : Token → Token}

theorem eraseList_append (e : Token → Token) (a b : List Tree) : eraseList e (a ++ b) = eraseList e a ++ eraseList e b := by
  induction a with
  | nil => rfl
  | cons x a ih => simp [eraseList, ih]
theorem eraseList_eq_map (e : Token → Token) (a : List Tree) : eraseList e a = a.map (Tree.erase e) := by
  induction a with
  | nil => rfl
  | cons x a ih => simp [eraseList, ih]
theorem eraseList_toks (e : Token → Token) (a : List Token) : eraseList e (a.map .tok) = (a.map e).map .tok := by
  induction a with
  | nil => rfl
  | cons x a ih => simp [eraseList, Tree.erase, ih]
theorem eraseList_reverse (e : Token → Token) (a : List Tree) : eraseList e a.reverse = (eraseList e a).reverse := by
  simp [eraseList_eq_map]
theorem erase_toks (e : Token → Token) (a : List Token) : (Tree.toks a).erase e = Tree.toks (a.map e) := by
  simp [Tree.toks, Tree.erase, eraseList_toks]
theorem erase_tag (e : Token → Token) (t : Tree) : (t.erase e).tag? = t.tag? := by cases t <;> rfl
theorem tag_of_erase {t u : Tree} (h : t.erase e = u.erase e) : t.tag? = u.tag? := by
  rw [← erase_tag e t, ← erase_tag e u, h]

def VA.erase (e : Token → Token) (v : VA) : VA :=
  { nodes := eraseList e v.nodes, seps := v.seps.map e, mulS := v.mulS.erase e, mulN := v.mulN.erase e, powS := v.powS.erase e,
    powN := v.powN.erase e, div := v.div.erase e }

/-- Calls that are alike. -/
inductive Fn.Like (e : Token → Token) : Fn → Fn → Prop
  | atom : Fn.Like e .atom .atom
  | atomStrLoop (s s' : Nat) (toks toks' : List Token) : toks.map e = toks'.map e → Fn.Like e (.atomStrLoop s toks) (.atomStrLoop s' toks')
  | atomExpr : Fn.Like e .atomExpr .atomExpr
  | trailerLoop (s s' : Nat) (await await' : Tree) (right right' : Tree) (lst lst' : List Tree) : Tree.erase e await = Tree.erase e await' → Tree.erase e right = Tree.erase e right' → eraseList e lst = eraseList e lst' → Fn.Like e (.trailerLoop s await right lst) (.trailerLoop s' await' right' lst')
  | power : Fn.Like e .power .power
  | factor : Fn.Like e .factor .factor
  | term : Fn.Like e .term .term
  | termLoop (s s' : Nat) (left left' : Tree) : Tree.erase e left = Tree.erase e left' → Fn.Like e (.termLoop s left) (.termLoop s' left')
  | arith : Fn.Like e .arith .arith
  | arithLoop (s s' : Nat) (left left' : Tree) : Tree.erase e left = Tree.erase e left' → Fn.Like e (.arithLoop s left) (.arithLoop s' left')
  | shift : Fn.Like e .shift .shift
  | shiftLoop (s s' : Nat) (left left' : Tree) : Tree.erase e left = Tree.erase e left' → Fn.Like e (.shiftLoop s left) (.shiftLoop s' left')
  | andExpr : Fn.Like e .andExpr .andExpr
  | andExprLoop (s s' : Nat) (left left' : Tree) : Tree.erase e left = Tree.erase e left' → Fn.Like e (.andExprLoop s left) (.andExprLoop s' left')
  | xorExpr : Fn.Like e .xorExpr .xorExpr
  | xorExprLoop (s s' : Nat) (left left' : Tree) : Tree.erase e left = Tree.erase e left' → Fn.Like e (.xorExprLoop s left) (.xorExprLoop s' left')
  | expr : Fn.Like e .expr .expr
  | exprLoop (s s' : Nat) (left left' : Tree) : Tree.erase e left = Tree.erase e left' → Fn.Like e (.exprLoop s left) (.exprLoop s' left')
  | starExpr : Fn.Like e .starExpr .starExpr
  | comparison : Fn.Like e .comparison .comparison
  | comparisonLoop (s s' : Nat) (left left' : Tree) : Tree.erase e left = Tree.erase e left' → Fn.Like e (.comparisonLoop s left) (.comparisonLoop s' left')
  | notTest : Fn.Like e .notTest .notTest
  | andTest : Fn.Like e .andTest .andTest
  | andTestLoop (s s' : Nat) (left left' : Tree) : Tree.erase e left = Tree.erase e left' → Fn.Like e (.andTestLoop s left) (.andTestLoop s' left')
  | orTest : Fn.Like e .orTest .orTest
  | orTestLoop (s s' : Nat) (left left' : Tree) : Tree.erase e left = Tree.erase e left' → Fn.Like e (.orTestLoop s left) (.orTestLoop s' left')
  | lambdaDef (cond : Bool) : Fn.Like e (.lambdaDef cond) (.lambdaDef cond)
  | noCondTest : Fn.Like e .noCondTest .noCondTest
  | test : Fn.Like e .test .test
  | namedExpression : Fn.Like e .namedExpression .namedExpression
  | testlistComp : Fn.Like e .testlistComp .testlistComp
  | testlistCompLoop (s s' : Nat) (nodes nodes' : List Tree) (seps seps' : List Token) : eraseList e nodes = eraseList e nodes' → seps.map e = seps'.map e → Fn.Like e (.testlistCompLoop s nodes seps) (.testlistCompLoop s' nodes' seps')
  | trailer : Fn.Like e .trailer .trailer
  | subscriptList : Fn.Like e .subscriptList .subscriptList
  | subscriptListLoop (s s' : Nat) (nodes nodes' : List Tree) (seps seps' : List Token) : eraseList e nodes = eraseList e nodes' → seps.map e = seps'.map e → Fn.Like e (.subscriptListLoop s nodes seps) (.subscriptListLoop s' nodes' seps')
  | subscript : Fn.Like e .subscript .subscript
  | exprlist : Fn.Like e .exprlist .exprlist
  | exprlistLoop (s s' : Nat) (nodes nodes' : List Tree) (seps seps' : List Token) : eraseList e nodes = eraseList e nodes' → seps.map e = seps'.map e → Fn.Like e (.exprlistLoop s nodes seps) (.exprlistLoop s' nodes' seps')
  | testlist : Fn.Like e .testlist .testlist
  | testlistLoop (s s' : Nat) (nodes nodes' : List Tree) (seps seps' : List Token) : eraseList e nodes = eraseList e nodes' → seps.map e = seps'.map e → Fn.Like e (.testlistLoop s nodes seps) (.testlistLoop s' nodes' seps')
  | dictorsetMaker : Fn.Like e .dictorsetMaker .dictorsetMaker
  | setLoop (s s' : Nat) (nodes nodes' : List Tree) (seps seps' : List Token) : eraseList e nodes = eraseList e nodes' → seps.map e = seps'.map e → Fn.Like e (.setLoop s nodes seps) (.setLoop s' nodes' seps')
  | arglist : Fn.Like e .arglist .arglist
  | arglistLoop (s s' : Nat) (nodes nodes' : List Tree) (seps seps' : List Token) : eraseList e nodes = eraseList e nodes' → seps.map e = seps'.map e → Fn.Like e (.arglistLoop s nodes seps) (.arglistLoop s' nodes' seps')
  | argument : Fn.Like e .argument .argument
  | compIter : Fn.Like e .compIter .compIter
  | syncCompFor : Fn.Like e .syncCompFor .syncCompFor
  | compFor : Fn.Like e .compFor .compFor
  | compIf : Fn.Like e .compIf .compIf
  | yieldExpr : Fn.Like e .yieldExpr .yieldExpr
  | testlistStarExpr : Fn.Like e .testlistStarExpr .testlistStarExpr
  | testlistStarExprLoop (s s' : Nat) (nodes nodes' : List Tree) (seps seps' : List Token) : eraseList e nodes = eraseList e nodes' → seps.map e = seps'.map e → Fn.Like e (.testlistStarExprLoop s nodes seps) (.testlistStarExprLoop s' nodes' seps')
  | varArgsList : Fn.Like e .varArgsList .varArgsList
  | varArgsMainLoop (s s' : Nat) (v v' : VA) : v.erase e = v'.erase e → Fn.Like e (.varArgsMainLoop s v) (.varArgsMainLoop s' v')
  | varArgsStarLoop (s s' : Nat) (v v' : VA) : v.erase e = v'.erase e → Fn.Like e (.varArgsStarLoop s v) (.varArgsStarLoop s' v')
  | varArgsDivLoop (s s' : Nat) (v v' : VA) : v.erase e = v'.erase e → Fn.Like e (.varArgsDivLoop s v) (.varArgsDivLoop s' v')
  | varArgsAssignments : Fn.Like e .varArgsAssignments .varArgsAssignments
  | vfpDef : Fn.Like e .vfpDef .vfpDef
  | stmt : Fn.Like e .stmt .stmt
  | simpleStmt : Fn.Like e .simpleStmt .simpleStmt
  | simpleStmtLoop (s s' : Nat) (nodes nodes' : List Tree) (seps seps' : List Token) : eraseList e nodes = eraseList e nodes' → seps.map e = seps'.map e → Fn.Like e (.simpleStmtLoop s nodes seps) (.simpleStmtLoop s' nodes' seps')
  | smallStmt : Fn.Like e .smallStmt .smallStmt
  | exprStmt : Fn.Like e .exprStmt .exprStmt
  | assignLoop (s s' : Nat) (left left' : Tree) (nodes nodes' : List Tree) : Tree.erase e left = Tree.erase e left' → eraseList e nodes = eraseList e nodes' → Fn.Like e (.assignLoop s left nodes) (.assignLoop s' left' nodes')
  | annAssign (s s' : Nat) (left left' : Tree) : Tree.erase e left = Tree.erase e left' → Fn.Like e (.annAssign s left) (.annAssign s' left')
  | delStmt : Fn.Like e .delStmt .delStmt
  | passStmt : Fn.Like e .passStmt .passStmt
  | flowStmt : Fn.Like e .flowStmt .flowStmt
  | breakStmt : Fn.Like e .breakStmt .breakStmt
  | continueStmt : Fn.Like e .continueStmt .continueStmt
  | returnStmt : Fn.Like e .returnStmt .returnStmt
  | yieldStmt : Fn.Like e .yieldStmt .yieldStmt
  | raiseStmt : Fn.Like e .raiseStmt .raiseStmt
  | importStmt : Fn.Like e .importStmt .importStmt
  | importName : Fn.Like e .importName .importName
  | importFrom : Fn.Like e .importFrom .importFrom
  | importDotLoop (s s' : Nat) (sym1 sym1' : Token) (dots dots' : List Token) : e sym1 = e sym1' → dots.map e = dots'.map e → Fn.Like e (.importDotLoop s sym1 dots) (.importDotLoop s' sym1' dots')
  | importAsName : Fn.Like e .importAsName .importAsName
  | dottedAsName : Fn.Like e .dottedAsName .dottedAsName
  | importAsNames : Fn.Like e .importAsNames .importAsNames
  | importAsNamesLoop (s s' : Nat) (nodes nodes' : List Tree) (seps seps' : List Token) : eraseList e nodes = eraseList e nodes' → seps.map e = seps'.map e → Fn.Like e (.importAsNamesLoop s nodes seps) (.importAsNamesLoop s' nodes' seps')
  | dottedAsNames : Fn.Like e .dottedAsNames .dottedAsNames
  | dottedAsNamesLoop (s s' : Nat) (nodes nodes' : List Tree) (seps seps' : List Token) : eraseList e nodes = eraseList e nodes' → seps.map e = seps'.map e → Fn.Like e (.dottedAsNamesLoop s nodes seps) (.dottedAsNamesLoop s' nodes' seps')
  | dottedName : Fn.Like e .dottedName .dottedName
  | dottedNameLoop (s s' : Nat) (nodes nodes' : List Token) (seps seps' : List Token) : nodes.map e = nodes'.map e → seps.map e = seps'.map e → Fn.Like e (.dottedNameLoop s nodes seps) (.dottedNameLoop s' nodes' seps')
  | globalStmt : Fn.Like e .globalStmt .globalStmt
  | globalLoop (s s' : Nat) (sym sym' : Token) (nodes nodes' : List Token) (seps seps' : List Token) : e sym = e sym' → nodes.map e = nodes'.map e → seps.map e = seps'.map e → Fn.Like e (.globalLoop s sym nodes seps) (.globalLoop s' sym' nodes' seps')
  | nonlocalStmt : Fn.Like e .nonlocalStmt .nonlocalStmt
  | nonlocalLoop (s s' : Nat) (sym sym' : Token) (nodes nodes' : List Token) (seps seps' : List Token) : e sym = e sym' → nodes.map e = nodes'.map e → seps.map e = seps'.map e → Fn.Like e (.nonlocalLoop s sym nodes seps) (.nonlocalLoop s' sym' nodes' seps')
  | assertStmt : Fn.Like e .assertStmt .assertStmt
  | compoundStmt : Fn.Like e .compoundStmt .compoundStmt
  | asyncStmt : Fn.Like e .asyncStmt .asyncStmt
  | ifStmt : Fn.Like e .ifStmt .ifStmt
  | ifLoop (s s' : Nat) (sym1 sym1' : Token) (left left' : Tree) (sym2 sym2' : Token) (right right' : Tree) (nodes nodes' : List Tree) : e sym1 = e sym1' → Tree.erase e left = Tree.erase e left' → e sym2 = e sym2' → Tree.erase e right = Tree.erase e right' → eraseList e nodes = eraseList e nodes' → Fn.Like e (.ifLoop s sym1 left sym2 right nodes) (.ifLoop s' sym1' left' sym2' right' nodes')
  | elifStmt : Fn.Like e .elifStmt .elifStmt
  | elseStmt : Fn.Like e .elseStmt .elseStmt
  | whileStmt : Fn.Like e .whileStmt .whileStmt
  | forStmt : Fn.Like e .forStmt .forStmt
  | tryStmt : Fn.Like e .tryStmt .tryStmt
  | tryLoop (s s' : Nat) (sym1 sym1' : Token) (sym2 sym2' : Token) (left left' : Tree) (nodes nodes' : List Tree) : e sym1 = e sym1' → e sym2 = e sym2' → Tree.erase e left = Tree.erase e left' → eraseList e nodes = eraseList e nodes' → Fn.Like e (.tryLoop s sym1 sym2 left nodes) (.tryLoop s' sym1' sym2' left' nodes')
  | finallyStmt : Fn.Like e .finallyStmt .finallyStmt
  | withStmt : Fn.Like e .withStmt .withStmt
  | withParenLoop (s s' : Nat) (sym1 sym1' : Token) (lpar lpar' : Token) (nodes nodes' : List Tree) (seps seps' : List Token) : e sym1 = e sym1' → e lpar = e lpar' → eraseList e nodes = eraseList e nodes' → seps.map e = seps'.map e → Fn.Like e (.withParenLoop s sym1 lpar nodes seps) (.withParenLoop s' sym1' lpar' nodes' seps')
  | withLoop (s s' : Nat) (sym1 sym1' : Token) (nodes nodes' : List Tree) (seps seps' : List Token) : e sym1 = e sym1' → eraseList e nodes = eraseList e nodes' → seps.map e = seps'.map e → Fn.Like e (.withLoop s sym1 nodes seps) (.withLoop s' sym1' nodes' seps')
  | withItem : Fn.Like e .withItem .withItem
  | exceptStmt : Fn.Like e .exceptStmt .exceptStmt
  | exceptClause : Fn.Like e .exceptClause .exceptClause
  | suite : Fn.Like e .suite .suite
  | suiteLoop (s s' : Nat) (sym1 sym1' : Token) (sym2 sym2' : Token) (nodes nodes' : List Tree) : e sym1 = e sym1' → e sym2 = e sym2' → eraseList e nodes = eraseList e nodes' → Fn.Like e (.suiteLoop s sym1 sym2 nodes) (.suiteLoop s' sym1' sym2' nodes')
  | evalInput : Fn.Like e .evalInput .evalInput
  | evalLoop (s s' : Nat) (right right' : Tree) (seps seps' : List Token) : Tree.erase e right = Tree.erase e right' → seps.map e = seps'.map e → Fn.Like e (.evalLoop s right seps) (.evalLoop s' right' seps')
  | fileInput : Fn.Like e .fileInput .fileInput
  | fileLoop (s s' : Nat) (nodes nodes' : List Tree) (seps seps' : List Token) : eraseList e nodes = eraseList e nodes' → seps.map e = seps'.map e → Fn.Like e (.fileLoop s nodes seps) (.fileLoop s' nodes' seps')
  | singleInput : Fn.Like e .singleInput .singleInput
  | funcTypeInput : Fn.Like e .funcTypeInput .funcTypeInput
  | funcTypeLoop (s s' : Nat) (right right' : Tree) (seps seps' : List Token) : Tree.erase e right = Tree.erase e right' → seps.map e = seps'.map e → Fn.Like e (.funcTypeLoop s right seps) (.funcTypeLoop s' right' seps')
  | decorator : Fn.Like e .decorator .decorator
  | decorators : Fn.Like e .decorators .decorators
  | decoratorsLoop (s s' : Nat) (nodes nodes' : List Tree) : eraseList e nodes = eraseList e nodes' → Fn.Like e (.decoratorsLoop s nodes) (.decoratorsLoop s' nodes')
  | decorated : Fn.Like e .decorated .decorated
  | asyncFuncDef : Fn.Like e .asyncFuncDef .asyncFuncDef
  | funcDef : Fn.Like e .funcDef .funcDef
  | parameters : Fn.Like e .parameters .parameters
  | typedArgsList : Fn.Like e .typedArgsList .typedArgsList
  | tfpDefAssign : Fn.Like e .tfpDefAssign .tfpDefAssign
  | tfpDef : Fn.Like e .tfpDef .tfpDef
  | funcBodySuite : Fn.Like e .funcBodySuite .funcBodySuite
  | funcBodyLoop (s s' : Nat) (sym1 sym1' : Token) (tc tc' : Tree) (tcnl tcnl' : Tree) (sym2 sym2' : Token) (nodes nodes' : List Tree) : e sym1 = e sym1' → Tree.erase e tc = Tree.erase e tc' → Tree.erase e tcnl = Tree.erase e tcnl' → e sym2 = e sym2' → eraseList e nodes = eraseList e nodes' → Fn.Like e (.funcBodyLoop s sym1 tc tcnl sym2 nodes) (.funcBodyLoop s' sym1' tc' tcnl' sym2' nodes')
  | classDef : Fn.Like e .classDef .classDef
  | funcType : Fn.Like e .funcType .funcType
  | typeList : Fn.Like e .typeList .typeList
  | typeListMainLoop (s s' : Nat) (v v' : VA) : v.erase e = v'.erase e → Fn.Like e (.typeListMainLoop s v) (.typeListMainLoop s' v')
  | typeListStarLoop (s s' : Nat) (v v' : VA) : v.erase e = v'.erase e → Fn.Like e (.typeListStarLoop s v) (.typeListStarLoop s' v')
  | patternsMatch : Fn.Like e .patternsMatch .patternsMatch

/-! ### The logic -/

/-- Values that are alike. -/
class Lk (e : Token → Token) (α : Type) where
  rel : α → α → Prop

instance : Lk e Tree := ⟨fun a b => a.erase e = b.erase e⟩
instance : Lk e Nat := ⟨fun _ _ => True⟩
instance : Lk e Unit := ⟨fun _ _ => True⟩
instance : Lk e Token := ⟨fun a b => e a = e b⟩
instance {α} [Lk e α] : Lk e (Option α) := ⟨fun a b => match a, b with
  | some a, some b => Lk.rel e a b
  | none, none => True
  | _, _ => False⟩

/-- Two bodies that do the same on symbols that are alike. -/
def RelP (e : Token → Token) {α : Type} [Lk e α] : Prog α → Prog α → Prop
  | .ret a, .ret b => Lk.rel e a b
  | .fail _ m, .fail _ m' => m = m'
  | .panic, .panic => True
  | .getPos k, .getPos l => ∀ p q, RelP e (k p) (l q)
  | .sym k x, .sym l y => (∀ t u, e t = e u → RelP e (k t) (l u)) ∧ RelP e x y
  | .adv k, .adv l => RelP e k l
  | .call f k, .call g l => Fn.Like e f g ∧ ∀ t u, t.erase e = u.erase e → RelP e (k t) (l u)
  | .getExc k, .getExc l => ∀ x, RelP e (k x) (l x)
  | .setExc x k, .setExc y l => x = y ∧ RelP e k l
  | _, _ => False

section
variable {α β : Type} [Lk e α] [Lk e β]

theorem rel_bind {p q : Prog α} {f g : α → Prog β} (h : RelP e p q) (hf : ∀ a b, Lk.rel e a b → RelP e (f a) (g b)) :
    RelP e (p >>= f) (q >>= g) := by
  show RelP e (p.bind f) (q.bind g)
  induction p generalizing q with
  | ret a => cases q <;> first | exact hf _ _ h | exact h.elim
  | fail => cases q <;> first | exact h | exact h.elim
  | panic => cases q <;> first | exact h | exact h.elim
  | getPos k ih => cases q <;> first | exact fun p q => ih _ (h p q) | exact h.elim
  | getExc k ih => cases q <;> first | exact fun p => ih _ (h p) | exact h.elim
  | sym k x ih1 ih2 => cases q <;> first | exact ⟨fun t u htu => ih1 _ (h.1 t u htu), ih2 h.2⟩ | exact h.elim
  | adv k ih => cases q <;> first | exact ih h | exact h.elim
  | call f k ih => cases q <;> first | exact ⟨h.1, fun t u htu => ih _ (h.2 t u htu)⟩ | exact h.elim
  | setExc x k ih => cases q <;> first | exact ⟨h.1, ih h.2⟩ | exact h.elim

theorem rel_ite {b b' : Prop} [Decidable b] [Decidable b'] {p q p' q' : Prog α} (hb : b ↔ b') (h1 : RelP e p p')
    (h2 : RelP e q q') : RelP e (if b then p else q) (if b' then p' else q') := by
  by_cases h : b
  · rw [if_pos h, if_pos (hb.mp h)]; exact h1
  · rw [if_neg h, if_neg (fun x => h (hb.mpr x))]; exact h2
theorem rel_pure {a b : α} (h : Lk.rel e a b) : RelP e (pure a : Prog α) (pure b) := h
theorem rel_ret {a b : α} (h : Lk.rel e a b) : RelP e (Prog.ret a : Prog α) (.ret b) := h
theorem rel_fail {p q : Nat} {m : String} : RelP e (Prog.fail p m : Prog α) (.fail q m) := rfl
theorem rel_panic : RelP e (Prog.panic : Prog α) .panic := trivial
theorem rel_failHere {m : String} : RelP e (Prog.failHere m : Prog α) (.failHere m) := fun _ _ => rfl
theorem rel_getExc {k l : ExcStatus → Prog α} (h : ∀ x, RelP e (k x) (l x)) : RelP e (.getExc k) (.getExc l) := h
theorem rel_setExc {x} {k l : Prog α} (h : RelP e k l) : RelP e (.setExc x k) (.setExc x l) := ⟨rfl, h⟩
theorem rel_here_bind {f g : Nat → Prog β} (h : ∀ p q, RelP e (f p) (g q)) : RelP e (Prog.here >>= f) (Prog.here >>= g) := h
theorem rel_next_bind {f g : Unit → Prog β} (h : RelP e (f ()) (g ())) : RelP e (Prog.next >>= f) (Prog.next >>= g) := h
theorem rel_symAt_bind {p q m} {f g : Token → Prog β} (h : ∀ t u, e t = e u → RelP e (f t) (g u)) :
    RelP e (Prog.symAt p m >>= f) (Prog.symAt q m >>= g) := ⟨h, rfl⟩
theorem rel_symHere_bind {m} {f g : Token → Prog β} (h : ∀ t u, e t = e u → RelP e (f t) (g u)) :
    RelP e (Prog.symHere m >>= f) (Prog.symHere m >>= g) := ⟨h, fun _ _ => rfl⟩
theorem rel_sym?_bind {f g : Option Token → Prog β} (h : ∀ t u, e t = e u → RelP e (f (some t)) (g (some u)))
    (hn : RelP e (f none) (g none)) : RelP e (Prog.sym? >>= f) (Prog.sym? >>= g) := ⟨h, hn⟩
theorem rel_parse_bind {x y : Fn} {f g : Tree → Prog β} (hx : Fn.Like e x y)
    (h : ∀ t u : Tree, t.erase e = u.erase e → RelP e (f t) (g u)) : RelP e (Prog.parse x >>= f) (Prog.parse y >>= g) := ⟨hx, h⟩
theorem rel_mk_bind {tag s s' l l'} {f g : Tree → Prog β} (hl : eraseList e l = eraseList e l')
    (h : ∀ t u : Tree, t.erase e = u.erase e → RelP e (f t) (g u)) : RelP e (Prog.mk tag s l >>= f) (Prog.mk tag s' l' >>= g) :=
  fun p q => h _ _ (by simp [Tree.erase, hl])
end

theorem rel_parse {x y : Fn} (hx : Fn.Like e x y) : RelP e (Prog.parse x) (Prog.parse y) := ⟨hx, fun _ _ h => h⟩
theorem rel_mk {tag s s' l l'} (hl : eraseList e l = eraseList e l') : RelP e (Prog.mk tag s l) (Prog.mk tag s' l') :=
  fun p q => by show Tree.erase e _ = Tree.erase e _; simp [Tree.erase, hl]

/-! ### Soundness -/

theorem ViewLike.advance [Uni] {c d : PSt} (h : ViewLike e c d) : ViewLike e c.advance d.advance :=
  ⟨by rw [advance_exc_eq, advance_exc_eq]; exact h.1, fun i => h.2 (i + 1)⟩

theorem ViewLike.exc [Uni] {c d : PSt} (h : ViewLike e c d) (x : ExcStatus) :
    ViewLike e { c with exc := x } { d with exc := x } := by
  refine ⟨rfl, fun i => ?_⟩
  rw [ahead_exc i c x, ahead_exc i d x]
  exact h.2 i

/-- Outcomes that are alike, with parsers that see the same. -/
def OutLike [Uni] (e : Token → Token) {α : Type} [Lk e α] : Res α → Res α → Prop
  | .ok a c, .ok b d => Lk.rel e a b ∧ ViewLike e c d
  | .err _ m, .err _ m' => m = m'
  | .panic, .panic => True
  | .diverge, .diverge => True
  | _, _ => False

theorem rel_exec [Uni] {α : Type} [Lk e α] {r : Fn → PSt → Res Tree}
    (hr : ∀ f g, Fn.Like e f g → ∀ c d, ViewLike e c d → OutLike e (r f c) (r g d)) {p q : Prog α} (h : RelP e p q) :
    ∀ {c d}, ViewLike e c d → OutLike e (p.exec r c) (q.exec r d) := by
  induction p generalizing q with
  | ret a => intro c d hv; cases q <;> first | exact ⟨h, hv⟩ | exact h.elim
  | fail => intro c d hv; cases q <;> first | exact h | exact h.elim
  | panic => intro c d hv; cases q <;> first | exact h | exact h.elim
  | getPos k ih => intro c d hv; cases q <;> first | exact ih _ (h _ _) hv | exact h.elim
  | getExc k ih =>
    intro c d hv
    cases q with
    | getExc l => simp only [Prog.exec]; rw [← hv.1]; exact ih _ (h _) hv
    | _ => exact h.elim
  | sym k x ih1 ih2 =>
    intro c d hv
    cases q with
    | sym l y =>
      have h0 := hv.2 0
      simp only [PSt.ahead, SymLike] at h0
      simp only [Prog.exec]
      cases hc : c.symbol <;> cases hd : d.symbol <;> simp only [hc, hd] at h0 ⊢
      · exact ih2 h.2 hv
      · exact ih1 _ (h.1 _ _ h0) hv
    | _ => exact h.elim
  | adv k ih => intro c d hv; cases q <;> first | exact ih h hv.advance | exact h.elim
  | setExc x k ih =>
    intro c d hv
    cases q with
    | setExc y l => obtain ⟨rfl, h⟩ := h; exact ih h (hv.exc _)
    | _ => exact h.elim
  | call f k ih =>
    intro c d hv
    cases q with
    | call g l =>
      have h0 := hr f g h.1 c d hv
      simp only [Prog.exec]
      cases hc : r f c <;> cases hd : r g d <;> simp only [hc, hd, OutLike] at h0 ⊢
      · exact ih _ (h.2 _ _ h0.1) h0.2
      · exact h0
    | _ => exact h.elim

end Verif
