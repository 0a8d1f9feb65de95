import Verif.Proof.AlikeAll

/-!
# Two runs of a parse function on symbols that are alike, with positions

`P` says which positions of the two runs belong together.  The rules are those of `Proof/Alike.lean` and
`Proof/AlikeAll.lean`; errors have positions that belong together.
-/

namespace Verif
variable {e : Token → Token} {P : Nat → Nat → Prop}

/-- Calls that are alike. -/
inductive FnAt (e : Token → Token) (P : Nat → Nat → Prop) : Fn → Fn → Prop
  | atom : FnAt e P .atom .atom
  | atomStrLoop (s s' : Nat) (toks toks' : List Token) : P s s' → toks.map e = toks'.map e → FnAt e P (.atomStrLoop s toks) (.atomStrLoop s' toks')
  | atomExpr : FnAt e P .atomExpr .atomExpr
  | trailerLoop (s s' : Nat) (await await' : Tree) (right right' : Tree) (lst lst' : List Tree) : P s s' → Tree.erase e await = Tree.erase e await' → Tree.erase e right = Tree.erase e right' → eraseList e lst = eraseList e lst' → FnAt e P (.trailerLoop s await right lst) (.trailerLoop s' await' right' lst')
  | power : FnAt e P .power .power
  | factor : FnAt e P .factor .factor
  | term : FnAt e P .term .term
  | termLoop (s s' : Nat) (left left' : Tree) : P s s' → Tree.erase e left = Tree.erase e left' → FnAt e P (.termLoop s left) (.termLoop s' left')
  | arith : FnAt e P .arith .arith
  | arithLoop (s s' : Nat) (left left' : Tree) : P s s' → Tree.erase e left = Tree.erase e left' → FnAt e P (.arithLoop s left) (.arithLoop s' left')
  | shift : FnAt e P .shift .shift
  | shiftLoop (s s' : Nat) (left left' : Tree) : P s s' → Tree.erase e left = Tree.erase e left' → FnAt e P (.shiftLoop s left) (.shiftLoop s' left')
  | andExpr : FnAt e P .andExpr .andExpr
  | andExprLoop (s s' : Nat) (left left' : Tree) : P s s' → Tree.erase e left = Tree.erase e left' → FnAt e P (.andExprLoop s left) (.andExprLoop s' left')
  | xorExpr : FnAt e P .xorExpr .xorExpr
  | xorExprLoop (s s' : Nat) (left left' : Tree) : P s s' → Tree.erase e left = Tree.erase e left' → FnAt e P (.xorExprLoop s left) (.xorExprLoop s' left')
  | expr : FnAt e P .expr .expr
  | exprLoop (s s' : Nat) (left left' : Tree) : P s s' → Tree.erase e left = Tree.erase e left' → FnAt e P (.exprLoop s left) (.exprLoop s' left')
  | starExpr : FnAt e P .starExpr .starExpr
  | comparison : FnAt e P .comparison .comparison
  | comparisonLoop (s s' : Nat) (left left' : Tree) : P s s' → Tree.erase e left = Tree.erase e left' → FnAt e P (.comparisonLoop s left) (.comparisonLoop s' left')
  | notTest : FnAt e P .notTest .notTest
  | andTest : FnAt e P .andTest .andTest
  | andTestLoop (s s' : Nat) (left left' : Tree) : P s s' → Tree.erase e left = Tree.erase e left' → FnAt e P (.andTestLoop s left) (.andTestLoop s' left')
  | orTest : FnAt e P .orTest .orTest
  | orTestLoop (s s' : Nat) (left left' : Tree) : P s s' → Tree.erase e left = Tree.erase e left' → FnAt e P (.orTestLoop s left) (.orTestLoop s' left')
  | lambdaDef (cond : Bool) : FnAt e P (.lambdaDef cond) (.lambdaDef cond)
  | noCondTest : FnAt e P .noCondTest .noCondTest
  | test : FnAt e P .test .test
  | namedExpression : FnAt e P .namedExpression .namedExpression
  | testlistComp : FnAt e P .testlistComp .testlistComp
  | testlistCompLoop (s s' : Nat) (nodes nodes' : List Tree) (seps seps' : List Token) : P s s' → eraseList e nodes = eraseList e nodes' → seps.map e = seps'.map e → FnAt e P (.testlistCompLoop s nodes seps) (.testlistCompLoop s' nodes' seps')
  | trailer : FnAt e P .trailer .trailer
  | subscriptList : FnAt e P .subscriptList .subscriptList
  | subscriptListLoop (s s' : Nat) (nodes nodes' : List Tree) (seps seps' : List Token) : P s s' → eraseList e nodes = eraseList e nodes' → seps.map e = seps'.map e → FnAt e P (.subscriptListLoop s nodes seps) (.subscriptListLoop s' nodes' seps')
  | subscript : FnAt e P .subscript .subscript
  | exprlist : FnAt e P .exprlist .exprlist
  | exprlistLoop (s s' : Nat) (nodes nodes' : List Tree) (seps seps' : List Token) : P s s' → eraseList e nodes = eraseList e nodes' → seps.map e = seps'.map e → FnAt e P (.exprlistLoop s nodes seps) (.exprlistLoop s' nodes' seps')
  | testlist : FnAt e P .testlist .testlist
  | testlistLoop (s s' : Nat) (nodes nodes' : List Tree) (seps seps' : List Token) : P s s' → eraseList e nodes = eraseList e nodes' → seps.map e = seps'.map e → FnAt e P (.testlistLoop s nodes seps) (.testlistLoop s' nodes' seps')
  | dictorsetMaker : FnAt e P .dictorsetMaker .dictorsetMaker
  | setLoop (s s' : Nat) (nodes nodes' : List Tree) (seps seps' : List Token) : P s s' → eraseList e nodes = eraseList e nodes' → seps.map e = seps'.map e → FnAt e P (.setLoop s nodes seps) (.setLoop s' nodes' seps')
  | arglist : FnAt e P .arglist .arglist
  | arglistLoop (s s' : Nat) (nodes nodes' : List Tree) (seps seps' : List Token) : P s s' → eraseList e nodes = eraseList e nodes' → seps.map e = seps'.map e → FnAt e P (.arglistLoop s nodes seps) (.arglistLoop s' nodes' seps')
  | argument : FnAt e P .argument .argument
  | compIter : FnAt e P .compIter .compIter
  | syncCompFor : FnAt e P .syncCompFor .syncCompFor
  | compFor : FnAt e P .compFor .compFor
  | compIf : FnAt e P .compIf .compIf
  | yieldExpr : FnAt e P .yieldExpr .yieldExpr
  | testlistStarExpr : FnAt e P .testlistStarExpr .testlistStarExpr
  | testlistStarExprLoop (s s' : Nat) (nodes nodes' : List Tree) (seps seps' : List Token) : P s s' → eraseList e nodes = eraseList e nodes' → seps.map e = seps'.map e → FnAt e P (.testlistStarExprLoop s nodes seps) (.testlistStarExprLoop s' nodes' seps')
  | varArgsList : FnAt e P .varArgsList .varArgsList
  | varArgsMainLoop (s s' : Nat) (v v' : VA) : P s s' → v.erase e = v'.erase e → FnAt e P (.varArgsMainLoop s v) (.varArgsMainLoop s' v')
  | varArgsStarLoop (s s' : Nat) (v v' : VA) : P s s' → v.erase e = v'.erase e → FnAt e P (.varArgsStarLoop s v) (.varArgsStarLoop s' v')
  | varArgsDivLoop (s s' : Nat) (v v' : VA) : P s s' → v.erase e = v'.erase e → FnAt e P (.varArgsDivLoop s v) (.varArgsDivLoop s' v')
  | varArgsAssignments : FnAt e P .varArgsAssignments .varArgsAssignments
  | vfpDef : FnAt e P .vfpDef .vfpDef
  | stmt : FnAt e P .stmt .stmt
  | simpleStmt : FnAt e P .simpleStmt .simpleStmt
  | simpleStmtLoop (s s' : Nat) (nodes nodes' : List Tree) (seps seps' : List Token) : P s s' → eraseList e nodes = eraseList e nodes' → seps.map e = seps'.map e → FnAt e P (.simpleStmtLoop s nodes seps) (.simpleStmtLoop s' nodes' seps')
  | smallStmt : FnAt e P .smallStmt .smallStmt
  | exprStmt : FnAt e P .exprStmt .exprStmt
  | assignLoop (s s' : Nat) (left left' : Tree) (nodes nodes' : List Tree) : P s s' → Tree.erase e left = Tree.erase e left' → eraseList e nodes = eraseList e nodes' → FnAt e P (.assignLoop s left nodes) (.assignLoop s' left' nodes')
  | annAssign (s s' : Nat) (left left' : Tree) : P s s' → Tree.erase e left = Tree.erase e left' → FnAt e P (.annAssign s left) (.annAssign s' left')
  | delStmt : FnAt e P .delStmt .delStmt
  | passStmt : FnAt e P .passStmt .passStmt
  | flowStmt : FnAt e P .flowStmt .flowStmt
  | breakStmt : FnAt e P .breakStmt .breakStmt
  | continueStmt : FnAt e P .continueStmt .continueStmt
  | returnStmt : FnAt e P .returnStmt .returnStmt
  | yieldStmt : FnAt e P .yieldStmt .yieldStmt
  | raiseStmt : FnAt e P .raiseStmt .raiseStmt
  | importStmt : FnAt e P .importStmt .importStmt
  | importName : FnAt e P .importName .importName
  | importFrom : FnAt e P .importFrom .importFrom
  | importDotLoop (s s' : Nat) (sym1 sym1' : Token) (dots dots' : List Token) : P s s' → e sym1 = e sym1' → dots.map e = dots'.map e → FnAt e P (.importDotLoop s sym1 dots) (.importDotLoop s' sym1' dots')
  | importAsName : FnAt e P .importAsName .importAsName
  | dottedAsName : FnAt e P .dottedAsName .dottedAsName
  | importAsNames : FnAt e P .importAsNames .importAsNames
  | importAsNamesLoop (s s' : Nat) (nodes nodes' : List Tree) (seps seps' : List Token) : P s s' → eraseList e nodes = eraseList e nodes' → seps.map e = seps'.map e → FnAt e P (.importAsNamesLoop s nodes seps) (.importAsNamesLoop s' nodes' seps')
  | dottedAsNames : FnAt e P .dottedAsNames .dottedAsNames
  | dottedAsNamesLoop (s s' : Nat) (nodes nodes' : List Tree) (seps seps' : List Token) : P s s' → eraseList e nodes = eraseList e nodes' → seps.map e = seps'.map e → FnAt e P (.dottedAsNamesLoop s nodes seps) (.dottedAsNamesLoop s' nodes' seps')
  | dottedName : FnAt e P .dottedName .dottedName
  | dottedNameLoop (s s' : Nat) (nodes nodes' : List Token) (seps seps' : List Token) : P s s' → nodes.map e = nodes'.map e → seps.map e = seps'.map e → FnAt e P (.dottedNameLoop s nodes seps) (.dottedNameLoop s' nodes' seps')
  | globalStmt : FnAt e P .globalStmt .globalStmt
  | globalLoop (s s' : Nat) (sym sym' : Token) (nodes nodes' : List Token) (seps seps' : List Token) : P s s' → e sym = e sym' → nodes.map e = nodes'.map e → seps.map e = seps'.map e → FnAt e P (.globalLoop s sym nodes seps) (.globalLoop s' sym' nodes' seps')
  | nonlocalStmt : FnAt e P .nonlocalStmt .nonlocalStmt
  | nonlocalLoop (s s' : Nat) (sym sym' : Token) (nodes nodes' : List Token) (seps seps' : List Token) : P s s' → e sym = e sym' → nodes.map e = nodes'.map e → seps.map e = seps'.map e → FnAt e P (.nonlocalLoop s sym nodes seps) (.nonlocalLoop s' sym' nodes' seps')
  | assertStmt : FnAt e P .assertStmt .assertStmt
  | compoundStmt : FnAt e P .compoundStmt .compoundStmt
  | asyncStmt : FnAt e P .asyncStmt .asyncStmt
  | ifStmt : FnAt e P .ifStmt .ifStmt
  | ifLoop (s s' : Nat) (sym1 sym1' : Token) (left left' : Tree) (sym2 sym2' : Token) (right right' : Tree) (nodes nodes' : List Tree) : P s s' → e sym1 = e sym1' → Tree.erase e left = Tree.erase e left' → e sym2 = e sym2' → Tree.erase e right = Tree.erase e right' → eraseList e nodes = eraseList e nodes' → FnAt e P (.ifLoop s sym1 left sym2 right nodes) (.ifLoop s' sym1' left' sym2' right' nodes')
  | elifStmt : FnAt e P .elifStmt .elifStmt
  | elseStmt : FnAt e P .elseStmt .elseStmt
  | whileStmt : FnAt e P .whileStmt .whileStmt
  | forStmt : FnAt e P .forStmt .forStmt
  | tryStmt : FnAt e P .tryStmt .tryStmt
  | tryLoop (s s' : Nat) (sym1 sym1' : Token) (sym2 sym2' : Token) (left left' : Tree) (nodes nodes' : List Tree) : P s s' → e sym1 = e sym1' → e sym2 = e sym2' → Tree.erase e left = Tree.erase e left' → eraseList e nodes = eraseList e nodes' → FnAt e P (.tryLoop s sym1 sym2 left nodes) (.tryLoop s' sym1' sym2' left' nodes')
  | finallyStmt : FnAt e P .finallyStmt .finallyStmt
  | withStmt : FnAt e P .withStmt .withStmt
  | withParenLoop (s s' : Nat) (sym1 sym1' : Token) (lpar lpar' : Token) (nodes nodes' : List Tree) (seps seps' : List Token) : P s s' → e sym1 = e sym1' → e lpar = e lpar' → eraseList e nodes = eraseList e nodes' → seps.map e = seps'.map e → FnAt e P (.withParenLoop s sym1 lpar nodes seps) (.withParenLoop s' sym1' lpar' nodes' seps')
  | withLoop (s s' : Nat) (sym1 sym1' : Token) (nodes nodes' : List Tree) (seps seps' : List Token) : P s s' → e sym1 = e sym1' → eraseList e nodes = eraseList e nodes' → seps.map e = seps'.map e → FnAt e P (.withLoop s sym1 nodes seps) (.withLoop s' sym1' nodes' seps')
  | withItem : FnAt e P .withItem .withItem
  | exceptStmt : FnAt e P .exceptStmt .exceptStmt
  | exceptClause : FnAt e P .exceptClause .exceptClause
  | suite : FnAt e P .suite .suite
  | suiteLoop (s s' : Nat) (sym1 sym1' : Token) (sym2 sym2' : Token) (nodes nodes' : List Tree) : P s s' → e sym1 = e sym1' → e sym2 = e sym2' → eraseList e nodes = eraseList e nodes' → FnAt e P (.suiteLoop s sym1 sym2 nodes) (.suiteLoop s' sym1' sym2' nodes')
  | evalInput : FnAt e P .evalInput .evalInput
  | evalLoop (s s' : Nat) (right right' : Tree) (seps seps' : List Token) : P s s' → Tree.erase e right = Tree.erase e right' → seps.map e = seps'.map e → FnAt e P (.evalLoop s right seps) (.evalLoop s' right' seps')
  | fileInput : FnAt e P .fileInput .fileInput
  | fileLoop (s s' : Nat) (nodes nodes' : List Tree) (seps seps' : List Token) : P s s' → eraseList e nodes = eraseList e nodes' → seps.map e = seps'.map e → FnAt e P (.fileLoop s nodes seps) (.fileLoop s' nodes' seps')
  | singleInput : FnAt e P .singleInput .singleInput
  | funcTypeInput : FnAt e P .funcTypeInput .funcTypeInput
  | funcTypeLoop (s s' : Nat) (right right' : Tree) (seps seps' : List Token) : P s s' → Tree.erase e right = Tree.erase e right' → seps.map e = seps'.map e → FnAt e P (.funcTypeLoop s right seps) (.funcTypeLoop s' right' seps')
  | decorator : FnAt e P .decorator .decorator
  | decorators : FnAt e P .decorators .decorators
  | decoratorsLoop (s s' : Nat) (nodes nodes' : List Tree) : P s s' → eraseList e nodes = eraseList e nodes' → FnAt e P (.decoratorsLoop s nodes) (.decoratorsLoop s' nodes')
  | decorated : FnAt e P .decorated .decorated
  | asyncFuncDef : FnAt e P .asyncFuncDef .asyncFuncDef
  | funcDef : FnAt e P .funcDef .funcDef
  | parameters : FnAt e P .parameters .parameters
  | typedArgsList : FnAt e P .typedArgsList .typedArgsList
  | tfpDefAssign : FnAt e P .tfpDefAssign .tfpDefAssign
  | tfpDef : FnAt e P .tfpDef .tfpDef
  | funcBodySuite : FnAt e P .funcBodySuite .funcBodySuite
  | funcBodyLoop (s s' : Nat) (sym1 sym1' : Token) (tc tc' : Tree) (tcnl tcnl' : Tree) (sym2 sym2' : Token) (nodes nodes' : List Tree) : P s s' → e sym1 = e sym1' → Tree.erase e tc = Tree.erase e tc' → Tree.erase e tcnl = Tree.erase e tcnl' → e sym2 = e sym2' → eraseList e nodes = eraseList e nodes' → FnAt e P (.funcBodyLoop s sym1 tc tcnl sym2 nodes) (.funcBodyLoop s' sym1' tc' tcnl' sym2' nodes')
  | classDef : FnAt e P .classDef .classDef
  | funcType : FnAt e P .funcType .funcType
  | typeList : FnAt e P .typeList .typeList
  | typeListMainLoop (s s' : Nat) (v v' : VA) : P s s' → v.erase e = v'.erase e → FnAt e P (.typeListMainLoop s v) (.typeListMainLoop s' v')
  | typeListStarLoop (s s' : Nat) (v v' : VA) : P s s' → v.erase e = v'.erase e → FnAt e P (.typeListStarLoop s v) (.typeListStarLoop s' v')
  | patternsMatch : FnAt e P .patternsMatch .patternsMatch

/-! ### The logic -/

/-- Values that are alike. -/
class LkAt (e : Token → Token) (P : Nat → Nat → Prop) (α : Type) where
  rel : α → α → Prop

instance : LkAt e P Tree := ⟨fun a b => a.erase e = b.erase e⟩
instance : LkAt e P Nat := ⟨P⟩
instance : LkAt e P Unit := ⟨fun _ _ => True⟩
instance : LkAt e P Token := ⟨fun a b => e a = e b⟩
instance {α} [LkAt e P α] : LkAt e P (Option α) := ⟨fun a b => match a, b with
  | some a, some b => LkAt.rel e P a b
  | none, none => True
  | _, _ => False⟩

/-- Two bodies that do the same on symbols that are alike. -/
def RelAt (e : Token → Token) (P : Nat → Nat → Prop) {α : Type} [LkAt e P α] : Prog α → Prog α → Prop
  | .ret a, .ret b => LkAt.rel e P a b
  | .fail p m, .fail q m' => P p q ∧ m = m'
  | .panic, .panic => True
  | .getPos k, .getPos l => ∀ p q, P p q → RelAt e P (k p) (l q)
  | .sym k x, .sym l y => (∀ t u, e t = e u → RelAt e P (k t) (l u)) ∧ RelAt e P x y
  | .adv k, .adv l => RelAt e P k l
  | .call f k, .call g l => FnAt e P f g ∧ ∀ t u, t.erase e = u.erase e → RelAt e P (k t) (l u)
  | .getExc k, .getExc l => ∀ x, RelAt e P (k x) (l x)
  | .setExc x k, .setExc y l => x = y ∧ RelAt e P k l
  | _, _ => False

section
variable {α β : Type} [LkAt e P α] [LkAt e P β]

theorem rat_bind {p q : Prog α} {f g : α → Prog β} (h : RelAt e P p q) (hf : ∀ a b, LkAt.rel e P a b → RelAt e P (f a) (g b)) :
    RelAt e P (p >>= f) (q >>= g) := by
  show RelAt e P (p.bind f) (q.bind g)
  induction p generalizing q with
  | ret a => cases q <;> first | exact hf _ _ h | exact h.elim
  | fail => cases q <;> first | exact h | exact h.elim
  | panic => cases q <;> first | exact h | exact h.elim
  | getPos k ih => cases q <;> first | exact fun p q hp => ih _ (h p q hp) | exact h.elim
  | getExc k ih => cases q <;> first | exact fun p => ih _ (h p) | exact h.elim
  | sym k x ih1 ih2 => cases q <;> first | exact ⟨fun t u htu => ih1 _ (h.1 t u htu), ih2 h.2⟩ | exact h.elim
  | adv k ih => cases q <;> first | exact ih h | exact h.elim
  | call f k ih => cases q <;> first | exact ⟨h.1, fun t u htu => ih _ (h.2 t u htu)⟩ | exact h.elim
  | setExc x k ih => cases q <;> first | exact ⟨h.1, ih h.2⟩ | exact h.elim

theorem rat_ite {b b' : Prop} [Decidable b] [Decidable b'] {p q p' q' : Prog α} (hb : b ↔ b') (h1 : RelAt e P p p')
    (h2 : RelAt e P q q') : RelAt e P (if b then p else q) (if b' then p' else q') := by
  by_cases h : b
  · rw [if_pos h, if_pos (hb.mp h)]; exact h1
  · rw [if_neg h, if_neg (fun x => h (hb.mpr x))]; exact h2
theorem rat_pure {a b : α} (h : LkAt.rel e P a b) : RelAt e P (pure a : Prog α) (pure b) := h
theorem rat_ret {a b : α} (h : LkAt.rel e P a b) : RelAt e P (Prog.ret a : Prog α) (.ret b) := h
theorem rat_fail {p q : Nat} {m : String} (hp : P p q) : RelAt e P (Prog.fail p m : Prog α) (.fail q m) := ⟨hp, rfl⟩
theorem rat_panic : RelAt e P (Prog.panic : Prog α) .panic := trivial
theorem rat_failHere {m : String} : RelAt e P (Prog.failHere m : Prog α) (.failHere m) := fun _ _ hp => ⟨hp, rfl⟩
theorem rat_getExc {k l : ExcStatus → Prog α} (h : ∀ x, RelAt e P (k x) (l x)) : RelAt e P (.getExc k) (.getExc l) := h
theorem rat_setExc {x} {k l : Prog α} (h : RelAt e P k l) : RelAt e P (.setExc x k) (.setExc x l) := ⟨rfl, h⟩
theorem rat_here_bind {f g : Nat → Prog β} (h : ∀ p q, P p q → RelAt e P (f p) (g q)) : RelAt e P (Prog.here >>= f) (Prog.here >>= g) := h
theorem rat_next_bind {f g : Unit → Prog β} (h : RelAt e P (f ()) (g ())) : RelAt e P (Prog.next >>= f) (Prog.next >>= g) := h
theorem rat_symAt_bind {p q m} {f g : Token → Prog β} (hp : P p q) (h : ∀ t u, e t = e u → RelAt e P (f t) (g u)) :
    RelAt e P (Prog.symAt p m >>= f) (Prog.symAt q m >>= g) := ⟨h, hp, rfl⟩
theorem rat_symHere_bind {m} {f g : Token → Prog β} (h : ∀ t u, e t = e u → RelAt e P (f t) (g u)) :
    RelAt e P (Prog.symHere m >>= f) (Prog.symHere m >>= g) := ⟨h, fun _ _ hp => ⟨hp, rfl⟩⟩
theorem rat_sym?_bind {f g : Option Token → Prog β} (h : ∀ t u, e t = e u → RelAt e P (f (some t)) (g (some u)))
    (hn : RelAt e P (f none) (g none)) : RelAt e P (Prog.sym? >>= f) (Prog.sym? >>= g) := ⟨h, hn⟩
theorem rat_parse_bind {x y : Fn} {f g : Tree → Prog β} (hx : FnAt e P x y)
    (h : ∀ t u : Tree, t.erase e = u.erase e → RelAt e P (f t) (g u)) : RelAt e P (Prog.parse x >>= f) (Prog.parse y >>= g) := ⟨hx, h⟩
theorem rat_mk_bind {tag s s' l l'} {f g : Tree → Prog β} (hl : eraseList e l = eraseList e l')
    (h : ∀ t u : Tree, t.erase e = u.erase e → RelAt e P (f t) (g u)) : RelAt e P (Prog.mk tag s l >>= f) (Prog.mk tag s' l' >>= g) :=
  fun p q _ => h _ _ (by simp [Tree.erase, hl])
end

theorem rat_parse {x y : Fn} (hx : FnAt e P x y) : RelAt e P (Prog.parse x) (Prog.parse y) := ⟨hx, fun _ _ h => h⟩
theorem rat_mk {tag s s' l l'} (hl : eraseList e l = eraseList e l') : RelAt e P (Prog.mk tag s l) (Prog.mk tag s' l') :=
  fun p q _ => by show Tree.erase e _ = Tree.erase e _; simp [Tree.erase, hl]

/-! ### Soundness -/

/-- The two runs are at the same symbol: the `i`th after the one they began at. -/
def Sync [Uni] (a b c d : PSt) : Prop := ∃ i x, c = { a.ahead i with exc := x } ∧ d = { b.ahead i with exc := x }

/-- Where the same symbol starts for both. -/
def SamePlace [Uni] (a b : PSt) (p q : Nat) : Prop := ∃ i, p = (a.ahead i).lex.tokStart ∧ q = (b.ahead i).lex.tokStart

theorem ahead_succ' [Uni] (i : Nat) (c : PSt) : (c.ahead i).advance = c.ahead (i + 1) := by
  induction i generalizing c with
  | zero => rfl
  | succ i ih => exact ih c.advance

theorem Sync.advance [Uni] {a b c d : PSt} (h : Sync a b c d) : Sync a b c.advance d.advance := by
  obtain ⟨i, x, rfl, rfl⟩ := h
  refine ⟨i + 1, x, ?_, ?_⟩ <;> rw [← ahead_succ'] <;> exact ahead_exc 1 _ x

/-- Outcomes that are alike, with errors at the same symbol and parsers at the same symbol. -/
def OutAt [Uni] (e : Token → Token) (P : Nat → Nat → Prop) (a b : PSt) {α : Type} [LkAt e P α] : Res α → Res α → Prop
  | .ok x c, .ok y d => LkAt.rel e P x y ∧ Sync a b c d
  | .err p m, .err q m' => P p q ∧ m = m'
  | .panic, .panic => True
  | .diverge, .diverge => True
  | _, _ => False

theorem rat_exec [Uni] {a b : PSt} (hab : ViewLike e a b) {α : Type} [LkAt e (SamePlace a b) α] {r : Fn → PSt → Res Tree}
    (hr : ∀ f g, FnAt e (SamePlace a b) f g → ∀ c d, Sync a b c d → OutAt e (SamePlace a b) a b (r f c) (r g d))
    {p q : Prog α} (h : RelAt e (SamePlace a b) p q) :
    ∀ {c d}, Sync a b c d → OutAt e (SamePlace a b) a b (p.exec r c) (q.exec r d) := by
  induction p generalizing q with
  | ret a => intro c d hv; cases q <;> first | exact ⟨h, hv⟩ | exact h.elim
  | fail => intro c d hv; cases q <;> first | exact h | exact h.elim
  | panic => intro c d hv; cases q <;> first | exact h | exact h.elim
  | getPos k ih =>
    intro c d hv
    cases q with
    | getPos l =>
      refine ih _ (h _ _ ?_) hv
      obtain ⟨i, x, rfl, rfl⟩ := hv
      exact ⟨i, rfl, rfl⟩
    | _ => exact h.elim
  | getExc k ih =>
    intro c d hv
    cases q with
    | getExc l =>
      have : c.exc = d.exc := by obtain ⟨i, x, rfl, rfl⟩ := hv; rfl
      simp only [Prog.exec]; rw [← this]; exact ih _ (h _) hv
    | _ => exact h.elim
  | sym k x ih1 ih2 =>
    intro c d hv
    cases q with
    | sym l y =>
      have h0 : SymLike e c d := by obtain ⟨i, x, rfl, rfl⟩ := hv; exact hab.2 i
      simp only [SymLike] at h0
      simp only [Prog.exec]
      cases hc : c.symbol <;> cases hd : d.symbol <;> simp only [hc, hd] at h0 ⊢
      · exact ih2 h.2 hv
      · exact ih1 _ (h.1 _ _ h0) hv
    | _ => exact h.elim
  | adv k ih => intro c d hv; cases q <;> first | exact ih h hv.advance | exact h.elim
  | setExc x k ih =>
    intro c d hv
    cases q with
    | setExc y l =>
      obtain ⟨rfl, h⟩ := h
      refine ih h ?_
      obtain ⟨i, z, rfl, rfl⟩ := hv
      exact ⟨i, _, rfl, rfl⟩
    | _ => exact h.elim
  | call f k ih =>
    intro c d hv
    cases q with
    | call g l =>
      have h0 := hr f g h.1 c d hv
      simp only [Prog.exec]
      cases hc : r f c <;> cases hd : r g d <;> simp only [hc, hd, OutAt] at h0 ⊢
      · exact ih _ (h.2 _ _ h0.1) h0.2
      · exact h0
    | _ => exact h.elim

end Verif
