import Verif.Spec.Plug
import Verif.Proof.Subst
import Verif.Proof.Ev
import Verif.Proof.Alike

/-!
# Two runs of a parse function, with a number in one text and an expression in parentheses in the other
-/

namespace Verif

/-- The number, the opening parenthesis, and the tree (without positions) of what is in the place of the number. -/
class Plug where
  num : Token
  lp : Token
  r : Tree
  hn : num.kind = .AtomNumber
  hl : lp.kind = .PyLeftParen
  hr : r.tag? = some .AtomTuple

section
variable [Plug]
open Plug

/-- Trees, lists of trees: the first one is the second one with `r` in the place of the number. -/
abbrev PT (t u : Tree) : Prop := t.plug num r = u.erase Token.bare
abbrev PL (t u : List Tree) : Prop := plugList t num r = eraseList Token.bare u
/-- Symbols other than the number. -/
def TT (t u : Token) : Prop := t.bare = u.bare ∧ t ≠ num
structure PV (v w : VA) : Prop where
  nodes : PL v.nodes w.nodes
  seps : v.seps.map Token.bare = w.seps.map Token.bare
  mulS : PT v.mulS w.mulS
  mulN : PT v.mulN w.mulN
  powS : PT v.powS w.powS
  powN : PT v.powN w.powN
  div : PT v.div w.div

theorem plugList_append (a b : List Tree) (x r) : plugList (a ++ b) x r = plugList a x r ++ plugList b x r := by
  induction a with
  | nil => rfl
  | cons t a ih => simp [plugList, ih]
theorem plugList_eq_map (a : List Tree) (x r) : plugList a x r = a.map (Tree.plug · x r) := by
  induction a with
  | nil => rfl
  | cons t a ih => simp [plugList, ih]
theorem plugList_toks (a : List Token) (x r) : plugList (a.map .tok) x r = (a.map Token.bare).map .tok := by
  induction a with
  | nil => rfl
  | cons t a ih => simp [plugList, Tree.plug, ih]

/-- Calls that are alike. -/
inductive Fn.LikeQ : Fn → Fn → Prop
  | atom : Fn.LikeQ .atom .atom
  | atomStrLoop (s s' : Nat) (toks toks' : List Token) : toks.map Token.bare = toks'.map Token.bare → Fn.LikeQ (.atomStrLoop s toks) (.atomStrLoop s' toks')
  | atomExpr : Fn.LikeQ .atomExpr .atomExpr
  | trailerLoop (s s' : Nat) (await await' : Tree) (right right' : Tree) (lst lst' : List Tree) : PT await await' → PT right right' → PL lst lst' → Fn.LikeQ (.trailerLoop s await right lst) (.trailerLoop s' await' right' lst')
  | power : Fn.LikeQ .power .power
  | factor : Fn.LikeQ .factor .factor
  | term : Fn.LikeQ .term .term
  | termLoop (s s' : Nat) (left left' : Tree) : PT left left' → Fn.LikeQ (.termLoop s left) (.termLoop s' left')
  | arith : Fn.LikeQ .arith .arith
  | arithLoop (s s' : Nat) (left left' : Tree) : PT left left' → Fn.LikeQ (.arithLoop s left) (.arithLoop s' left')
  | shift : Fn.LikeQ .shift .shift
  | shiftLoop (s s' : Nat) (left left' : Tree) : PT left left' → Fn.LikeQ (.shiftLoop s left) (.shiftLoop s' left')
  | andExpr : Fn.LikeQ .andExpr .andExpr
  | andExprLoop (s s' : Nat) (left left' : Tree) : PT left left' → Fn.LikeQ (.andExprLoop s left) (.andExprLoop s' left')
  | xorExpr : Fn.LikeQ .xorExpr .xorExpr
  | xorExprLoop (s s' : Nat) (left left' : Tree) : PT left left' → Fn.LikeQ (.xorExprLoop s left) (.xorExprLoop s' left')
  | expr : Fn.LikeQ .expr .expr
  | exprLoop (s s' : Nat) (left left' : Tree) : PT left left' → Fn.LikeQ (.exprLoop s left) (.exprLoop s' left')
  | starExpr : Fn.LikeQ .starExpr .starExpr
  | comparison : Fn.LikeQ .comparison .comparison
  | comparisonLoop (s s' : Nat) (left left' : Tree) : PT left left' → Fn.LikeQ (.comparisonLoop s left) (.comparisonLoop s' left')
  | notTest : Fn.LikeQ .notTest .notTest
  | andTest : Fn.LikeQ .andTest .andTest
  | andTestLoop (s s' : Nat) (left left' : Tree) : PT left left' → Fn.LikeQ (.andTestLoop s left) (.andTestLoop s' left')
  | orTest : Fn.LikeQ .orTest .orTest
  | orTestLoop (s s' : Nat) (left left' : Tree) : PT left left' → Fn.LikeQ (.orTestLoop s left) (.orTestLoop s' left')
  | lambdaDef (cond : Bool) : Fn.LikeQ (.lambdaDef cond) (.lambdaDef cond)
  | noCondTest : Fn.LikeQ .noCondTest .noCondTest
  | test : Fn.LikeQ .test .test
  | namedExpression : Fn.LikeQ .namedExpression .namedExpression
  | testlistComp : Fn.LikeQ .testlistComp .testlistComp
  | testlistCompLoop (s s' : Nat) (nodes nodes' : List Tree) (seps seps' : List Token) : PL nodes nodes' → seps.map Token.bare = seps'.map Token.bare → Fn.LikeQ (.testlistCompLoop s nodes seps) (.testlistCompLoop s' nodes' seps')
  | trailer : Fn.LikeQ .trailer .trailer
  | subscriptList : Fn.LikeQ .subscriptList .subscriptList
  | subscriptListLoop (s s' : Nat) (nodes nodes' : List Tree) (seps seps' : List Token) : PL nodes nodes' → seps.map Token.bare = seps'.map Token.bare → Fn.LikeQ (.subscriptListLoop s nodes seps) (.subscriptListLoop s' nodes' seps')
  | subscript : Fn.LikeQ .subscript .subscript
  | exprlist : Fn.LikeQ .exprlist .exprlist
  | exprlistLoop (s s' : Nat) (nodes nodes' : List Tree) (seps seps' : List Token) : PL nodes nodes' → seps.map Token.bare = seps'.map Token.bare → Fn.LikeQ (.exprlistLoop s nodes seps) (.exprlistLoop s' nodes' seps')
  | testlist : Fn.LikeQ .testlist .testlist
  | testlistLoop (s s' : Nat) (nodes nodes' : List Tree) (seps seps' : List Token) : PL nodes nodes' → seps.map Token.bare = seps'.map Token.bare → Fn.LikeQ (.testlistLoop s nodes seps) (.testlistLoop s' nodes' seps')
  | dictorsetMaker : Fn.LikeQ .dictorsetMaker .dictorsetMaker
  | setLoop (s s' : Nat) (nodes nodes' : List Tree) (seps seps' : List Token) : PL nodes nodes' → seps.map Token.bare = seps'.map Token.bare → Fn.LikeQ (.setLoop s nodes seps) (.setLoop s' nodes' seps')
  | arglist : Fn.LikeQ .arglist .arglist
  | arglistLoop (s s' : Nat) (nodes nodes' : List Tree) (seps seps' : List Token) : PL nodes nodes' → seps.map Token.bare = seps'.map Token.bare → Fn.LikeQ (.arglistLoop s nodes seps) (.arglistLoop s' nodes' seps')
  | argument : Fn.LikeQ .argument .argument
  | compIter : Fn.LikeQ .compIter .compIter
  | syncCompFor : Fn.LikeQ .syncCompFor .syncCompFor
  | compFor : Fn.LikeQ .compFor .compFor
  | compIf : Fn.LikeQ .compIf .compIf
  | yieldExpr : Fn.LikeQ .yieldExpr .yieldExpr
  | testlistStarExpr : Fn.LikeQ .testlistStarExpr .testlistStarExpr
  | testlistStarExprLoop (s s' : Nat) (nodes nodes' : List Tree) (seps seps' : List Token) : PL nodes nodes' → seps.map Token.bare = seps'.map Token.bare → Fn.LikeQ (.testlistStarExprLoop s nodes seps) (.testlistStarExprLoop s' nodes' seps')
  | varArgsList : Fn.LikeQ .varArgsList .varArgsList
  | varArgsMainLoop (s s' : Nat) (v v' : VA) : PV v v' → Fn.LikeQ (.varArgsMainLoop s v) (.varArgsMainLoop s' v')
  | varArgsStarLoop (s s' : Nat) (v v' : VA) : PV v v' → Fn.LikeQ (.varArgsStarLoop s v) (.varArgsStarLoop s' v')
  | varArgsDivLoop (s s' : Nat) (v v' : VA) : PV v v' → Fn.LikeQ (.varArgsDivLoop s v) (.varArgsDivLoop s' v')
  | varArgsAssignments : Fn.LikeQ .varArgsAssignments .varArgsAssignments
  | vfpDef : Fn.LikeQ .vfpDef .vfpDef
  | stmt : Fn.LikeQ .stmt .stmt
  | simpleStmt : Fn.LikeQ .simpleStmt .simpleStmt
  | simpleStmtLoop (s s' : Nat) (nodes nodes' : List Tree) (seps seps' : List Token) : PL nodes nodes' → seps.map Token.bare = seps'.map Token.bare → Fn.LikeQ (.simpleStmtLoop s nodes seps) (.simpleStmtLoop s' nodes' seps')
  | smallStmt : Fn.LikeQ .smallStmt .smallStmt
  | exprStmt : Fn.LikeQ .exprStmt .exprStmt
  | assignLoop (s s' : Nat) (left left' : Tree) (nodes nodes' : List Tree) : PT left left' → PL nodes nodes' → Fn.LikeQ (.assignLoop s left nodes) (.assignLoop s' left' nodes')
  | annAssign (s s' : Nat) (left left' : Tree) : PT left left' → Fn.LikeQ (.annAssign s left) (.annAssign s' left')
  | delStmt : Fn.LikeQ .delStmt .delStmt
  | passStmt : Fn.LikeQ .passStmt .passStmt
  | flowStmt : Fn.LikeQ .flowStmt .flowStmt
  | breakStmt : Fn.LikeQ .breakStmt .breakStmt
  | continueStmt : Fn.LikeQ .continueStmt .continueStmt
  | returnStmt : Fn.LikeQ .returnStmt .returnStmt
  | yieldStmt : Fn.LikeQ .yieldStmt .yieldStmt
  | raiseStmt : Fn.LikeQ .raiseStmt .raiseStmt
  | importStmt : Fn.LikeQ .importStmt .importStmt
  | importName : Fn.LikeQ .importName .importName
  | importFrom : Fn.LikeQ .importFrom .importFrom
  | importDotLoop (s s' : Nat) (sym1 sym1' : Token) (dots dots' : List Token) : sym1.bare = sym1'.bare → dots.map Token.bare = dots'.map Token.bare → Fn.LikeQ (.importDotLoop s sym1 dots) (.importDotLoop s' sym1' dots')
  | importAsName : Fn.LikeQ .importAsName .importAsName
  | dottedAsName : Fn.LikeQ .dottedAsName .dottedAsName
  | importAsNames : Fn.LikeQ .importAsNames .importAsNames
  | importAsNamesLoop (s s' : Nat) (nodes nodes' : List Tree) (seps seps' : List Token) : PL nodes nodes' → seps.map Token.bare = seps'.map Token.bare → Fn.LikeQ (.importAsNamesLoop s nodes seps) (.importAsNamesLoop s' nodes' seps')
  | dottedAsNames : Fn.LikeQ .dottedAsNames .dottedAsNames
  | dottedAsNamesLoop (s s' : Nat) (nodes nodes' : List Tree) (seps seps' : List Token) : PL nodes nodes' → seps.map Token.bare = seps'.map Token.bare → Fn.LikeQ (.dottedAsNamesLoop s nodes seps) (.dottedAsNamesLoop s' nodes' seps')
  | dottedName : Fn.LikeQ .dottedName .dottedName
  | dottedNameLoop (s s' : Nat) (nodes nodes' : List Token) (seps seps' : List Token) : nodes.map Token.bare = nodes'.map Token.bare → seps.map Token.bare = seps'.map Token.bare → Fn.LikeQ (.dottedNameLoop s nodes seps) (.dottedNameLoop s' nodes' seps')
  | globalStmt : Fn.LikeQ .globalStmt .globalStmt
  | globalLoop (s s' : Nat) (sym sym' : Token) (nodes nodes' : List Token) (seps seps' : List Token) : sym.bare = sym'.bare → nodes.map Token.bare = nodes'.map Token.bare → seps.map Token.bare = seps'.map Token.bare → Fn.LikeQ (.globalLoop s sym nodes seps) (.globalLoop s' sym' nodes' seps')
  | nonlocalStmt : Fn.LikeQ .nonlocalStmt .nonlocalStmt
  | nonlocalLoop (s s' : Nat) (sym sym' : Token) (nodes nodes' : List Token) (seps seps' : List Token) : sym.bare = sym'.bare → nodes.map Token.bare = nodes'.map Token.bare → seps.map Token.bare = seps'.map Token.bare → Fn.LikeQ (.nonlocalLoop s sym nodes seps) (.nonlocalLoop s' sym' nodes' seps')
  | assertStmt : Fn.LikeQ .assertStmt .assertStmt
  | compoundStmt : Fn.LikeQ .compoundStmt .compoundStmt
  | asyncStmt : Fn.LikeQ .asyncStmt .asyncStmt
  | ifStmt : Fn.LikeQ .ifStmt .ifStmt
  | ifLoop (s s' : Nat) (sym1 sym1' : Token) (left left' : Tree) (sym2 sym2' : Token) (right right' : Tree) (nodes nodes' : List Tree) : sym1.bare = sym1'.bare → PT left left' → sym2.bare = sym2'.bare → PT right right' → PL nodes nodes' → Fn.LikeQ (.ifLoop s sym1 left sym2 right nodes) (.ifLoop s' sym1' left' sym2' right' nodes')
  | elifStmt : Fn.LikeQ .elifStmt .elifStmt
  | elseStmt : Fn.LikeQ .elseStmt .elseStmt
  | whileStmt : Fn.LikeQ .whileStmt .whileStmt
  | forStmt : Fn.LikeQ .forStmt .forStmt
  | tryStmt : Fn.LikeQ .tryStmt .tryStmt
  | tryLoop (s s' : Nat) (sym1 sym1' : Token) (sym2 sym2' : Token) (left left' : Tree) (nodes nodes' : List Tree) : sym1.bare = sym1'.bare → sym2.bare = sym2'.bare → PT left left' → PL nodes nodes' → Fn.LikeQ (.tryLoop s sym1 sym2 left nodes) (.tryLoop s' sym1' sym2' left' nodes')
  | finallyStmt : Fn.LikeQ .finallyStmt .finallyStmt
  | withStmt : Fn.LikeQ .withStmt .withStmt
  | withParenLoop (s s' : Nat) (sym1 sym1' : Token) (lpar lpar' : Token) (nodes nodes' : List Tree) (seps seps' : List Token) : sym1.bare = sym1'.bare → lpar.bare = lpar'.bare → PL nodes nodes' → seps.map Token.bare = seps'.map Token.bare → Fn.LikeQ (.withParenLoop s sym1 lpar nodes seps) (.withParenLoop s' sym1' lpar' nodes' seps')
  | withLoop (s s' : Nat) (sym1 sym1' : Token) (nodes nodes' : List Tree) (seps seps' : List Token) : sym1.bare = sym1'.bare → PL nodes nodes' → seps.map Token.bare = seps'.map Token.bare → Fn.LikeQ (.withLoop s sym1 nodes seps) (.withLoop s' sym1' nodes' seps')
  | withItem : Fn.LikeQ .withItem .withItem
  | exceptStmt : Fn.LikeQ .exceptStmt .exceptStmt
  | exceptClause : Fn.LikeQ .exceptClause .exceptClause
  | suite : Fn.LikeQ .suite .suite
  | suiteLoop (s s' : Nat) (sym1 sym1' : Token) (sym2 sym2' : Token) (nodes nodes' : List Tree) : sym1.bare = sym1'.bare → sym2.bare = sym2'.bare → PL nodes nodes' → Fn.LikeQ (.suiteLoop s sym1 sym2 nodes) (.suiteLoop s' sym1' sym2' nodes')
  | evalInput : Fn.LikeQ .evalInput .evalInput
  | evalLoop (s s' : Nat) (right right' : Tree) (seps seps' : List Token) : PT right right' → seps.map Token.bare = seps'.map Token.bare → Fn.LikeQ (.evalLoop s right seps) (.evalLoop s' right' seps')
  | fileInput : Fn.LikeQ .fileInput .fileInput
  | fileLoop (s s' : Nat) (nodes nodes' : List Tree) (seps seps' : List Token) : PL nodes nodes' → seps.map Token.bare = seps'.map Token.bare → Fn.LikeQ (.fileLoop s nodes seps) (.fileLoop s' nodes' seps')
  | singleInput : Fn.LikeQ .singleInput .singleInput
  | funcTypeInput : Fn.LikeQ .funcTypeInput .funcTypeInput
  | funcTypeLoop (s s' : Nat) (right right' : Tree) (seps seps' : List Token) : PT right right' → seps.map Token.bare = seps'.map Token.bare → Fn.LikeQ (.funcTypeLoop s right seps) (.funcTypeLoop s' right' seps')
  | decorator : Fn.LikeQ .decorator .decorator
  | decorators : Fn.LikeQ .decorators .decorators
  | decoratorsLoop (s s' : Nat) (nodes nodes' : List Tree) : PL nodes nodes' → Fn.LikeQ (.decoratorsLoop s nodes) (.decoratorsLoop s' nodes')
  | decorated : Fn.LikeQ .decorated .decorated
  | asyncFuncDef : Fn.LikeQ .asyncFuncDef .asyncFuncDef
  | funcDef : Fn.LikeQ .funcDef .funcDef
  | parameters : Fn.LikeQ .parameters .parameters
  | typedArgsList : Fn.LikeQ .typedArgsList .typedArgsList
  | tfpDefAssign : Fn.LikeQ .tfpDefAssign .tfpDefAssign
  | tfpDef : Fn.LikeQ .tfpDef .tfpDef
  | funcBodySuite : Fn.LikeQ .funcBodySuite .funcBodySuite
  | funcBodyLoop (s s' : Nat) (sym1 sym1' : Token) (tc tc' : Tree) (tcnl tcnl' : Tree) (sym2 sym2' : Token) (nodes nodes' : List Tree) : sym1.bare = sym1'.bare → PT tc tc' → PT tcnl tcnl' → sym2.bare = sym2'.bare → PL nodes nodes' → Fn.LikeQ (.funcBodyLoop s sym1 tc tcnl sym2 nodes) (.funcBodyLoop s' sym1' tc' tcnl' sym2' nodes')
  | classDef : Fn.LikeQ .classDef .classDef
  | funcType : Fn.LikeQ .funcType .funcType
  | typeList : Fn.LikeQ .typeList .typeList
  | typeListMainLoop (s s' : Nat) (v v' : VA) : PV v v' → Fn.LikeQ (.typeListMainLoop s v) (.typeListMainLoop s' v')
  | typeListStarLoop (s s' : Nat) (v v' : VA) : PV v v' → Fn.LikeQ (.typeListStarLoop s v) (.typeListStarLoop s' v')
  | patternsMatch : Fn.LikeQ .patternsMatch .patternsMatch

/-! ### The logic -/

/-- Functions whose sentences end as in `lastOf`. -/
def FnEnds : Fn → Bool
  | .atom | .atomExpr | .power | .factor | .term | .arith | .shift | .andExpr | .xorExpr | .expr | .starExpr | .comparison
  | .notTest | .andTest | .orTest | .noCondTest | .test | .namedExpression | .trailer => true
  | _ => false

/-- Functions that may be called where the number is. -/
def FnSafe : Fn → Bool
  | .trailerLoop .. | .trailer | .termLoop .. | .arithLoop .. | .shiftLoop .. | .andExprLoop .. | .xorExprLoop .. | .exprLoop ..
  | .comparisonLoop .. | .andTestLoop .. | .orTestLoop .. | .lambdaDef _ | .evalInput | .fileInput | .singleInput | .funcTypeInput => false
  | _ => true

/-- Functions that fail where the number is. -/
def NumFails : Fn → Bool
  | .importAsNames | .importAsName | .dottedName | .parameters | .funcType => true
  | _ => false

/-- Where the first parser is: before the number (perhaps with the current symbol known), at it, behind it. -/
inductive PMode
  | pre (o : Option Token)
  | at
  | post

/-- Values that are alike. -/
class LkQ (α : Type) where
  rel : α → α → Prop
instance : LkQ Tree := ⟨PT⟩
instance : LkQ Nat := ⟨fun _ _ => True⟩
instance : LkQ Unit := ⟨fun _ _ => True⟩

/-- A body that fails at the number. -/
inductive DeadAt {α : Type} : Prog α → Prop
  | fail {p m} : DeadAt (.fail p m)
  | panic : DeadAt .panic
  | getPos {k} : (∀ p, DeadAt (k p)) → DeadAt (.getPos k)
  | sym {k x} : DeadAt (k num) → DeadAt (.sym k x)
  | call {f k} : NumFails f = true → DeadAt (.call f k)

/-- Two bodies of which the second does what the first one does. -/
inductive RelQ {α : Type} [LkQ α] : PMode → Prog α → Prog α → Prop
  | ret {m a b} : LkQ.rel a b → RelQ m (.ret a) (.ret b)
  | fail {m p s q} : RelQ m (.fail p s) q
  | panic {m q} : RelQ m .panic q
  | dead {p q} : DeadAt p → RelQ .at p q
  | getPos {m k l} : (∀ p q, RelQ m (k p) (l q)) → RelQ m (.getPos k) (.getPos l)
  | sym {o k l x y} : (∀ t u, TT t u → RelQ (.pre (some t)) (k t) (l u)) → RelQ (.pre none) x y → RelQ (.pre o) (.sym k x) (.sym l y)
  | symAt {k l x y} : RelQ .at (k num) (l lp) → RelQ .at (.sym k x) (.sym l y)
  | symPost {k l x y} : (∀ t u, TT t u → RelQ .post (k t) (l u)) → RelQ .post x y → RelQ .post (.sym k x) (.sym l y)
  | adv {o k l} : RelQ (.pre none) k l → RelQ .at k l → RelQ (.pre o) (.adv k) (.adv l)
  | advLast {t k l} : lastOf t.kind = true → RelQ (.pre none) k l → RelQ (.pre (some t)) (.adv k) (.adv l)
  | advPost {k l} : RelQ .post k l → RelQ .post (.adv k) (.adv l)
  | callEnds {o f g k l} : FnEnds f = true → Fn.LikeQ f g → (∀ t u, PT t u → RelQ (.pre none) (k t) (l u)) →
      RelQ (.pre o) (.call f k) (.call g l)
  | call {o f g k l} : Fn.LikeQ f g → (∀ t u, PT t u → RelQ (.pre none) (k t) (l u)) →
      (∀ t u, PT t u → RelQ .at (k t) (l u)) → RelQ (.pre o) (.call f k) (.call g l)
  | callAtEnds {f g k l} : FnEnds f = true → FnSafe f = true → Fn.LikeQ f g → (∀ t u, PT t u → RelQ .post (k t) (l u)) →
      RelQ .at (.call f k) (.call g l)
  | callAt {f g k l} : FnSafe f = true → Fn.LikeQ f g → (∀ t u, PT t u → RelQ .post (k t) (l u)) →
      (∀ t u, PT t u → RelQ .at (k t) (l u)) → RelQ .at (.call f k) (.call g l)
  | callPost {f g k l} : Fn.LikeQ f g → (∀ t u, PT t u → RelQ .post (k t) (l u)) → RelQ .post (.call f k) (.call g l)
  | getExc {m k l} : (∀ x, RelQ m (k x) (l x)) → RelQ m (.getExc k) (.getExc l)
  | setExc {m x k l} : RelQ m k l → RelQ m (.setExc x k) (.setExc x l)

theorem RelQ.post {α : Type} [LkQ α] {m} {p q : Prog α} (h : RelQ m p q) : ∀ {o}, m = .pre o → RelQ .post p q := by
  induction h with
  | ret h => intro o _; exact .ret h
  | fail => intro o _; exact .fail
  | panic => intro o _; exact .panic
  | dead | symAt | callAtEnds | callAt => intro o h; cases h
  | getPos _ ih => intro o e; exact .getPos fun p q => ih p q e
  | sym _ _ ih1 ih2 => intro o _; exact .symPost (fun t u h => ih1 t u h rfl) (ih2 rfl)
  | symPost h1 h2 => intro o _; exact .symPost h1 h2
  | adv _ _ ih | advLast _ _ ih => intro o _; exact .advPost (ih rfl)
  | advPost h => intro o _; exact .advPost h
  | callEnds _ h _ ih | call h _ _ ih => intro o _; exact .callPost h fun t u x => ih t u x rfl
  | callPost h1 h2 => intro o _; exact .callPost h1 h2
  | getExc _ ih => intro o e; exact .getExc fun x => ih x e
  | setExc _ ih => intro o e; exact .setExc (ih e)

end
end Verif
