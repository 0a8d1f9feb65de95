import Verif.Spec.Graft
import Verif.Proof.Subst
import Verif.Proof.Ev
import Verif.Proof.Plug

/-!
# Two runs of a parse function, with two bodies of one block
-/

namespace Verif

/-- The line end before the block, and the statements (without positions) of its new body. -/
class Graft where
  nl : Token
  xs : List Tree

section
variable [Graft]
open Graft

/-- Trees, lists of trees: the first one is the second one with `xs` in the place of the body. -/
abbrev GT (t u : Tree) : Prop := t.graft nl xs = u.erase Token.bare
abbrev GL (t u : List Tree) : Prop := graftList t nl xs = eraseList Token.bare u
structure GV (v w : VA) : Prop where
  nodes : GL v.nodes w.nodes
  seps : v.seps.map Token.bare = w.seps.map Token.bare
  mulS : GT v.mulS w.mulS
  mulN : GT v.mulN w.mulN
  powS : GT v.powS w.powS
  powN : GT v.powN w.powN
  div : GT v.div w.div

theorem graftList_append (a b : List Tree) (x r) : graftList (a ++ b) x r = graftList a x r ++ graftList b x r := by
  induction a with
  | nil => rfl
  | cons t a ih => simp [graftList, ih]
theorem graftList_eq_map (a : List Tree) (x r) : graftList a x r = a.map (Tree.graft · x r) := by
  induction a with
  | nil => rfl
  | cons t a ih => simp [graftList, ih]
theorem graftList_toks (a : List Token) (x r) : graftList (a.map .tok) x r = (a.map Token.bare).map .tok := by
  induction a with
  | nil => rfl
  | cons t a ih => simp [graftList, Tree.graft, ih]

/-- Calls that are alike. -/
inductive Fn.LikeG : Fn → Fn → Prop
  | atom : Fn.LikeG .atom .atom
  | atomStrLoop (s s' : Nat) (toks toks' : List Token) : toks.map Token.bare = toks'.map Token.bare → Fn.LikeG (.atomStrLoop s toks) (.atomStrLoop s' toks')
  | atomExpr : Fn.LikeG .atomExpr .atomExpr
  | trailerLoop (s s' : Nat) (await await' : Tree) (right right' : Tree) (lst lst' : List Tree) : GT await await' → GT right right' → GL lst lst' → Fn.LikeG (.trailerLoop s await right lst) (.trailerLoop s' await' right' lst')
  | power : Fn.LikeG .power .power
  | factor : Fn.LikeG .factor .factor
  | term : Fn.LikeG .term .term
  | termLoop (s s' : Nat) (left left' : Tree) : GT left left' → Fn.LikeG (.termLoop s left) (.termLoop s' left')
  | arith : Fn.LikeG .arith .arith
  | arithLoop (s s' : Nat) (left left' : Tree) : GT left left' → Fn.LikeG (.arithLoop s left) (.arithLoop s' left')
  | shift : Fn.LikeG .shift .shift
  | shiftLoop (s s' : Nat) (left left' : Tree) : GT left left' → Fn.LikeG (.shiftLoop s left) (.shiftLoop s' left')
  | andExpr : Fn.LikeG .andExpr .andExpr
  | andExprLoop (s s' : Nat) (left left' : Tree) : GT left left' → Fn.LikeG (.andExprLoop s left) (.andExprLoop s' left')
  | xorExpr : Fn.LikeG .xorExpr .xorExpr
  | xorExprLoop (s s' : Nat) (left left' : Tree) : GT left left' → Fn.LikeG (.xorExprLoop s left) (.xorExprLoop s' left')
  | expr : Fn.LikeG .expr .expr
  | exprLoop (s s' : Nat) (left left' : Tree) : GT left left' → Fn.LikeG (.exprLoop s left) (.exprLoop s' left')
  | starExpr : Fn.LikeG .starExpr .starExpr
  | comparison : Fn.LikeG .comparison .comparison
  | comparisonLoop (s s' : Nat) (left left' : Tree) : GT left left' → Fn.LikeG (.comparisonLoop s left) (.comparisonLoop s' left')
  | notTest : Fn.LikeG .notTest .notTest
  | andTest : Fn.LikeG .andTest .andTest
  | andTestLoop (s s' : Nat) (left left' : Tree) : GT left left' → Fn.LikeG (.andTestLoop s left) (.andTestLoop s' left')
  | orTest : Fn.LikeG .orTest .orTest
  | orTestLoop (s s' : Nat) (left left' : Tree) : GT left left' → Fn.LikeG (.orTestLoop s left) (.orTestLoop s' left')
  | lambdaDef (cond : Bool) : Fn.LikeG (.lambdaDef cond) (.lambdaDef cond)
  | noCondTest : Fn.LikeG .noCondTest .noCondTest
  | test : Fn.LikeG .test .test
  | namedExpression : Fn.LikeG .namedExpression .namedExpression
  | testlistComp : Fn.LikeG .testlistComp .testlistComp
  | testlistCompLoop (s s' : Nat) (nodes nodes' : List Tree) (seps seps' : List Token) : GL nodes nodes' → seps.map Token.bare = seps'.map Token.bare → Fn.LikeG (.testlistCompLoop s nodes seps) (.testlistCompLoop s' nodes' seps')
  | trailer : Fn.LikeG .trailer .trailer
  | subscriptList : Fn.LikeG .subscriptList .subscriptList
  | subscriptListLoop (s s' : Nat) (nodes nodes' : List Tree) (seps seps' : List Token) : GL nodes nodes' → seps.map Token.bare = seps'.map Token.bare → Fn.LikeG (.subscriptListLoop s nodes seps) (.subscriptListLoop s' nodes' seps')
  | subscript : Fn.LikeG .subscript .subscript
  | exprlist : Fn.LikeG .exprlist .exprlist
  | exprlistLoop (s s' : Nat) (nodes nodes' : List Tree) (seps seps' : List Token) : GL nodes nodes' → seps.map Token.bare = seps'.map Token.bare → Fn.LikeG (.exprlistLoop s nodes seps) (.exprlistLoop s' nodes' seps')
  | testlist : Fn.LikeG .testlist .testlist
  | testlistLoop (s s' : Nat) (nodes nodes' : List Tree) (seps seps' : List Token) : GL nodes nodes' → seps.map Token.bare = seps'.map Token.bare → Fn.LikeG (.testlistLoop s nodes seps) (.testlistLoop s' nodes' seps')
  | dictorsetMaker : Fn.LikeG .dictorsetMaker .dictorsetMaker
  | setLoop (s s' : Nat) (nodes nodes' : List Tree) (seps seps' : List Token) : GL nodes nodes' → seps.map Token.bare = seps'.map Token.bare → Fn.LikeG (.setLoop s nodes seps) (.setLoop s' nodes' seps')
  | arglist : Fn.LikeG .arglist .arglist
  | arglistLoop (s s' : Nat) (nodes nodes' : List Tree) (seps seps' : List Token) : GL nodes nodes' → seps.map Token.bare = seps'.map Token.bare → Fn.LikeG (.arglistLoop s nodes seps) (.arglistLoop s' nodes' seps')
  | argument : Fn.LikeG .argument .argument
  | compIter : Fn.LikeG .compIter .compIter
  | syncCompFor : Fn.LikeG .syncCompFor .syncCompFor
  | compFor : Fn.LikeG .compFor .compFor
  | compIf : Fn.LikeG .compIf .compIf
  | yieldExpr : Fn.LikeG .yieldExpr .yieldExpr
  | testlistStarExpr : Fn.LikeG .testlistStarExpr .testlistStarExpr
  | testlistStarExprLoop (s s' : Nat) (nodes nodes' : List Tree) (seps seps' : List Token) : GL nodes nodes' → seps.map Token.bare = seps'.map Token.bare → Fn.LikeG (.testlistStarExprLoop s nodes seps) (.testlistStarExprLoop s' nodes' seps')
  | varArgsList : Fn.LikeG .varArgsList .varArgsList
  | varArgsMainLoop (s s' : Nat) (v v' : VA) : GV v v' → Fn.LikeG (.varArgsMainLoop s v) (.varArgsMainLoop s' v')
  | varArgsStarLoop (s s' : Nat) (v v' : VA) : GV v v' → Fn.LikeG (.varArgsStarLoop s v) (.varArgsStarLoop s' v')
  | varArgsDivLoop (s s' : Nat) (v v' : VA) : GV v v' → Fn.LikeG (.varArgsDivLoop s v) (.varArgsDivLoop s' v')
  | varArgsAssignments : Fn.LikeG .varArgsAssignments .varArgsAssignments
  | vfpDef : Fn.LikeG .vfpDef .vfpDef
  | stmt : Fn.LikeG .stmt .stmt
  | simpleStmt : Fn.LikeG .simpleStmt .simpleStmt
  | simpleStmtLoop (s s' : Nat) (nodes nodes' : List Tree) (seps seps' : List Token) : GL nodes nodes' → seps.map Token.bare = seps'.map Token.bare → Fn.LikeG (.simpleStmtLoop s nodes seps) (.simpleStmtLoop s' nodes' seps')
  | smallStmt : Fn.LikeG .smallStmt .smallStmt
  | exprStmt : Fn.LikeG .exprStmt .exprStmt
  | assignLoop (s s' : Nat) (left left' : Tree) (nodes nodes' : List Tree) : GT left left' → GL nodes nodes' → Fn.LikeG (.assignLoop s left nodes) (.assignLoop s' left' nodes')
  | annAssign (s s' : Nat) (left left' : Tree) : GT left left' → Fn.LikeG (.annAssign s left) (.annAssign s' left')
  | delStmt : Fn.LikeG .delStmt .delStmt
  | passStmt : Fn.LikeG .passStmt .passStmt
  | flowStmt : Fn.LikeG .flowStmt .flowStmt
  | breakStmt : Fn.LikeG .breakStmt .breakStmt
  | continueStmt : Fn.LikeG .continueStmt .continueStmt
  | returnStmt : Fn.LikeG .returnStmt .returnStmt
  | yieldStmt : Fn.LikeG .yieldStmt .yieldStmt
  | raiseStmt : Fn.LikeG .raiseStmt .raiseStmt
  | importStmt : Fn.LikeG .importStmt .importStmt
  | importName : Fn.LikeG .importName .importName
  | importFrom : Fn.LikeG .importFrom .importFrom
  | importDotLoop (s s' : Nat) (sym1 sym1' : Token) (dots dots' : List Token) : sym1.bare = sym1'.bare → dots.map Token.bare = dots'.map Token.bare → Fn.LikeG (.importDotLoop s sym1 dots) (.importDotLoop s' sym1' dots')
  | importAsName : Fn.LikeG .importAsName .importAsName
  | dottedAsName : Fn.LikeG .dottedAsName .dottedAsName
  | importAsNames : Fn.LikeG .importAsNames .importAsNames
  | importAsNamesLoop (s s' : Nat) (nodes nodes' : List Tree) (seps seps' : List Token) : GL nodes nodes' → seps.map Token.bare = seps'.map Token.bare → Fn.LikeG (.importAsNamesLoop s nodes seps) (.importAsNamesLoop s' nodes' seps')
  | dottedAsNames : Fn.LikeG .dottedAsNames .dottedAsNames
  | dottedAsNamesLoop (s s' : Nat) (nodes nodes' : List Tree) (seps seps' : List Token) : GL nodes nodes' → seps.map Token.bare = seps'.map Token.bare → Fn.LikeG (.dottedAsNamesLoop s nodes seps) (.dottedAsNamesLoop s' nodes' seps')
  | dottedName : Fn.LikeG .dottedName .dottedName
  | dottedNameLoop (s s' : Nat) (nodes nodes' : List Token) (seps seps' : List Token) : nodes.map Token.bare = nodes'.map Token.bare → seps.map Token.bare = seps'.map Token.bare → Fn.LikeG (.dottedNameLoop s nodes seps) (.dottedNameLoop s' nodes' seps')
  | globalStmt : Fn.LikeG .globalStmt .globalStmt
  | globalLoop (s s' : Nat) (sym sym' : Token) (nodes nodes' : List Token) (seps seps' : List Token) : sym.bare = sym'.bare → nodes.map Token.bare = nodes'.map Token.bare → seps.map Token.bare = seps'.map Token.bare → Fn.LikeG (.globalLoop s sym nodes seps) (.globalLoop s' sym' nodes' seps')
  | nonlocalStmt : Fn.LikeG .nonlocalStmt .nonlocalStmt
  | nonlocalLoop (s s' : Nat) (sym sym' : Token) (nodes nodes' : List Token) (seps seps' : List Token) : sym.bare = sym'.bare → nodes.map Token.bare = nodes'.map Token.bare → seps.map Token.bare = seps'.map Token.bare → Fn.LikeG (.nonlocalLoop s sym nodes seps) (.nonlocalLoop s' sym' nodes' seps')
  | assertStmt : Fn.LikeG .assertStmt .assertStmt
  | compoundStmt : Fn.LikeG .compoundStmt .compoundStmt
  | asyncStmt : Fn.LikeG .asyncStmt .asyncStmt
  | ifStmt : Fn.LikeG .ifStmt .ifStmt
  | ifLoop (s s' : Nat) (sym1 sym1' : Token) (left left' : Tree) (sym2 sym2' : Token) (right right' : Tree) (nodes nodes' : List Tree) : sym1.bare = sym1'.bare → GT left left' → sym2.bare = sym2'.bare → GT right right' → GL nodes nodes' → Fn.LikeG (.ifLoop s sym1 left sym2 right nodes) (.ifLoop s' sym1' left' sym2' right' nodes')
  | elifStmt : Fn.LikeG .elifStmt .elifStmt
  | elseStmt : Fn.LikeG .elseStmt .elseStmt
  | whileStmt : Fn.LikeG .whileStmt .whileStmt
  | forStmt : Fn.LikeG .forStmt .forStmt
  | tryStmt : Fn.LikeG .tryStmt .tryStmt
  | tryLoop (s s' : Nat) (sym1 sym1' : Token) (sym2 sym2' : Token) (left left' : Tree) (nodes nodes' : List Tree) : sym1.bare = sym1'.bare → sym2.bare = sym2'.bare → GT left left' → GL nodes nodes' → Fn.LikeG (.tryLoop s sym1 sym2 left nodes) (.tryLoop s' sym1' sym2' left' nodes')
  | finallyStmt : Fn.LikeG .finallyStmt .finallyStmt
  | withStmt : Fn.LikeG .withStmt .withStmt
  | withParenLoop (s s' : Nat) (sym1 sym1' : Token) (lpar lpar' : Token) (nodes nodes' : List Tree) (seps seps' : List Token) : sym1.bare = sym1'.bare → lpar.bare = lpar'.bare → GL nodes nodes' → seps.map Token.bare = seps'.map Token.bare → Fn.LikeG (.withParenLoop s sym1 lpar nodes seps) (.withParenLoop s' sym1' lpar' nodes' seps')
  | withLoop (s s' : Nat) (sym1 sym1' : Token) (nodes nodes' : List Tree) (seps seps' : List Token) : sym1.bare = sym1'.bare → GL nodes nodes' → seps.map Token.bare = seps'.map Token.bare → Fn.LikeG (.withLoop s sym1 nodes seps) (.withLoop s' sym1' nodes' seps')
  | withItem : Fn.LikeG .withItem .withItem
  | exceptStmt : Fn.LikeG .exceptStmt .exceptStmt
  | exceptClause : Fn.LikeG .exceptClause .exceptClause
  | suite : Fn.LikeG .suite .suite
  | suiteLoop (s s' : Nat) (sym1 sym1' : Token) (sym2 sym2' : Token) (nodes nodes' : List Tree) : sym1 ≠ nl → sym1.bare = sym1'.bare → sym2.bare = sym2'.bare → GL nodes nodes' → Fn.LikeG (.suiteLoop s sym1 sym2 nodes) (.suiteLoop s' sym1' sym2' nodes')
  | evalInput : Fn.LikeG .evalInput .evalInput
  | evalLoop (s s' : Nat) (right right' : Tree) (seps seps' : List Token) : GT right right' → seps.map Token.bare = seps'.map Token.bare → Fn.LikeG (.evalLoop s right seps) (.evalLoop s' right' seps')
  | fileInput : Fn.LikeG .fileInput .fileInput
  | fileLoop (s s' : Nat) (nodes nodes' : List Tree) (seps seps' : List Token) : GL nodes nodes' → seps.map Token.bare = seps'.map Token.bare → Fn.LikeG (.fileLoop s nodes seps) (.fileLoop s' nodes' seps')
  | singleInput : Fn.LikeG .singleInput .singleInput
  | funcTypeInput : Fn.LikeG .funcTypeInput .funcTypeInput
  | funcTypeLoop (s s' : Nat) (right right' : Tree) (seps seps' : List Token) : GT right right' → seps.map Token.bare = seps'.map Token.bare → Fn.LikeG (.funcTypeLoop s right seps) (.funcTypeLoop s' right' seps')
  | decorator : Fn.LikeG .decorator .decorator
  | decorators : Fn.LikeG .decorators .decorators
  | decoratorsLoop (s s' : Nat) (nodes nodes' : List Tree) : GL nodes nodes' → Fn.LikeG (.decoratorsLoop s nodes) (.decoratorsLoop s' nodes')
  | decorated : Fn.LikeG .decorated .decorated
  | asyncFuncDef : Fn.LikeG .asyncFuncDef .asyncFuncDef
  | funcDef : Fn.LikeG .funcDef .funcDef
  | parameters : Fn.LikeG .parameters .parameters
  | typedArgsList : Fn.LikeG .typedArgsList .typedArgsList
  | tfpDefAssign : Fn.LikeG .tfpDefAssign .tfpDefAssign
  | tfpDef : Fn.LikeG .tfpDef .tfpDef
  | funcBodySuite : Fn.LikeG .funcBodySuite .funcBodySuite
  | funcBodyLoop (s s' : Nat) (sym1 sym1' : Token) (tc tc' : Tree) (tcnl tcnl' : Tree) (sym2 sym2' : Token) (nodes nodes' : List Tree) : sym1 ≠ nl → sym1.bare = sym1'.bare → GT tc tc' → GT tcnl tcnl' → sym2.bare = sym2'.bare → GL nodes nodes' → Fn.LikeG (.funcBodyLoop s sym1 tc tcnl sym2 nodes) (.funcBodyLoop s' sym1' tc' tcnl' sym2' nodes')
  | classDef : Fn.LikeG .classDef .classDef
  | funcType : Fn.LikeG .funcType .funcType
  | typeList : Fn.LikeG .typeList .typeList
  | typeListMainLoop (s s' : Nat) (v v' : VA) : GV v v' → Fn.LikeG (.typeListMainLoop s v) (.typeListMainLoop s' v')
  | typeListStarLoop (s s' : Nat) (v v' : VA) : GV v v' → Fn.LikeG (.typeListStarLoop s v) (.typeListStarLoop s' v')
  | patternsMatch : Fn.LikeG .patternsMatch .patternsMatch

/-! ### The logic -/

/-- Functions that look at the current symbol before they go on. -/
def FnLooks : Fn → Bool
  | .lambdaDef _ | .evalInput | .fileInput | .singleInput | .funcTypeInput => false
  | _ => true

/-- Values that are alike. -/
class LkG (α : Type) where
  rel : α → α → Prop
instance : LkG Tree := ⟨GT⟩
instance : LkG Nat := ⟨fun _ _ => True⟩
instance : LkG Unit := ⟨fun _ _ => True⟩

/-- Two bodies of which the second does what the first one does, and which do not go past an indent.  `o`: the current
symbol of the first, if it is known; `w`: the symbol before it is known not to be the end of a line. -/
inductive RelG {α : Type} [LkG α] : Bool → Option Token → Prog α → Prog α → Prop
  | ret {w o a b} : LkG.rel a b → RelG w o (.ret a) (.ret b)
  | fail {w o p s q} : RelG w o (.fail p s) q
  | panic {w o q} : RelG w o .panic q
  | getPos {w o k l} : (∀ p q, RelG w o (k p) (l q)) → RelG w o (.getPos k) (.getPos l)
  | sym {w o k l x y} : (∀ t u, t.bare = u.bare → RelG w (some t) (k t) (l u)) → RelG w none x y → RelG w o (.sym k x) (.sym l y)
  | symAgain {w t k l x y} : (∀ u, t.bare = u.bare → RelG w (some t) (k t) (l u)) → RelG w (some t) (.sym k x) (.sym l y)
  | adv {w t k l} : t.kind ≠ .Indent → RelG false none k l → RelG w (some t) (.adv k) (.adv l)
  | advN {w t k l} : t.kind ≠ .Indent → t.kind ≠ .Newline → RelG true none k l → RelG w (some t) (.adv k) (.adv l)
  | advNe {w t k l} : t.kind ≠ .Indent → t ≠ nl → RelG true none k l → RelG w (some t) (.adv k) (.adv l)
  | advTC {w t k l p s y} : t.kind = .TypeComment → (∀ t' u', t'.bare = u'.bare → t' ≠ nl → RelG true (some t') (k t') (l u')) →
      RelG w (some t) (.adv (.sym k (.fail p s))) (.adv (.sym l y))
  | advT {t k l} : RelG false none k l → RelG true (some t) (.adv k) (.adv l)
  | callEnds {w o f g k l} : FnLooks f = true → FnEnds f = true → Fn.LikeG f g → (∀ t u, GT t u → RelG true none (k t) (l u)) →
      RelG w o (.call f k) (.call g l)
  | call {w o f g k l} : FnLooks f = true → Fn.LikeG f g → (∀ t u, GT t u → RelG false none (k t) (l u)) → RelG w o (.call f k) (.call g l)
  | callAt {w t f g k l} : f.input = false → t.kind ≠ .Indent → Fn.LikeG f g → (∀ t u, GT t u → RelG false none (k t) (l u)) →
      RelG w (some t) (.call f k) (.call g l)
  | getExc {w o k l} : (∀ x, RelG w o (k x) (l x)) → RelG w o (.getExc k) (.getExc l)
  | setExc {w o x k l} : RelG w o k l → RelG w o (.setExc x k) (.setExc x l)

end
end Verif
