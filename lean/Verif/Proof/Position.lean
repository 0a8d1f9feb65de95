import Verif.Spec.Position
import Verif.Proof.View

/-!
# A logic for the positions that parse functions use
-/

namespace Verif
set_option linter.unusedVariables false
variable {Q : Nat → Prop}

theorem allPos_append {a b : List Tree} : allPosList Q (a ++ b) ↔ allPosList Q a ∧ allPosList Q b := by
  induction a with
  | nil => simp [allPosList]
  | cons x a ih => simp [allPosList, ih, and_assoc]
theorem allPos_iff {a : List Tree} : allPosList Q a ↔ ∀ t ∈ a, t.AllPos Q := by
  induction a with
  | nil => simp [allPosList]
  | cons x a ih => simp [allPosList, ih]
theorem allPos_reverse {a : List Tree} : allPosList Q a.reverse ↔ allPosList Q a := by simp [allPos_iff]
theorem allPos_toks (a : List Token) : (Tree.toks a).AllPos Q ↔ True := by
  simp [Tree.toks, Tree.AllPos, allPos_iff]

def VA.AllPos (Q : Nat → Prop) (v : VA) : Prop :=
  allPosList Q v.nodes ∧ v.mulS.AllPos Q ∧ v.mulN.AllPos Q ∧ v.powS.AllPos Q ∧ v.powN.AllPos Q ∧ v.div.AllPos Q

/-- The positions in the arguments of a call. -/
def Fn.AllPos (Q : Nat → Prop) : Fn → Prop
  | .atom => True
  | .atomStrLoop s _ => Q s
  | .atomExpr => True
  | .trailerLoop s await right lst => Q s ∧ Tree.AllPos Q await ∧ Tree.AllPos Q right ∧ allPosList Q lst
  | .power => True
  | .factor => True
  | .term => True
  | .termLoop s left => Q s ∧ Tree.AllPos Q left
  | .arith => True
  | .arithLoop s left => Q s ∧ Tree.AllPos Q left
  | .shift => True
  | .shiftLoop s left => Q s ∧ Tree.AllPos Q left
  | .andExpr => True
  | .andExprLoop s left => Q s ∧ Tree.AllPos Q left
  | .xorExpr => True
  | .xorExprLoop s left => Q s ∧ Tree.AllPos Q left
  | .expr => True
  | .exprLoop s left => Q s ∧ Tree.AllPos Q left
  | .starExpr => True
  | .comparison => True
  | .comparisonLoop s left => Q s ∧ Tree.AllPos Q left
  | .notTest => True
  | .andTest => True
  | .andTestLoop s left => Q s ∧ Tree.AllPos Q left
  | .orTest => True
  | .orTestLoop s left => Q s ∧ Tree.AllPos Q left
  | .lambdaDef _ => True
  | .noCondTest => True
  | .test => True
  | .namedExpression => True
  | .testlistComp => True
  | .testlistCompLoop s nodes _ => Q s ∧ allPosList Q nodes
  | .trailer => True
  | .subscriptList => True
  | .subscriptListLoop s nodes _ => Q s ∧ allPosList Q nodes
  | .subscript => True
  | .exprlist => True
  | .exprlistLoop s nodes _ => Q s ∧ allPosList Q nodes
  | .testlist => True
  | .testlistLoop s nodes _ => Q s ∧ allPosList Q nodes
  | .dictorsetMaker => True
  | .setLoop s nodes _ => Q s ∧ allPosList Q nodes
  | .arglist => True
  | .arglistLoop s nodes _ => Q s ∧ allPosList Q nodes
  | .argument => True
  | .compIter => True
  | .syncCompFor => True
  | .compFor => True
  | .compIf => True
  | .yieldExpr => True
  | .testlistStarExpr => True
  | .testlistStarExprLoop s nodes _ => Q s ∧ allPosList Q nodes
  | .varArgsList => True
  | .varArgsMainLoop s v => Q s ∧ VA.AllPos Q v
  | .varArgsStarLoop s v => Q s ∧ VA.AllPos Q v
  | .varArgsDivLoop s v => Q s ∧ VA.AllPos Q v
  | .varArgsAssignments => True
  | .vfpDef => True
  | .stmt => True
  | .simpleStmt => True
  | .simpleStmtLoop s nodes _ => Q s ∧ allPosList Q nodes
  | .smallStmt => True
  | .exprStmt => True
  | .assignLoop s left nodes => Q s ∧ Tree.AllPos Q left ∧ allPosList Q nodes
  | .annAssign s left => Q s ∧ Tree.AllPos Q left
  | .delStmt => True
  | .passStmt => True
  | .flowStmt => True
  | .breakStmt => True
  | .continueStmt => True
  | .returnStmt => True
  | .yieldStmt => True
  | .raiseStmt => True
  | .importStmt => True
  | .importName => True
  | .importFrom => True
  | .importDotLoop s _ _ => Q s
  | .importAsName => True
  | .dottedAsName => True
  | .importAsNames => True
  | .importAsNamesLoop s nodes _ => Q s ∧ allPosList Q nodes
  | .dottedAsNames => True
  | .dottedAsNamesLoop s nodes _ => Q s ∧ allPosList Q nodes
  | .dottedName => True
  | .dottedNameLoop s _ _ => Q s
  | .globalStmt => True
  | .globalLoop s _ _ _ => Q s
  | .nonlocalStmt => True
  | .nonlocalLoop s _ _ _ => Q s
  | .assertStmt => True
  | .compoundStmt => True
  | .asyncStmt => True
  | .ifStmt => True
  | .ifLoop s _ left _ right nodes => Q s ∧ Tree.AllPos Q left ∧ Tree.AllPos Q right ∧ allPosList Q nodes
  | .elifStmt => True
  | .elseStmt => True
  | .whileStmt => True
  | .forStmt => True
  | .tryStmt => True
  | .tryLoop s _ _ left nodes => Q s ∧ Tree.AllPos Q left ∧ allPosList Q nodes
  | .finallyStmt => True
  | .withStmt => True
  | .withParenLoop s _ _ nodes _ => Q s ∧ allPosList Q nodes
  | .withLoop s _ nodes _ => Q s ∧ allPosList Q nodes
  | .withItem => True
  | .exceptStmt => True
  | .exceptClause => True
  | .suite => True
  | .suiteLoop s _ _ nodes => Q s ∧ allPosList Q nodes
  | .evalInput => True
  | .evalLoop s right _ => Q s ∧ Tree.AllPos Q right
  | .fileInput => True
  | .fileLoop s nodes _ => Q s ∧ allPosList Q nodes
  | .singleInput => True
  | .funcTypeInput => True
  | .funcTypeLoop s right _ => Q s ∧ Tree.AllPos Q right
  | .decorator => True
  | .decorators => True
  | .decoratorsLoop s nodes => Q s ∧ allPosList Q nodes
  | .decorated => True
  | .asyncFuncDef => True
  | .funcDef => True
  | .parameters => True
  | .typedArgsList => True
  | .tfpDefAssign => True
  | .tfpDef => True
  | .funcBodySuite => True
  | .funcBodyLoop s _ tc tcnl _ nodes => Q s ∧ Tree.AllPos Q tc ∧ Tree.AllPos Q tcnl ∧ allPosList Q nodes
  | .classDef => True
  | .funcType => True
  | .typeList => True
  | .typeListMainLoop s v => Q s ∧ VA.AllPos Q v
  | .typeListStarLoop s v => Q s ∧ VA.AllPos Q v
  | .patternsMatch => True

class Ps (Q : Nat → Prop) (α : Type) where
  ok : α → Prop
instance : Ps Q Tree := ⟨Tree.AllPos Q⟩
instance : Ps Q Nat := ⟨Q⟩
instance : Ps Q Unit := ⟨fun _ => True⟩
instance : Ps Q Token := ⟨fun _ => True⟩
instance {α} [Ps Q α] : Ps Q (Option α) := ⟨fun a => ∀ x, a = some x → Ps.ok Q x⟩

/-- A body that uses only positions that satisfy `Q`, if those of its symbols do. -/
def PosP (Q : Nat → Prop) {α : Type} [Ps Q α] : Prog α → Prop
  | .ret a => Ps.ok Q a
  | .fail p _ => Q p
  | .panic => True
  | .getPos k => ∀ p, Q p → PosP Q (k p)
  | .sym k x => (∀ t, PosP Q (k t)) ∧ PosP Q x
  | .adv k => PosP Q k
  | .call f k => f.AllPos Q ∧ ∀ t : Tree, t.AllPos Q → PosP Q (k t)
  | .getExc k => ∀ x, PosP Q (k x)
  | .setExc _ k => PosP Q k

section
variable {α β : Type} [Ps Q α] [Ps Q β]
theorem pos_bind {p : Prog α} {f : α → Prog β} (h : PosP Q p) (hf : ∀ a, Ps.ok Q a → PosP Q (f a)) : PosP Q (p >>= f) := by
  show PosP Q (p.bind f)
  induction p with
  | ret a => exact hf _ h
  | fail => exact h
  | panic => exact h
  | getPos k ih => exact fun p hp => ih p (h p hp)
  | getExc k ih => exact fun p => ih _ (h p)
  | sym k x ih1 ih2 => exact ⟨fun t => ih1 t (h.1 t), ih2 h.2⟩
  | adv k ih => exact ih h
  | call f k ih => exact ⟨h.1, fun t ht => ih t (h.2 t ht)⟩
  | setExc x k ih => exact ih h
theorem pos_ite {b : Prop} [Decidable b] {p q : Prog α} (h1 : PosP Q p) (h2 : PosP Q q) : PosP Q (if b then p else q) := by
  split <;> assumption
theorem pos_pure {a : α} (h : Ps.ok Q a) : PosP Q (pure a : Prog α) := h
theorem pos_fail {p : Nat} {m : String} (h : Q p) : PosP Q (Prog.fail p m : Prog α) := h
theorem pos_panic : PosP Q (Prog.panic : Prog α) := trivial
theorem pos_failHere {m : String} : PosP Q (Prog.failHere m : Prog α) := fun _ h => h
theorem pos_getExc {k : ExcStatus → Prog α} (h : ∀ x, PosP Q (k x)) : PosP Q (.getExc k) := h
theorem pos_setExc {x} {k : Prog α} (h : PosP Q k) : PosP Q (.setExc x k) := h
theorem pos_here {f : Nat → Prog β} (h : ∀ p, Q p → PosP Q (f p)) : PosP Q (Prog.here >>= f) := h
theorem pos_next {f : Unit → Prog β} (h : PosP Q (f ())) : PosP Q (Prog.next >>= f) := h
theorem pos_symAt {p m} {f : Token → Prog β} (hp : Q p) (h : ∀ t, PosP Q (f t)) : PosP Q (Prog.symAt p m >>= f) := ⟨h, hp⟩
theorem pos_symHere {m} {f : Token → Prog β} (h : ∀ t, PosP Q (f t)) : PosP Q (Prog.symHere m >>= f) := ⟨h, fun _ h => h⟩
theorem pos_sym? {f : Option Token → Prog β} (h : ∀ t, PosP Q (f (some t))) (hn : PosP Q (f none)) : PosP Q (Prog.sym? >>= f) := ⟨h, hn⟩
theorem pos_parse_bind {x : Fn} {f : Tree → Prog β} (hx : x.AllPos Q) (h : ∀ t : Tree, t.AllPos Q → PosP Q (f t)) :
    PosP Q (Prog.parse x >>= f) := ⟨hx, h⟩
theorem pos_mk_bind {tag s l} {f : Tree → Prog β} (hs : Q s) (hl : allPosList Q l) (h : ∀ t : Tree, t.AllPos Q → PosP Q (f t)) :
    PosP Q (Prog.mk tag s l >>= f) := fun p hp => h _ ⟨hs, hp, hl⟩
theorem pos_bindT {p : Prog Tree} {f : Tree → Prog β} (h : PosP Q p) (hf : ∀ t : Tree, t.AllPos Q → PosP Q (f t)) : PosP Q (p >>= f) :=
  pos_bind h hf
end
theorem pos_parse {x : Fn} (hx : x.AllPos Q) : PosP Q (Prog.parse x) := ⟨hx, fun _ h => h⟩
theorem pos_mk {tag s l} (hs : Q s) (hl : allPosList Q l) : PosP Q (Prog.mk tag s l) := fun _ hp => ⟨hs, hp, hl⟩

/-- What is known of an outcome. -/
def PosOut [Uni] (Q : Nat → Prop) {α : Type} [Ps Q α] : Res α → Prop
  | .ok a c => Ps.ok Q a ∧ ∀ i, Q (c.ahead i).lex.tokStart
  | .err p _ => Q p
  | _ => True

theorem pos_exec [Uni] {α : Type} [Ps Q α] {r : Fn → PSt → Res Tree}
    (hr : ∀ f, f.AllPos Q → ∀ c, (∀ i, Q (c.ahead i).lex.tokStart) → PosOut Q (r f c)) {p : Prog α} (h : PosP Q p) :
    ∀ {c : PSt}, (∀ i, Q (c.ahead i).lex.tokStart) → PosOut Q (p.exec r c) := by
  induction p with
  | ret a => exact fun hc => ⟨h, hc⟩
  | fail => exact fun hc => h
  | panic => exact fun hc => trivial
  | getPos k ih => exact fun hc => ih _ (h _ (hc 0)) hc
  | getExc k ih => exact fun hc => ih _ (h _) hc
  | sym k x ih1 ih2 =>
    intro c hc
    simp only [Prog.exec]
    split
    · exact ih1 _ (h.1 _) hc
    · exact ih2 h.2 hc
  | adv k ih => exact fun hc => ih h (fun i => hc (i + 1))
  | setExc x k ih =>
    intro c hc
    refine ih h (fun i => ?_)
    rw [ahead_exc i c x]; exact hc i
  | call f k ih =>
    intro c hc
    have h0 := hr f h.1 c hc
    simp only [Prog.exec]
    split <;> rename_i he <;> rw [he] at h0
    · exact ih _ (h.2 _ h0.1) h0.2
    · exact h0
    · trivial
    · trivial

attribute [local irreducible] PosP

theorem ps_listResult {tag s l p} (hs : Q s) (hl : allPosList Q l) : PosP Q (listResult tag s l p) := by
  unfold listResult
  split
  · exact pos_pure (show Tree.AllPos Q _ from hl.1)
  · refine pos_mk hs ?_
    simp only [allPosList, Tree.AllPos, allPos_toks, hl, and_self]
theorem ps_starResult {s l p} (hs : Q s) (hl : allPosList Q l) : PosP Q (testlistStarExprResult s l p) := by
  have hl := allPos_reverse.mpr hl
  unfold testlistStarExprResult
  split
  · rename_i h _; rw [h] at hl; exact pos_pure (show Tree.AllPos Q _ from hl.1)
  · refine pos_mk hs ?_
    simp only [allPosList, Tree.AllPos, allPos_toks, hl, and_self]

macro "ps_leaf" : tactic => `(tactic| first
  | trivial
  | assumption
  | (simp only [Ps.ok, Tree.AllPos, allPosList, allPos_append, allPos_toks, allPos_reverse, VA.AllPos, Fn.AllPos, and_true, true_and, and_self, *]; done))

macro "ps_step" : tactic => `(tactic| first
  | exact pos_panic
  | refine pos_fail ?_
  | exact pos_failHere
  | refine ps_listResult ?_ ?_
  | refine ps_starResult ?_ ?_
  | (refine pos_here ?_; intro _ _)
  | (refine pos_next ?_)
  | (refine pos_symAt ?_ ?_; rotate_left; intro _)
  | (refine pos_symHere ?_; intro _)
  | (refine pos_sym? ?_ ?_; intro _)
  | (refine pos_parse_bind ?_ ?_; rotate_left; intro _ _)
  | (refine pos_mk_bind ?_ ?_ ?_; rotate_left; rotate_left; intro _ _)
  | (refine pos_parse ?_)
  | (refine pos_mk ?_ ?_)
  | (refine pos_ite ?_ ?_)
  | (refine pos_pure ?_)
  | (refine pos_getExc ?_; intro x; cases x)
  | (refine pos_setExc ?_)
  | (refine pos_bindT ?_ ?_; rotate_left; intro _ _)
  | (refine pos_bind ?_ ?_; rotate_left; intro _ _)
  | ps_leaf
  | (show PosP _ _; dsimp only)
  | split)

macro "ps_auto" : tactic => `(tactic| (repeat' ps_step))

theorem ps_atom  (h : Fn.AllPos Q .atom) : PosP Q (atomBody) := by
  unfold atomBody; ps_auto
theorem ps_atomStrLoop (s : Nat) (toks : List Token) (h : Fn.AllPos Q (.atomStrLoop s toks)) : PosP Q (atomStrLoopBody s toks) := by
  have h0 : Q s := h; unfold atomStrLoopBody; ps_auto
theorem ps_atomExpr  (h : Fn.AllPos Q .atomExpr) : PosP Q (atomExprBody) := by
  unfold atomExprBody; ps_auto
theorem ps_trailerLoop (s : Nat) (await : Tree) (right : Tree) (lst : List Tree) (h : Fn.AllPos Q (.trailerLoop s await right lst)) : PosP Q (trailerLoopBody s await right lst) := by
  obtain ⟨h0, h1, h2, h3⟩ := h; unfold trailerLoopBody trailerLoopBody.fin; ps_auto
theorem ps_power  (h : Fn.AllPos Q .power) : PosP Q (powerBody) := by
  unfold powerBody; ps_auto
theorem ps_factor  (h : Fn.AllPos Q .factor) : PosP Q (factorBody) := by
  unfold factorBody; ps_auto
theorem ps_term  (h : Fn.AllPos Q .term) : PosP Q (termBody) := by
  unfold termBody; ps_auto
theorem ps_termLoop (s : Nat) (left : Tree) (h : Fn.AllPos Q (.termLoop s left)) : PosP Q (termLoopBody s left) := by
  obtain ⟨h0, h1⟩ := h; unfold termLoopBody leftLoopBody; ps_auto
theorem ps_arith  (h : Fn.AllPos Q .arith) : PosP Q (arithBody) := by
  unfold arithBody; ps_auto
theorem ps_arithLoop (s : Nat) (left : Tree) (h : Fn.AllPos Q (.arithLoop s left)) : PosP Q (arithLoopBody s left) := by
  obtain ⟨h0, h1⟩ := h; unfold arithLoopBody leftLoopBody; ps_auto
theorem ps_shift  (h : Fn.AllPos Q .shift) : PosP Q (shiftBody) := by
  unfold shiftBody; ps_auto
theorem ps_shiftLoop (s : Nat) (left : Tree) (h : Fn.AllPos Q (.shiftLoop s left)) : PosP Q (shiftLoopBody s left) := by
  obtain ⟨h0, h1⟩ := h; unfold shiftLoopBody leftLoopBody; ps_auto
theorem ps_andExpr  (h : Fn.AllPos Q .andExpr) : PosP Q (andExprBody) := by
  unfold andExprBody; ps_auto
theorem ps_andExprLoop (s : Nat) (left : Tree) (h : Fn.AllPos Q (.andExprLoop s left)) : PosP Q (andExprLoopBody s left) := by
  obtain ⟨h0, h1⟩ := h; unfold andExprLoopBody leftLoopBody; ps_auto
theorem ps_xorExpr  (h : Fn.AllPos Q .xorExpr) : PosP Q (xorExprBody) := by
  unfold xorExprBody; ps_auto
theorem ps_xorExprLoop (s : Nat) (left : Tree) (h : Fn.AllPos Q (.xorExprLoop s left)) : PosP Q (xorExprLoopBody s left) := by
  obtain ⟨h0, h1⟩ := h; unfold xorExprLoopBody leftLoopBody; ps_auto
theorem ps_expr  (h : Fn.AllPos Q .expr) : PosP Q (exprBody) := by
  unfold exprBody; ps_auto
theorem ps_exprLoop (s : Nat) (left : Tree) (h : Fn.AllPos Q (.exprLoop s left)) : PosP Q (exprLoopBody s left) := by
  obtain ⟨h0, h1⟩ := h; unfold exprLoopBody leftLoopBody; ps_auto
theorem ps_starExpr  (h : Fn.AllPos Q .starExpr) : PosP Q (starExprBody) := by
  unfold starExprBody; ps_auto
theorem ps_comparison  (h : Fn.AllPos Q .comparison) : PosP Q (comparisonBody) := by
  unfold comparisonBody; ps_auto
theorem ps_comparisonLoop (s : Nat) (left : Tree) (h : Fn.AllPos Q (.comparisonLoop s left)) : PosP Q (comparisonLoopBody s left) := by
  obtain ⟨h0, h1⟩ := h; unfold comparisonLoopBody; ps_auto
theorem ps_notTest  (h : Fn.AllPos Q .notTest) : PosP Q (notTestBody) := by
  unfold notTestBody; ps_auto
theorem ps_andTest  (h : Fn.AllPos Q .andTest) : PosP Q (andTestBody) := by
  unfold andTestBody; ps_auto
theorem ps_andTestLoop (s : Nat) (left : Tree) (h : Fn.AllPos Q (.andTestLoop s left)) : PosP Q (andTestLoopBody s left) := by
  obtain ⟨h0, h1⟩ := h; unfold andTestLoopBody leftLoopBody; ps_auto
theorem ps_orTest  (h : Fn.AllPos Q .orTest) : PosP Q (orTestBody) := by
  unfold orTestBody; ps_auto
theorem ps_orTestLoop (s : Nat) (left : Tree) (h : Fn.AllPos Q (.orTestLoop s left)) : PosP Q (orTestLoopBody s left) := by
  obtain ⟨h0, h1⟩ := h; unfold orTestLoopBody leftLoopBody; ps_auto
theorem ps_lambdaDef (cond : Bool) (h : Fn.AllPos Q (.lambdaDef cond)) : PosP Q (lambdaDefBody cond) := by
  unfold lambdaDefBody; ps_auto
theorem ps_noCondTest  (h : Fn.AllPos Q .noCondTest) : PosP Q (noCondTestBody) := by
  unfold noCondTestBody; ps_auto
theorem ps_test  (h : Fn.AllPos Q .test) : PosP Q (testBody) := by
  unfold testBody; ps_auto
theorem ps_namedExpression  (h : Fn.AllPos Q .namedExpression) : PosP Q (namedExpressionBody) := by
  unfold namedExpressionBody; ps_auto
theorem ps_testlistComp  (h : Fn.AllPos Q .testlistComp) : PosP Q (testlistCompBody) := by
  unfold testlistCompBody starOrNamed; ps_auto
theorem ps_testlistCompLoop (s : Nat) (nodes : List Tree) (seps : List Token) (h : Fn.AllPos Q (.testlistCompLoop s nodes seps)) : PosP Q (testlistCompLoopBody s nodes seps) := by
  obtain ⟨h0, h1⟩ := h; unfold testlistCompLoopBody starOrNamed; ps_auto
theorem ps_trailer  (h : Fn.AllPos Q .trailer) : PosP Q (trailerBody) := by
  unfold trailerBody; ps_auto
theorem ps_subscriptList  (h : Fn.AllPos Q .subscriptList) : PosP Q (subscriptListBody) := by
  unfold subscriptListBody; ps_auto
theorem ps_subscriptListLoop (s : Nat) (nodes : List Tree) (seps : List Token) (h : Fn.AllPos Q (.subscriptListLoop s nodes seps)) : PosP Q (subscriptListLoopBody s nodes seps) := by
  obtain ⟨h0, h1⟩ := h; unfold subscriptListLoopBody; ps_auto
theorem ps_subscript  (h : Fn.AllPos Q .subscript) : PosP Q (subscriptBody) := by
  unfold subscriptBody; ps_auto
theorem ps_exprlist  (h : Fn.AllPos Q .exprlist) : PosP Q (exprlistBody) := by
  unfold exprlistBody starOrNamed; ps_auto
theorem ps_exprlistLoop (s : Nat) (nodes : List Tree) (seps : List Token) (h : Fn.AllPos Q (.exprlistLoop s nodes seps)) : PosP Q (exprlistLoopBody s nodes seps) := by
  obtain ⟨h0, h1⟩ := h; unfold exprlistLoopBody; ps_auto
theorem ps_testlist  (h : Fn.AllPos Q .testlist) : PosP Q (testlistBody) := by
  unfold testlistBody; ps_auto
theorem ps_testlistLoop (s : Nat) (nodes : List Tree) (seps : List Token) (h : Fn.AllPos Q (.testlistLoop s nodes seps)) : PosP Q (testlistLoopBody s nodes seps) := by
  obtain ⟨h0, h1⟩ := h; unfold testlistLoopBody; ps_auto
theorem ps_dictorsetMaker  (h : Fn.AllPos Q .dictorsetMaker) : PosP Q (dictorsetMakerBody) := by
  unfold dictorsetMakerBody dictRest dictRest.fin; ps_auto
theorem ps_setLoop (s : Nat) (nodes : List Tree) (seps : List Token) (h : Fn.AllPos Q (.setLoop s nodes seps)) : PosP Q (setLoopBody s nodes seps) := by
  obtain ⟨h0, h1⟩ := h; unfold setLoopBody; ps_auto
theorem ps_arglist  (h : Fn.AllPos Q .arglist) : PosP Q (arglistBody) := by
  unfold arglistBody; ps_auto
theorem ps_arglistLoop (s : Nat) (nodes : List Tree) (seps : List Token) (h : Fn.AllPos Q (.arglistLoop s nodes seps)) : PosP Q (arglistLoopBody s nodes seps) := by
  obtain ⟨h0, h1⟩ := h; unfold arglistLoopBody; ps_auto
theorem ps_argument  (h : Fn.AllPos Q .argument) : PosP Q (argumentBody) := by
  unfold argumentBody; ps_auto
theorem ps_compIter  (h : Fn.AllPos Q .compIter) : PosP Q (compIterBody) := by
  unfold compIterBody; ps_auto
theorem ps_syncCompFor  (h : Fn.AllPos Q .syncCompFor) : PosP Q (syncCompForBody) := by
  unfold syncCompForBody; ps_auto
theorem ps_compFor  (h : Fn.AllPos Q .compFor) : PosP Q (compForBody) := by
  unfold compForBody; ps_auto
theorem ps_compIf  (h : Fn.AllPos Q .compIf) : PosP Q (compIfBody) := by
  unfold compIfBody; ps_auto
theorem ps_yieldExpr  (h : Fn.AllPos Q .yieldExpr) : PosP Q (yieldExprBody) := by
  unfold yieldExprBody; ps_auto
theorem ps_testlistStarExpr  (h : Fn.AllPos Q .testlistStarExpr) : PosP Q (testlistStarExprBody) := by
  unfold testlistStarExprBody; ps_auto
theorem ps_testlistStarExprLoop (s : Nat) (nodes : List Tree) (seps : List Token) (h : Fn.AllPos Q (.testlistStarExprLoop s nodes seps)) : PosP Q (testlistStarExprLoopBody s nodes seps) := by
  obtain ⟨h0, h1⟩ := h; unfold testlistStarExprLoopBody; ps_auto
theorem ps_varArgsList  (h : Fn.AllPos Q .varArgsList) : PosP Q (varArgsListBody) := by
  unfold varArgsListBody varArgsMul varArgsPower varArgsResult; ps_auto
theorem ps_varArgsMainLoop (s : Nat) (v : VA) (h : Fn.AllPos Q (.varArgsMainLoop s v)) : PosP Q (varArgsMainLoopBody s v) := by
  obtain ⟨h0, h1⟩ := h; cases v; simp only [VA.AllPos] at h1; obtain ⟨h2, h3, h4, h5, h6, h7⟩ := h1; unfold varArgsMainLoopBody varArgsMul varArgsPower varArgsResult; ps_auto
theorem ps_varArgsStarLoop (s : Nat) (v : VA) (h : Fn.AllPos Q (.varArgsStarLoop s v)) : PosP Q (varArgsStarLoopBody s v) := by
  obtain ⟨h0, h1⟩ := h; cases v; simp only [VA.AllPos] at h1; obtain ⟨h2, h3, h4, h5, h6, h7⟩ := h1; unfold varArgsStarLoopBody varArgsPower varArgsResult; ps_auto
theorem ps_varArgsDivLoop (s : Nat) (v : VA) (h : Fn.AllPos Q (.varArgsDivLoop s v)) : PosP Q (varArgsDivLoopBody s v) := by
  obtain ⟨h0, h1⟩ := h; cases v; simp only [VA.AllPos] at h1; obtain ⟨h2, h3, h4, h5, h6, h7⟩ := h1; unfold varArgsDivLoopBody varArgsMul varArgsPower varArgsResult; ps_auto
theorem ps_varArgsAssignments  (h : Fn.AllPos Q .varArgsAssignments) : PosP Q (varArgsAssignmentsBody) := by
  unfold varArgsAssignmentsBody; ps_auto
theorem ps_vfpDef  (h : Fn.AllPos Q .vfpDef) : PosP Q (vfpDefBody) := by
  unfold vfpDefBody; ps_auto
theorem ps_stmt  (h : Fn.AllPos Q .stmt) : PosP Q (stmtBody) := by
  unfold stmtBody; ps_auto
theorem ps_simpleStmt  (h : Fn.AllPos Q .simpleStmt) : PosP Q (simpleStmtBody) := by
  unfold simpleStmtBody; ps_auto
theorem ps_simpleStmtLoop (s : Nat) (nodes : List Tree) (seps : List Token) (h : Fn.AllPos Q (.simpleStmtLoop s nodes seps)) : PosP Q (simpleStmtLoopBody s nodes seps) := by
  obtain ⟨h0, h1⟩ := h; unfold simpleStmtLoopBody simpleStmtLoopBody.fin; ps_auto
theorem ps_smallStmt  (h : Fn.AllPos Q .smallStmt) : PosP Q (smallStmtBody) := by
  unfold smallStmtBody; ps_auto
theorem ps_exprStmt  (h : Fn.AllPos Q .exprStmt) : PosP Q (exprStmtBody) := by
  unfold exprStmtBody yieldOrTestlist; ps_auto
theorem ps_assignLoop (s : Nat) (left : Tree) (nodes : List Tree) (h : Fn.AllPos Q (.assignLoop s left nodes)) : PosP Q (assignLoopBody s left nodes) := by
  obtain ⟨h0, h1, h2⟩ := h; unfold assignLoopBody yieldOrTestlist; ps_auto
theorem ps_annAssign (s : Nat) (left : Tree) (h : Fn.AllPos Q (.annAssign s left)) : PosP Q (annAssignBody s left) := by
  obtain ⟨h0, h1⟩ := h; unfold annAssignBody yieldOrTestlist; ps_auto
theorem ps_delStmt  (h : Fn.AllPos Q .delStmt) : PosP Q (delStmtBody) := by
  unfold delStmtBody; ps_auto
theorem ps_passStmt  (h : Fn.AllPos Q .passStmt) : PosP Q (passStmtBody) := by
  unfold passStmtBody; ps_auto
theorem ps_flowStmt  (h : Fn.AllPos Q .flowStmt) : PosP Q (flowStmtBody) := by
  unfold flowStmtBody; ps_auto
theorem ps_breakStmt  (h : Fn.AllPos Q .breakStmt) : PosP Q (breakStmtBody) := by
  unfold breakStmtBody; ps_auto
theorem ps_continueStmt  (h : Fn.AllPos Q .continueStmt) : PosP Q (continueStmtBody) := by
  unfold continueStmtBody; ps_auto
theorem ps_returnStmt  (h : Fn.AllPos Q .returnStmt) : PosP Q (returnStmtBody) := by
  unfold returnStmtBody; ps_auto
theorem ps_yieldStmt  (h : Fn.AllPos Q .yieldStmt) : PosP Q (yieldStmtBody) := by
  unfold yieldStmtBody; ps_auto
theorem ps_raiseStmt  (h : Fn.AllPos Q .raiseStmt) : PosP Q (raiseStmtBody) := by
  unfold raiseStmtBody; ps_auto
theorem ps_importStmt  (h : Fn.AllPos Q .importStmt) : PosP Q (importStmtBody) := by
  unfold importStmtBody; ps_auto
theorem ps_importName  (h : Fn.AllPos Q .importName) : PosP Q (importNameBody) := by
  unfold importNameBody; ps_auto
theorem ps_importFrom  (h : Fn.AllPos Q .importFrom) : PosP Q (importFromBody) := by
  unfold importFromBody; ps_auto
theorem ps_importDotLoop (s : Nat) (sym1 : Token) (dots : List Token) (h : Fn.AllPos Q (.importDotLoop s sym1 dots)) : PosP Q (importDotLoopBody s sym1 dots) := by
  have h0 : Q s := h; unfold importDotLoopBody importFromRest; ps_auto
theorem ps_importAsName  (h : Fn.AllPos Q .importAsName) : PosP Q (importAsNameBody) := by
  unfold importAsNameBody; ps_auto
theorem ps_dottedAsName  (h : Fn.AllPos Q .dottedAsName) : PosP Q (dottedAsNameBody) := by
  unfold dottedAsNameBody; ps_auto
theorem ps_importAsNames  (h : Fn.AllPos Q .importAsNames) : PosP Q (importAsNamesBody) := by
  unfold importAsNamesBody; ps_auto
theorem ps_importAsNamesLoop (s : Nat) (nodes : List Tree) (seps : List Token) (h : Fn.AllPos Q (.importAsNamesLoop s nodes seps)) : PosP Q (importAsNamesLoopBody s nodes seps) := by
  obtain ⟨h0, h1⟩ := h; unfold importAsNamesLoopBody; ps_auto
theorem ps_dottedAsNames  (h : Fn.AllPos Q .dottedAsNames) : PosP Q (dottedAsNamesBody) := by
  unfold dottedAsNamesBody; ps_auto
theorem ps_dottedAsNamesLoop (s : Nat) (nodes : List Tree) (seps : List Token) (h : Fn.AllPos Q (.dottedAsNamesLoop s nodes seps)) : PosP Q (dottedAsNamesLoopBody s nodes seps) := by
  obtain ⟨h0, h1⟩ := h; unfold dottedAsNamesLoopBody; ps_auto
theorem ps_dottedName  (h : Fn.AllPos Q .dottedName) : PosP Q (dottedNameBody) := by
  unfold dottedNameBody; ps_auto
theorem ps_dottedNameLoop (s : Nat) (nodes : List Token) (seps : List Token) (h : Fn.AllPos Q (.dottedNameLoop s nodes seps)) : PosP Q (dottedNameLoopBody s nodes seps) := by
  have h0 : Q s := h; unfold dottedNameLoopBody; ps_auto
theorem ps_globalStmt  (h : Fn.AllPos Q .globalStmt) : PosP Q (globalStmtBody) := by
  unfold globalStmtBody; ps_auto
theorem ps_globalLoop (s : Nat) (sym : Token) (nodes : List Token) (seps : List Token) (h : Fn.AllPos Q (.globalLoop s sym nodes seps)) : PosP Q (globalLoopBody s sym nodes seps) := by
  have h0 : Q s := h; unfold globalLoopBody; ps_auto
theorem ps_nonlocalStmt  (h : Fn.AllPos Q .nonlocalStmt) : PosP Q (nonlocalStmtBody) := by
  unfold nonlocalStmtBody; ps_auto
theorem ps_nonlocalLoop (s : Nat) (sym : Token) (nodes : List Token) (seps : List Token) (h : Fn.AllPos Q (.nonlocalLoop s sym nodes seps)) : PosP Q (nonlocalLoopBody s sym nodes seps) := by
  have h0 : Q s := h; unfold nonlocalLoopBody; ps_auto
theorem ps_assertStmt  (h : Fn.AllPos Q .assertStmt) : PosP Q (assertStmtBody) := by
  unfold assertStmtBody; ps_auto
theorem ps_compoundStmt  (h : Fn.AllPos Q .compoundStmt) : PosP Q (compoundStmtBody) := by
  unfold compoundStmtBody; ps_auto
theorem ps_asyncStmt  (h : Fn.AllPos Q .asyncStmt) : PosP Q (asyncStmtBody) := by
  unfold asyncStmtBody; ps_auto
theorem ps_ifStmt  (h : Fn.AllPos Q .ifStmt) : PosP Q (ifStmtBody) := by
  unfold ifStmtBody; ps_auto
theorem ps_ifLoop (s : Nat) (sym1 : Token) (left : Tree) (sym2 : Token) (right : Tree) (nodes : List Tree) (h : Fn.AllPos Q (.ifLoop s sym1 left sym2 right nodes)) : PosP Q (ifLoopBody s sym1 left sym2 right nodes) := by
  obtain ⟨h0, h1, h2, h3⟩ := h; unfold ifLoopBody; ps_auto
theorem ps_elifStmt  (h : Fn.AllPos Q .elifStmt) : PosP Q (elifStmtBody) := by
  unfold elifStmtBody; ps_auto
theorem ps_elseStmt  (h : Fn.AllPos Q .elseStmt) : PosP Q (elseStmtBody) := by
  unfold elseStmtBody; ps_auto
theorem ps_whileStmt  (h : Fn.AllPos Q .whileStmt) : PosP Q (whileStmtBody) := by
  unfold whileStmtBody; ps_auto
theorem ps_forStmt  (h : Fn.AllPos Q .forStmt) : PosP Q (forStmtBody) := by
  unfold forStmtBody; ps_auto
theorem ps_tryStmt  (h : Fn.AllPos Q .tryStmt) : PosP Q (tryStmtBody) := by
  unfold tryStmtBody; ps_auto
theorem ps_tryLoop (s : Nat) (sym1 : Token) (sym2 : Token) (left : Tree) (nodes : List Tree) (h : Fn.AllPos Q (.tryLoop s sym1 sym2 left nodes)) : PosP Q (tryLoopBody s sym1 sym2 left nodes) := by
  obtain ⟨h0, h1, h2⟩ := h; unfold tryLoopBody; ps_auto
theorem ps_finallyStmt  (h : Fn.AllPos Q .finallyStmt) : PosP Q (finallyStmtBody) := by
  unfold finallyStmtBody; ps_auto
theorem ps_withStmt  (h : Fn.AllPos Q .withStmt) : PosP Q (withStmtBody) := by
  unfold withStmtBody; ps_auto
theorem ps_withParenLoop (s : Nat) (sym1 : Token) (lpar : Token) (nodes : List Tree) (seps : List Token) (h : Fn.AllPos Q (.withParenLoop s sym1 lpar nodes seps)) : PosP Q (withParenLoopBody s sym1 lpar nodes seps) := by
  obtain ⟨h0, h1⟩ := h; unfold withParenLoopBody withParenEnd withRest; ps_auto
theorem ps_withLoop (s : Nat) (sym1 : Token) (nodes : List Tree) (seps : List Token) (h : Fn.AllPos Q (.withLoop s sym1 nodes seps)) : PosP Q (withLoopBody s sym1 nodes seps) := by
  obtain ⟨h0, h1⟩ := h; unfold withLoopBody withRest; ps_auto
theorem ps_withItem  (h : Fn.AllPos Q .withItem) : PosP Q (withItemBody) := by
  unfold withItemBody; ps_auto
theorem ps_exceptStmt  (h : Fn.AllPos Q .exceptStmt) : PosP Q (exceptStmtBody) := by
  unfold exceptStmtBody; ps_auto
theorem ps_exceptClause  (h : Fn.AllPos Q .exceptClause) : PosP Q (exceptClauseBody) := by
  unfold exceptClauseBody exceptStar; ps_auto
theorem ps_suite  (h : Fn.AllPos Q .suite) : PosP Q (suiteBody) := by
  unfold suiteBody; ps_auto
theorem ps_suiteLoop (s : Nat) (sym1 : Token) (sym2 : Token) (nodes : List Tree) (h : Fn.AllPos Q (.suiteLoop s sym1 sym2 nodes)) : PosP Q (suiteLoopBody s sym1 sym2 nodes) := by
  obtain ⟨h0, h1⟩ := h; unfold suiteLoopBody; ps_auto
theorem ps_evalLoop (s : Nat) (right : Tree) (seps : List Token) (h : Fn.AllPos Q (.evalLoop s right seps)) : PosP Q (evalLoopBody s right seps) := by
  obtain ⟨h0, h1⟩ := h; unfold evalLoopBody; ps_auto
theorem ps_fileLoop (s : Nat) (nodes : List Tree) (seps : List Token) (h : Fn.AllPos Q (.fileLoop s nodes seps)) : PosP Q (fileLoopBody s nodes seps) := by
  obtain ⟨h0, h1⟩ := h; unfold fileLoopBody; ps_auto
theorem ps_funcTypeLoop (s : Nat) (right : Tree) (seps : List Token) (h : Fn.AllPos Q (.funcTypeLoop s right seps)) : PosP Q (funcTypeLoopBody s right seps) := by
  obtain ⟨h0, h1⟩ := h; unfold funcTypeLoopBody; ps_auto
theorem ps_decorator  (h : Fn.AllPos Q .decorator) : PosP Q (decoratorBody) := by
  unfold decoratorBody decoratorEnd; ps_auto
theorem ps_decorators  (h : Fn.AllPos Q .decorators) : PosP Q (decoratorsBody) := by
  unfold decoratorsBody; ps_auto
theorem ps_decoratorsLoop (s : Nat) (nodes : List Tree) (h : Fn.AllPos Q (.decoratorsLoop s nodes)) : PosP Q (decoratorsLoopBody s nodes) := by
  obtain ⟨h0, h1⟩ := h; unfold decoratorsLoopBody; ps_auto
theorem ps_decorated  (h : Fn.AllPos Q .decorated) : PosP Q (decoratedBody) := by
  unfold decoratedBody; ps_auto
theorem ps_asyncFuncDef  (h : Fn.AllPos Q .asyncFuncDef) : PosP Q (asyncFuncDefBody) := by
  unfold asyncFuncDefBody; ps_auto
theorem ps_funcDef  (h : Fn.AllPos Q .funcDef) : PosP Q (funcDefBody) := by
  unfold funcDefBody; ps_auto
theorem ps_parameters  (h : Fn.AllPos Q .parameters) : PosP Q (parametersBody) := by
  unfold parametersBody; ps_auto
theorem ps_typedArgsList  (h : Fn.AllPos Q .typedArgsList) : PosP Q (typedArgsListBody) := by
  unfold typedArgsListBody; ps_auto
theorem ps_tfpDefAssign  (h : Fn.AllPos Q .tfpDefAssign) : PosP Q (tfpDefAssignBody) := by
  unfold tfpDefAssignBody; ps_auto
theorem ps_tfpDef  (h : Fn.AllPos Q .tfpDef) : PosP Q (tfpDefBody) := by
  unfold tfpDefBody; ps_auto
theorem ps_funcBodySuite  (h : Fn.AllPos Q .funcBodySuite) : PosP Q (funcBodySuiteBody) := by
  unfold funcBodySuiteBody funcBodyIndent; ps_auto
theorem ps_funcBodyLoop (s : Nat) (sym1 : Token) (tc : Tree) (tcnl : Tree) (sym2 : Token) (nodes : List Tree) (h : Fn.AllPos Q (.funcBodyLoop s sym1 tc tcnl sym2 nodes)) : PosP Q (funcBodyLoopBody s sym1 tc tcnl sym2 nodes) := by
  obtain ⟨h0, h1, h2, h3⟩ := h; unfold funcBodyLoopBody; ps_auto
theorem ps_classDef  (h : Fn.AllPos Q .classDef) : PosP Q (classDefBody) := by
  unfold classDefBody classRest; ps_auto
theorem ps_funcType  (h : Fn.AllPos Q .funcType) : PosP Q (funcTypeBody) := by
  unfold funcTypeBody; ps_auto
theorem ps_typeList  (h : Fn.AllPos Q .typeList) : PosP Q (typeListBody) := by
  unfold typeListBody typeListMul typeListPower typeListResult; ps_auto
theorem ps_typeListMainLoop (s : Nat) (v : VA) (h : Fn.AllPos Q (.typeListMainLoop s v)) : PosP Q (typeListMainLoopBody s v) := by
  obtain ⟨h0, h1⟩ := h; cases v; simp only [VA.AllPos] at h1; obtain ⟨h2, h3, h4, h5, h6, h7⟩ := h1; unfold typeListMainLoopBody typeListMul typeListPower typeListResult; ps_auto
theorem ps_typeListStarLoop (s : Nat) (v : VA) (h : Fn.AllPos Q (.typeListStarLoop s v)) : PosP Q (typeListStarLoopBody s v) := by
  obtain ⟨h0, h1⟩ := h; cases v; simp only [VA.AllPos] at h1; obtain ⟨h2, h3, h4, h5, h6, h7⟩ := h1; unfold typeListStarLoopBody typeListPower typeListResult; ps_auto
theorem ps_evalInput  (h : Fn.AllPos Q .evalInput) : PosP Q (evalInputBody) := by
  unfold evalInputBody; ps_auto
theorem ps_fileInput  (h : Fn.AllPos Q .fileInput) : PosP Q (fileInputBody) := by
  unfold fileInputBody; ps_auto
theorem ps_singleInput  (h : Fn.AllPos Q .singleInput) : PosP Q (singleInputBody) := by
  unfold singleInputBody; ps_auto
theorem ps_funcTypeInput  (h : Fn.AllPos Q .funcTypeInput) : PosP Q (funcTypeInputBody) := by
  unfold funcTypeInputBody; ps_auto
theorem ps_patternsMatch  (h : Fn.AllPos Q .patternsMatch) : PosP Q (patternsMatchBody) := by
  unfold patternsMatchBody; ps_auto

theorem ps_body {f : Fn} (h : f.AllPos Q) : PosP Q (body f) := by
  cases f
  case atom => exact ps_atom  h
  case atomStrLoop => exact ps_atomStrLoop _ _ h
  case atomExpr => exact ps_atomExpr  h
  case trailerLoop => exact ps_trailerLoop _ _ _ _ h
  case power => exact ps_power  h
  case factor => exact ps_factor  h
  case term => exact ps_term  h
  case termLoop => exact ps_termLoop _ _ h
  case arith => exact ps_arith  h
  case arithLoop => exact ps_arithLoop _ _ h
  case shift => exact ps_shift  h
  case shiftLoop => exact ps_shiftLoop _ _ h
  case andExpr => exact ps_andExpr  h
  case andExprLoop => exact ps_andExprLoop _ _ h
  case xorExpr => exact ps_xorExpr  h
  case xorExprLoop => exact ps_xorExprLoop _ _ h
  case expr => exact ps_expr  h
  case exprLoop => exact ps_exprLoop _ _ h
  case starExpr => exact ps_starExpr  h
  case comparison => exact ps_comparison  h
  case comparisonLoop => exact ps_comparisonLoop _ _ h
  case notTest => exact ps_notTest  h
  case andTest => exact ps_andTest  h
  case andTestLoop => exact ps_andTestLoop _ _ h
  case orTest => exact ps_orTest  h
  case orTestLoop => exact ps_orTestLoop _ _ h
  case lambdaDef => exact ps_lambdaDef _ h
  case noCondTest => exact ps_noCondTest  h
  case test => exact ps_test  h
  case namedExpression => exact ps_namedExpression  h
  case testlistComp => exact ps_testlistComp  h
  case testlistCompLoop => exact ps_testlistCompLoop _ _ _ h
  case trailer => exact ps_trailer  h
  case subscriptList => exact ps_subscriptList  h
  case subscriptListLoop => exact ps_subscriptListLoop _ _ _ h
  case subscript => exact ps_subscript  h
  case exprlist => exact ps_exprlist  h
  case exprlistLoop => exact ps_exprlistLoop _ _ _ h
  case testlist => exact ps_testlist  h
  case testlistLoop => exact ps_testlistLoop _ _ _ h
  case dictorsetMaker => exact ps_dictorsetMaker  h
  case setLoop => exact ps_setLoop _ _ _ h
  case arglist => exact ps_arglist  h
  case arglistLoop => exact ps_arglistLoop _ _ _ h
  case argument => exact ps_argument  h
  case compIter => exact ps_compIter  h
  case syncCompFor => exact ps_syncCompFor  h
  case compFor => exact ps_compFor  h
  case compIf => exact ps_compIf  h
  case yieldExpr => exact ps_yieldExpr  h
  case testlistStarExpr => exact ps_testlistStarExpr  h
  case testlistStarExprLoop => exact ps_testlistStarExprLoop _ _ _ h
  case varArgsList => exact ps_varArgsList  h
  case varArgsMainLoop => exact ps_varArgsMainLoop _ _ h
  case varArgsStarLoop => exact ps_varArgsStarLoop _ _ h
  case varArgsDivLoop => exact ps_varArgsDivLoop _ _ h
  case varArgsAssignments => exact ps_varArgsAssignments  h
  case vfpDef => exact ps_vfpDef  h
  case stmt => exact ps_stmt  h
  case simpleStmt => exact ps_simpleStmt  h
  case simpleStmtLoop => exact ps_simpleStmtLoop _ _ _ h
  case smallStmt => exact ps_smallStmt  h
  case exprStmt => exact ps_exprStmt  h
  case assignLoop => exact ps_assignLoop _ _ _ h
  case annAssign => exact ps_annAssign _ _ h
  case delStmt => exact ps_delStmt  h
  case passStmt => exact ps_passStmt  h
  case flowStmt => exact ps_flowStmt  h
  case breakStmt => exact ps_breakStmt  h
  case continueStmt => exact ps_continueStmt  h
  case returnStmt => exact ps_returnStmt  h
  case yieldStmt => exact ps_yieldStmt  h
  case raiseStmt => exact ps_raiseStmt  h
  case importStmt => exact ps_importStmt  h
  case importName => exact ps_importName  h
  case importFrom => exact ps_importFrom  h
  case importDotLoop => exact ps_importDotLoop _ _ _ h
  case importAsName => exact ps_importAsName  h
  case dottedAsName => exact ps_dottedAsName  h
  case importAsNames => exact ps_importAsNames  h
  case importAsNamesLoop => exact ps_importAsNamesLoop _ _ _ h
  case dottedAsNames => exact ps_dottedAsNames  h
  case dottedAsNamesLoop => exact ps_dottedAsNamesLoop _ _ _ h
  case dottedName => exact ps_dottedName  h
  case dottedNameLoop => exact ps_dottedNameLoop _ _ _ h
  case globalStmt => exact ps_globalStmt  h
  case globalLoop => exact ps_globalLoop _ _ _ _ h
  case nonlocalStmt => exact ps_nonlocalStmt  h
  case nonlocalLoop => exact ps_nonlocalLoop _ _ _ _ h
  case assertStmt => exact ps_assertStmt  h
  case compoundStmt => exact ps_compoundStmt  h
  case asyncStmt => exact ps_asyncStmt  h
  case ifStmt => exact ps_ifStmt  h
  case ifLoop => exact ps_ifLoop _ _ _ _ _ _ h
  case elifStmt => exact ps_elifStmt  h
  case elseStmt => exact ps_elseStmt  h
  case whileStmt => exact ps_whileStmt  h
  case forStmt => exact ps_forStmt  h
  case tryStmt => exact ps_tryStmt  h
  case tryLoop => exact ps_tryLoop _ _ _ _ _ h
  case finallyStmt => exact ps_finallyStmt  h
  case withStmt => exact ps_withStmt  h
  case withParenLoop => exact ps_withParenLoop _ _ _ _ _ h
  case withLoop => exact ps_withLoop _ _ _ _ h
  case withItem => exact ps_withItem  h
  case exceptStmt => exact ps_exceptStmt  h
  case exceptClause => exact ps_exceptClause  h
  case suite => exact ps_suite  h
  case suiteLoop => exact ps_suiteLoop _ _ _ _ h
  case evalLoop => exact ps_evalLoop _ _ _ h
  case fileLoop => exact ps_fileLoop _ _ _ h
  case funcTypeLoop => exact ps_funcTypeLoop _ _ _ h
  case decorator => exact ps_decorator  h
  case decorators => exact ps_decorators  h
  case decoratorsLoop => exact ps_decoratorsLoop _ _ h
  case decorated => exact ps_decorated  h
  case asyncFuncDef => exact ps_asyncFuncDef  h
  case funcDef => exact ps_funcDef  h
  case parameters => exact ps_parameters  h
  case typedArgsList => exact ps_typedArgsList  h
  case tfpDefAssign => exact ps_tfpDefAssign  h
  case tfpDef => exact ps_tfpDef  h
  case funcBodySuite => exact ps_funcBodySuite  h
  case funcBodyLoop => exact ps_funcBodyLoop _ _ _ _ _ _ h
  case classDef => exact ps_classDef  h
  case funcType => exact ps_funcType  h
  case typeList => exact ps_typeList  h
  case typeListMainLoop => exact ps_typeListMainLoop _ _ h
  case typeListStarLoop => exact ps_typeListStarLoop _ _ h
  case evalInput => exact ps_evalInput  h
  case fileInput => exact ps_fileInput  h
  case singleInput => exact ps_singleInput  h
  case funcTypeInput => exact ps_funcTypeInput  h
  case patternsMatch => exact ps_patternsMatch  h

end Verif
