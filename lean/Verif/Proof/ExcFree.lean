import Verif.Proof.AlikeAll

/-!
# The `except` status matters only inside a `try` statement

Every parse function except those for the clauses of a `try` statement does the same whatever the status is.
-/

namespace Verif
open Prog
variable {e : Token → Token}

/-- The parse functions that look at the status they are called with. -/
def Fn.usesExc : Fn → Bool
  | .exceptClause | .exceptStmt | .tryLoop .. => true
  | _ => false

/-- Sets the status before it looks at it. -/
def ExcFree {α : Type} : Prog α → Prop
  | .ret _ | .fail _ _ | .panic | .setExc _ _ => True
  | .getPos k => ∀ p, ExcFree (k p)
  | .sym k x => (∀ t, ExcFree (k t)) ∧ ExcFree x
  | .adv k => ExcFree k
  | .call f k => f.usesExc = false ∧ ∀ t, ExcFree (k t)
  | .getExc _ => False

section
variable {α β : Type}
theorem ef_bind {p : Prog α} {f : α → Prog β} (h : ExcFree p) (hf : ∀ a, ExcFree (f a)) : ExcFree (p >>= f) := by
  show ExcFree (p.bind f)
  induction p with
  | ret a => exact hf a
  | fail | panic | setExc => trivial
  | getPos k ih => exact fun p => ih p (h p)
  | getExc => exact h
  | sym k x ih1 ih2 => exact ⟨fun t => ih1 t (h.1 t), ih2 h.2⟩
  | adv k ih => exact ih h
  | call g k ih => exact ⟨h.1, fun t => ih t (h.2 t)⟩
theorem ef_ite {b : Prop} [Decidable b] {p q : Prog α} (h1 : ExcFree p) (h2 : ExcFree q) : ExcFree (if b then p else q) := by
  split
  · exact h1
  · exact h2
theorem ef_pure {a : α} : ExcFree (pure a : Prog α) := trivial
theorem ef_fail {p m} : ExcFree (Prog.fail p m : Prog α) := trivial
theorem ef_failHere {m} : ExcFree (Prog.failHere m : Prog α) := fun _ => trivial
theorem ef_panic : ExcFree (Prog.panic : Prog α) := trivial
theorem ef_here : ExcFree Prog.here := fun _ => trivial
theorem ef_next : ExcFree Prog.next := trivial
theorem ef_symAt {p m} : ExcFree (Prog.symAt p m) := ⟨fun _ => trivial, trivial⟩
theorem ef_symHere {m} : ExcFree (Prog.symHere m) := ⟨fun _ => trivial, fun _ => trivial⟩
theorem ef_sym? : ExcFree Prog.sym? := ⟨fun _ => trivial, trivial⟩
theorem ef_parse {f : Fn} (h : f.usesExc = false) : ExcFree (Prog.parse f) := ⟨h, fun _ => trivial⟩
theorem ef_mk {tag s l} : ExcFree (Prog.mk tag s l) := fun _ => trivial
theorem ef_set {x} {p : Prog α} {f : α → Prog β} : ExcFree (Prog.setExc x p >>= f) := trivial
end

attribute [local irreducible] ExcFree

macro "ef_step" : tactic => `(tactic| first
  | exact ef_pure
  | exact ef_fail
  | exact ef_failHere
  | exact ef_panic
  | exact ef_here
  | exact ef_next
  | exact ef_symAt
  | exact ef_symHere
  | exact ef_sym?
  | exact ef_parse rfl
  | exact ef_mk
  | exact ef_set
  | refine ef_ite ?_ ?_
  | (refine ef_bind ?_ ?_; rotate_left; intro _)
  | (show ExcFree _; split)
  | (show ExcFree _; dsimp only))
macro "ef_auto" : tactic => `(tactic| (repeat' ef_step))

theorem ef_left (op : Kind → Option Tag) (operand : Fn) (self : Nat → Tree → Fn) (msg : String) (s : Nat) (left : Tree)
    (ho : operand.usesExc = false) (hs : ∀ s l, (self s l).usesExc = false) : ExcFree (leftLoopBody op operand self msg s left) := by
  unfold leftLoopBody
  refine ef_bind ef_symAt fun t => ?_
  cases op t.kind with
  | none => exact ef_pure
  | some tag => exact ef_bind ef_next fun _ => ef_bind (ef_parse ho) fun _ => ef_bind ef_mk fun _ => ef_parse (hs _ _)

theorem ef_atom  : ExcFree (atomBody) := by
  unfold atomBody; ef_auto
theorem ef_atomStrLoop (s : Nat) (toks : List Token) : ExcFree (atomStrLoopBody s toks) := by
  unfold atomStrLoopBody; ef_auto
theorem ef_atomExpr  : ExcFree (atomExprBody) := by
  unfold atomExprBody; ef_auto
theorem ef_trailerLoop (s : Nat) (await : Tree) (right : Tree) (lst : List Tree) : ExcFree (trailerLoopBody s await right lst) := by
  unfold trailerLoopBody trailerLoopBody.fin; ef_auto
theorem ef_power  : ExcFree (powerBody) := by
  unfold powerBody; ef_auto
theorem ef_factor  : ExcFree (factorBody) := by
  unfold factorBody; ef_auto
theorem ef_term  : ExcFree (termBody) := by
  unfold termBody; ef_auto
theorem ef_termLoop (s : Nat) (left : Tree) : ExcFree (termLoopBody s left) := by
  unfold termLoopBody; exact ef_left _ _ _ _ _ _ rfl (fun _ _ => rfl)
theorem ef_arith  : ExcFree (arithBody) := by
  unfold arithBody; ef_auto
theorem ef_arithLoop (s : Nat) (left : Tree) : ExcFree (arithLoopBody s left) := by
  unfold arithLoopBody; exact ef_left _ _ _ _ _ _ rfl (fun _ _ => rfl)
theorem ef_shift  : ExcFree (shiftBody) := by
  unfold shiftBody; ef_auto
theorem ef_shiftLoop (s : Nat) (left : Tree) : ExcFree (shiftLoopBody s left) := by
  unfold shiftLoopBody; exact ef_left _ _ _ _ _ _ rfl (fun _ _ => rfl)
theorem ef_andExpr  : ExcFree (andExprBody) := by
  unfold andExprBody; ef_auto
theorem ef_andExprLoop (s : Nat) (left : Tree) : ExcFree (andExprLoopBody s left) := by
  unfold andExprLoopBody; exact ef_left _ _ _ _ _ _ rfl (fun _ _ => rfl)
theorem ef_xorExpr  : ExcFree (xorExprBody) := by
  unfold xorExprBody; ef_auto
theorem ef_xorExprLoop (s : Nat) (left : Tree) : ExcFree (xorExprLoopBody s left) := by
  unfold xorExprLoopBody; exact ef_left _ _ _ _ _ _ rfl (fun _ _ => rfl)
theorem ef_expr  : ExcFree (exprBody) := by
  unfold exprBody; ef_auto
theorem ef_exprLoop (s : Nat) (left : Tree) : ExcFree (exprLoopBody s left) := by
  unfold exprLoopBody; exact ef_left _ _ _ _ _ _ rfl (fun _ _ => rfl)
theorem ef_starExpr  : ExcFree (starExprBody) := by
  unfold starExprBody; ef_auto
theorem ef_comparison  : ExcFree (comparisonBody) := by
  unfold comparisonBody; ef_auto
theorem ef_comparisonLoop (s : Nat) (left : Tree) : ExcFree (comparisonLoopBody s left) := by
  unfold comparisonLoopBody; ef_auto
theorem ef_notTest  : ExcFree (notTestBody) := by
  unfold notTestBody; ef_auto
theorem ef_andTest  : ExcFree (andTestBody) := by
  unfold andTestBody; ef_auto
theorem ef_andTestLoop (s : Nat) (left : Tree) : ExcFree (andTestLoopBody s left) := by
  unfold andTestLoopBody; exact ef_left _ _ _ _ _ _ rfl (fun _ _ => rfl)
theorem ef_orTest  : ExcFree (orTestBody) := by
  unfold orTestBody; ef_auto
theorem ef_orTestLoop (s : Nat) (left : Tree) : ExcFree (orTestLoopBody s left) := by
  unfold orTestLoopBody; exact ef_left _ _ _ _ _ _ rfl (fun _ _ => rfl)
theorem ef_lambdaDef (cond : Bool) : ExcFree (lambdaDefBody cond) := by
  unfold lambdaDefBody; ef_auto
theorem ef_noCondTest  : ExcFree (noCondTestBody) := by
  unfold noCondTestBody; ef_auto
theorem ef_test  : ExcFree (testBody) := by
  unfold testBody; ef_auto
theorem ef_namedExpression  : ExcFree (namedExpressionBody) := by
  unfold namedExpressionBody; ef_auto
theorem ef_testlistComp  : ExcFree (testlistCompBody) := by
  unfold testlistCompBody starOrNamed; ef_auto
theorem ef_testlistCompLoop (s : Nat) (nodes : List Tree) (seps : List Token) : ExcFree (testlistCompLoopBody s nodes seps) := by
  unfold testlistCompLoopBody starOrNamed; ef_auto
theorem ef_trailer  : ExcFree (trailerBody) := by
  unfold trailerBody; ef_auto
theorem ef_subscriptList  : ExcFree (subscriptListBody) := by
  unfold subscriptListBody; ef_auto
theorem ef_subscriptListLoop (s : Nat) (nodes : List Tree) (seps : List Token) : ExcFree (subscriptListLoopBody s nodes seps) := by
  unfold subscriptListLoopBody; ef_auto
theorem ef_subscript  : ExcFree (subscriptBody) := by
  unfold subscriptBody; ef_auto
theorem ef_exprlist  : ExcFree (exprlistBody) := by
  unfold exprlistBody starOrNamed; ef_auto
theorem ef_exprlistLoop (s : Nat) (nodes : List Tree) (seps : List Token) : ExcFree (exprlistLoopBody s nodes seps) := by
  unfold exprlistLoopBody listResult; ef_auto
theorem ef_testlist  : ExcFree (testlistBody) := by
  unfold testlistBody; ef_auto
theorem ef_testlistLoop (s : Nat) (nodes : List Tree) (seps : List Token) : ExcFree (testlistLoopBody s nodes seps) := by
  unfold testlistLoopBody listResult; ef_auto
theorem ef_dictorsetMaker  : ExcFree (dictorsetMakerBody) := by
  unfold dictorsetMakerBody dictRest dictRest.fin; ef_auto
theorem ef_setLoop (s : Nat) (nodes : List Tree) (seps : List Token) : ExcFree (setLoopBody s nodes seps) := by
  unfold setLoopBody; ef_auto
theorem ef_arglist  : ExcFree (arglistBody) := by
  unfold arglistBody; ef_auto
theorem ef_arglistLoop (s : Nat) (nodes : List Tree) (seps : List Token) : ExcFree (arglistLoopBody s nodes seps) := by
  unfold arglistLoopBody; ef_auto
theorem ef_argument  : ExcFree (argumentBody) := by
  unfold argumentBody; ef_auto
theorem ef_compIter  : ExcFree (compIterBody) := by
  unfold compIterBody; ef_auto
theorem ef_syncCompFor  : ExcFree (syncCompForBody) := by
  unfold syncCompForBody; ef_auto
theorem ef_compFor  : ExcFree (compForBody) := by
  unfold compForBody; ef_auto
theorem ef_compIf  : ExcFree (compIfBody) := by
  unfold compIfBody; ef_auto
theorem ef_yieldExpr  : ExcFree (yieldExprBody) := by
  unfold yieldExprBody; ef_auto
theorem ef_testlistStarExpr  : ExcFree (testlistStarExprBody) := by
  unfold testlistStarExprBody; ef_auto
theorem ef_testlistStarExprLoop (s : Nat) (nodes : List Tree) (seps : List Token) : ExcFree (testlistStarExprLoopBody s nodes seps) := by
  unfold testlistStarExprLoopBody testlistStarExprResult; ef_auto
theorem ef_varArgsList  : ExcFree (varArgsListBody) := by
  unfold varArgsListBody varArgsMul varArgsPower varArgsResult; ef_auto
theorem ef_varArgsMainLoop (s : Nat) (v : VA) : ExcFree (varArgsMainLoopBody s v) := by
  unfold varArgsMainLoopBody varArgsMul varArgsPower varArgsResult; ef_auto
theorem ef_varArgsStarLoop (s : Nat) (v : VA) : ExcFree (varArgsStarLoopBody s v) := by
  unfold varArgsStarLoopBody varArgsPower varArgsResult; ef_auto
theorem ef_varArgsDivLoop (s : Nat) (v : VA) : ExcFree (varArgsDivLoopBody s v) := by
  unfold varArgsDivLoopBody varArgsMul varArgsPower varArgsResult; ef_auto
theorem ef_varArgsAssignments  : ExcFree (varArgsAssignmentsBody) := by
  unfold varArgsAssignmentsBody; ef_auto
theorem ef_vfpDef  : ExcFree (vfpDefBody) := by
  unfold vfpDefBody; ef_auto
theorem ef_stmt  : ExcFree (stmtBody) := by
  unfold stmtBody; ef_auto
theorem ef_simpleStmt  : ExcFree (simpleStmtBody) := by
  unfold simpleStmtBody; ef_auto
theorem ef_simpleStmtLoop (s : Nat) (nodes : List Tree) (seps : List Token) : ExcFree (simpleStmtLoopBody s nodes seps) := by
  unfold simpleStmtLoopBody simpleStmtLoopBody.fin; ef_auto
theorem ef_smallStmt  : ExcFree (smallStmtBody) := by
  unfold smallStmtBody; ef_auto
theorem ef_exprStmt  : ExcFree (exprStmtBody) := by
  unfold exprStmtBody yieldOrTestlist; ef_auto
theorem ef_assignLoop (s : Nat) (left : Tree) (nodes : List Tree) : ExcFree (assignLoopBody s left nodes) := by
  unfold assignLoopBody yieldOrTestlist; ef_auto
theorem ef_annAssign (s : Nat) (left : Tree) : ExcFree (annAssignBody s left) := by
  unfold annAssignBody yieldOrTestlist; ef_auto
theorem ef_delStmt  : ExcFree (delStmtBody) := by
  unfold delStmtBody; ef_auto
theorem ef_passStmt  : ExcFree (passStmtBody) := by
  unfold passStmtBody; ef_auto
theorem ef_flowStmt  : ExcFree (flowStmtBody) := by
  unfold flowStmtBody; ef_auto
theorem ef_breakStmt  : ExcFree (breakStmtBody) := by
  unfold breakStmtBody; ef_auto
theorem ef_continueStmt  : ExcFree (continueStmtBody) := by
  unfold continueStmtBody; ef_auto
theorem ef_returnStmt  : ExcFree (returnStmtBody) := by
  unfold returnStmtBody; ef_auto
theorem ef_yieldStmt  : ExcFree (yieldStmtBody) := by
  unfold yieldStmtBody; ef_auto
theorem ef_raiseStmt  : ExcFree (raiseStmtBody) := by
  unfold raiseStmtBody; ef_auto
theorem ef_importStmt  : ExcFree (importStmtBody) := by
  unfold importStmtBody; ef_auto
theorem ef_importName  : ExcFree (importNameBody) := by
  unfold importNameBody; ef_auto
theorem ef_importFrom  : ExcFree (importFromBody) := by
  unfold importFromBody; ef_auto
theorem ef_importDotLoop (s : Nat) (sym1 : Token) (dots : List Token) : ExcFree (importDotLoopBody s sym1 dots) := by
  unfold importDotLoopBody importFromRest; ef_auto
theorem ef_importAsName  : ExcFree (importAsNameBody) := by
  unfold importAsNameBody; ef_auto
theorem ef_dottedAsName  : ExcFree (dottedAsNameBody) := by
  unfold dottedAsNameBody; ef_auto
theorem ef_importAsNames  : ExcFree (importAsNamesBody) := by
  unfold importAsNamesBody; ef_auto
theorem ef_importAsNamesLoop (s : Nat) (nodes : List Tree) (seps : List Token) : ExcFree (importAsNamesLoopBody s nodes seps) := by
  unfold importAsNamesLoopBody; ef_auto
theorem ef_dottedAsNames  : ExcFree (dottedAsNamesBody) := by
  unfold dottedAsNamesBody; ef_auto
theorem ef_dottedAsNamesLoop (s : Nat) (nodes : List Tree) (seps : List Token) : ExcFree (dottedAsNamesLoopBody s nodes seps) := by
  unfold dottedAsNamesLoopBody; ef_auto
theorem ef_dottedName  : ExcFree (dottedNameBody) := by
  unfold dottedNameBody; ef_auto
theorem ef_dottedNameLoop (s : Nat) (nodes : List Token) (seps : List Token) : ExcFree (dottedNameLoopBody s nodes seps) := by
  unfold dottedNameLoopBody; ef_auto
theorem ef_globalStmt  : ExcFree (globalStmtBody) := by
  unfold globalStmtBody; ef_auto
theorem ef_globalLoop (s : Nat) (sym : Token) (nodes : List Token) (seps : List Token) : ExcFree (globalLoopBody s sym nodes seps) := by
  unfold globalLoopBody; ef_auto
theorem ef_nonlocalStmt  : ExcFree (nonlocalStmtBody) := by
  unfold nonlocalStmtBody; ef_auto
theorem ef_nonlocalLoop (s : Nat) (sym : Token) (nodes : List Token) (seps : List Token) : ExcFree (nonlocalLoopBody s sym nodes seps) := by
  unfold nonlocalLoopBody; ef_auto
theorem ef_assertStmt  : ExcFree (assertStmtBody) := by
  unfold assertStmtBody; ef_auto
theorem ef_compoundStmt  : ExcFree (compoundStmtBody) := by
  unfold compoundStmtBody; ef_auto
theorem ef_asyncStmt  : ExcFree (asyncStmtBody) := by
  unfold asyncStmtBody; ef_auto
theorem ef_ifStmt  : ExcFree (ifStmtBody) := by
  unfold ifStmtBody; ef_auto
theorem ef_ifLoop (s : Nat) (sym1 : Token) (left : Tree) (sym2 : Token) (right : Tree) (nodes : List Tree) : ExcFree (ifLoopBody s sym1 left sym2 right nodes) := by
  unfold ifLoopBody; ef_auto
theorem ef_elifStmt  : ExcFree (elifStmtBody) := by
  unfold elifStmtBody; ef_auto
theorem ef_elseStmt  : ExcFree (elseStmtBody) := by
  unfold elseStmtBody; ef_auto
theorem ef_whileStmt  : ExcFree (whileStmtBody) := by
  unfold whileStmtBody; ef_auto
theorem ef_forStmt  : ExcFree (forStmtBody) := by
  unfold forStmtBody; ef_auto
theorem ef_tryStmt  : ExcFree (tryStmtBody) := by
  unfold tryStmtBody; ef_auto
theorem ef_finallyStmt  : ExcFree (finallyStmtBody) := by
  unfold finallyStmtBody; ef_auto
theorem ef_withStmt  : ExcFree (withStmtBody) := by
  unfold withStmtBody; ef_auto
theorem ef_withParenLoop (s : Nat) (sym1 : Token) (lpar : Token) (nodes : List Tree) (seps : List Token) : ExcFree (withParenLoopBody s sym1 lpar nodes seps) := by
  unfold withParenLoopBody withParenEnd withRest; ef_auto
theorem ef_withLoop (s : Nat) (sym1 : Token) (nodes : List Tree) (seps : List Token) : ExcFree (withLoopBody s sym1 nodes seps) := by
  unfold withLoopBody withRest; ef_auto
theorem ef_withItem  : ExcFree (withItemBody) := by
  unfold withItemBody; ef_auto
theorem ef_suite  : ExcFree (suiteBody) := by
  unfold suiteBody; ef_auto
theorem ef_suiteLoop (s : Nat) (sym1 : Token) (sym2 : Token) (nodes : List Tree) : ExcFree (suiteLoopBody s sym1 sym2 nodes) := by
  unfold suiteLoopBody; ef_auto
theorem ef_evalLoop (s : Nat) (right : Tree) (seps : List Token) : ExcFree (evalLoopBody s right seps) := by
  unfold evalLoopBody; ef_auto
theorem ef_fileLoop (s : Nat) (nodes : List Tree) (seps : List Token) : ExcFree (fileLoopBody s nodes seps) := by
  unfold fileLoopBody; ef_auto
theorem ef_funcTypeLoop (s : Nat) (right : Tree) (seps : List Token) : ExcFree (funcTypeLoopBody s right seps) := by
  unfold funcTypeLoopBody; ef_auto
theorem ef_decorator  : ExcFree (decoratorBody) := by
  unfold decoratorBody decoratorEnd; ef_auto
theorem ef_decorators  : ExcFree (decoratorsBody) := by
  unfold decoratorsBody; ef_auto
theorem ef_decoratorsLoop (s : Nat) (nodes : List Tree) : ExcFree (decoratorsLoopBody s nodes) := by
  unfold decoratorsLoopBody; ef_auto
theorem ef_decorated  : ExcFree (decoratedBody) := by
  unfold decoratedBody; ef_auto
theorem ef_asyncFuncDef  : ExcFree (asyncFuncDefBody) := by
  unfold asyncFuncDefBody; ef_auto
theorem ef_funcDef  : ExcFree (funcDefBody) := by
  unfold funcDefBody; ef_auto
theorem ef_parameters  : ExcFree (parametersBody) := by
  unfold parametersBody; ef_auto
theorem ef_typedArgsList  : ExcFree (typedArgsListBody) := by
  unfold typedArgsListBody; ef_auto
theorem ef_tfpDefAssign  : ExcFree (tfpDefAssignBody) := by
  unfold tfpDefAssignBody; ef_auto
theorem ef_tfpDef  : ExcFree (tfpDefBody) := by
  unfold tfpDefBody; ef_auto
theorem ef_funcBodySuite  : ExcFree (funcBodySuiteBody) := by
  unfold funcBodySuiteBody funcBodyIndent; ef_auto
theorem ef_funcBodyLoop (s : Nat) (sym1 : Token) (tc : Tree) (tcnl : Tree) (sym2 : Token) (nodes : List Tree) : ExcFree (funcBodyLoopBody s sym1 tc tcnl sym2 nodes) := by
  unfold funcBodyLoopBody; ef_auto
theorem ef_classDef  : ExcFree (classDefBody) := by
  unfold classDefBody classRest; ef_auto
theorem ef_funcType  : ExcFree (funcTypeBody) := by
  unfold funcTypeBody; ef_auto
theorem ef_typeList  : ExcFree (typeListBody) := by
  unfold typeListBody typeListMul typeListPower typeListResult; ef_auto
theorem ef_typeListMainLoop (s : Nat) (v : VA) : ExcFree (typeListMainLoopBody s v) := by
  unfold typeListMainLoopBody typeListMul typeListPower typeListResult; ef_auto
theorem ef_typeListStarLoop (s : Nat) (v : VA) : ExcFree (typeListStarLoopBody s v) := by
  unfold typeListStarLoopBody typeListPower typeListResult; ef_auto
theorem ef_evalInput  : ExcFree (evalInputBody) := by
  unfold evalInputBody; ef_auto
theorem ef_fileInput  : ExcFree (fileInputBody) := by
  unfold fileInputBody; ef_auto
theorem ef_singleInput  : ExcFree (singleInputBody) := by
  unfold singleInputBody; ef_auto
theorem ef_funcTypeInput  : ExcFree (funcTypeInputBody) := by
  unfold funcTypeInputBody; ef_auto
theorem ef_patternsMatch  : ExcFree (patternsMatchBody) := by
  unfold patternsMatchBody; ef_auto

theorem ef_body (f : Fn) (h : f.usesExc = false) : ExcFree (body f) := by
  cases f <;> first | (cases h; done) | skip
  case atom => exact ef_atom
  case atomStrLoop => exact ef_atomStrLoop _ _
  case atomExpr => exact ef_atomExpr
  case trailerLoop => exact ef_trailerLoop _ _ _ _
  case power => exact ef_power
  case factor => exact ef_factor
  case term => exact ef_term
  case termLoop => exact ef_termLoop _ _
  case arith => exact ef_arith
  case arithLoop => exact ef_arithLoop _ _
  case shift => exact ef_shift
  case shiftLoop => exact ef_shiftLoop _ _
  case andExpr => exact ef_andExpr
  case andExprLoop => exact ef_andExprLoop _ _
  case xorExpr => exact ef_xorExpr
  case xorExprLoop => exact ef_xorExprLoop _ _
  case expr => exact ef_expr
  case exprLoop => exact ef_exprLoop _ _
  case starExpr => exact ef_starExpr
  case comparison => exact ef_comparison
  case comparisonLoop => exact ef_comparisonLoop _ _
  case notTest => exact ef_notTest
  case andTest => exact ef_andTest
  case andTestLoop => exact ef_andTestLoop _ _
  case orTest => exact ef_orTest
  case orTestLoop => exact ef_orTestLoop _ _
  case lambdaDef => exact ef_lambdaDef _
  case noCondTest => exact ef_noCondTest
  case test => exact ef_test
  case namedExpression => exact ef_namedExpression
  case testlistComp => exact ef_testlistComp
  case testlistCompLoop => exact ef_testlistCompLoop _ _ _
  case trailer => exact ef_trailer
  case subscriptList => exact ef_subscriptList
  case subscriptListLoop => exact ef_subscriptListLoop _ _ _
  case subscript => exact ef_subscript
  case exprlist => exact ef_exprlist
  case exprlistLoop => exact ef_exprlistLoop _ _ _
  case testlist => exact ef_testlist
  case testlistLoop => exact ef_testlistLoop _ _ _
  case dictorsetMaker => exact ef_dictorsetMaker
  case setLoop => exact ef_setLoop _ _ _
  case arglist => exact ef_arglist
  case arglistLoop => exact ef_arglistLoop _ _ _
  case argument => exact ef_argument
  case compIter => exact ef_compIter
  case syncCompFor => exact ef_syncCompFor
  case compFor => exact ef_compFor
  case compIf => exact ef_compIf
  case yieldExpr => exact ef_yieldExpr
  case testlistStarExpr => exact ef_testlistStarExpr
  case testlistStarExprLoop => exact ef_testlistStarExprLoop _ _ _
  case varArgsList => exact ef_varArgsList
  case varArgsMainLoop => exact ef_varArgsMainLoop _ _
  case varArgsStarLoop => exact ef_varArgsStarLoop _ _
  case varArgsDivLoop => exact ef_varArgsDivLoop _ _
  case varArgsAssignments => exact ef_varArgsAssignments
  case vfpDef => exact ef_vfpDef
  case stmt => exact ef_stmt
  case simpleStmt => exact ef_simpleStmt
  case simpleStmtLoop => exact ef_simpleStmtLoop _ _ _
  case smallStmt => exact ef_smallStmt
  case exprStmt => exact ef_exprStmt
  case assignLoop => exact ef_assignLoop _ _ _
  case annAssign => exact ef_annAssign _ _
  case delStmt => exact ef_delStmt
  case passStmt => exact ef_passStmt
  case flowStmt => exact ef_flowStmt
  case breakStmt => exact ef_breakStmt
  case continueStmt => exact ef_continueStmt
  case returnStmt => exact ef_returnStmt
  case yieldStmt => exact ef_yieldStmt
  case raiseStmt => exact ef_raiseStmt
  case importStmt => exact ef_importStmt
  case importName => exact ef_importName
  case importFrom => exact ef_importFrom
  case importDotLoop => exact ef_importDotLoop _ _ _
  case importAsName => exact ef_importAsName
  case dottedAsName => exact ef_dottedAsName
  case importAsNames => exact ef_importAsNames
  case importAsNamesLoop => exact ef_importAsNamesLoop _ _ _
  case dottedAsNames => exact ef_dottedAsNames
  case dottedAsNamesLoop => exact ef_dottedAsNamesLoop _ _ _
  case dottedName => exact ef_dottedName
  case dottedNameLoop => exact ef_dottedNameLoop _ _ _
  case globalStmt => exact ef_globalStmt
  case globalLoop => exact ef_globalLoop _ _ _ _
  case nonlocalStmt => exact ef_nonlocalStmt
  case nonlocalLoop => exact ef_nonlocalLoop _ _ _ _
  case assertStmt => exact ef_assertStmt
  case compoundStmt => exact ef_compoundStmt
  case asyncStmt => exact ef_asyncStmt
  case ifStmt => exact ef_ifStmt
  case ifLoop => exact ef_ifLoop _ _ _ _ _ _
  case elifStmt => exact ef_elifStmt
  case elseStmt => exact ef_elseStmt
  case whileStmt => exact ef_whileStmt
  case forStmt => exact ef_forStmt
  case tryStmt => exact ef_tryStmt
  case finallyStmt => exact ef_finallyStmt
  case withStmt => exact ef_withStmt
  case withParenLoop => exact ef_withParenLoop _ _ _ _ _
  case withLoop => exact ef_withLoop _ _ _ _
  case withItem => exact ef_withItem
  case suite => exact ef_suite
  case suiteLoop => exact ef_suiteLoop _ _ _ _
  case evalLoop => exact ef_evalLoop _ _ _
  case fileLoop => exact ef_fileLoop _ _ _
  case funcTypeLoop => exact ef_funcTypeLoop _ _ _
  case decorator => exact ef_decorator
  case decorators => exact ef_decorators
  case decoratorsLoop => exact ef_decoratorsLoop _ _
  case decorated => exact ef_decorated
  case asyncFuncDef => exact ef_asyncFuncDef
  case funcDef => exact ef_funcDef
  case parameters => exact ef_parameters
  case typedArgsList => exact ef_typedArgsList
  case tfpDefAssign => exact ef_tfpDefAssign
  case tfpDef => exact ef_tfpDef
  case funcBodySuite => exact ef_funcBodySuite
  case funcBodyLoop => exact ef_funcBodyLoop _ _ _ _ _ _
  case classDef => exact ef_classDef
  case funcType => exact ef_funcType
  case typeList => exact ef_typeList
  case typeListMainLoop => exact ef_typeListMainLoop _ _
  case typeListStarLoop => exact ef_typeListStarLoop _ _
  case evalInput => exact ef_evalInput
  case fileInput => exact ef_fileInput
  case singleInput => exact ef_singleInput
  case funcTypeInput => exact ef_funcTypeInput
  case patternsMatch => exact ef_patternsMatch

/-! ### Two runs with different statuses -/

/-- Two parsers that see the same symbols up to `e`; their statuses may differ. -/
def SeesLike [Uni] (e : Token → Token) (c d : PSt) : Prop := ∀ i, SymLike e (c.ahead i) (d.ahead i)

/-- Outcomes that are alike, with parsers that see the same. -/
def OutSees [Uni] (e : Token → Token) {α : Type} [Lk e α] : Res α → Res α → Prop
  | .ok a c, .ok b d => Lk.rel e a b ∧ SeesLike e c d
  | .err _ m, .err _ m' => m = m'
  | .panic, .panic => True
  | .diverge, .diverge => True
  | _, _ => False

theorem OutLike.sees [Uni] {α : Type} [Lk e α] {x y : Res α} (h : OutLike e x y) : OutSees e x y := by
  cases x <;> cases y <;> first | exact h | exact ⟨h.1, h.2.2⟩

end Verif

namespace Verif
variable {e : Token → Token}

theorem sees_exec [Uni] {α : Type} [Lk e α] {r : Fn → PSt → Res Tree}
    (hv : ∀ f g, Fn.Like e f g → ∀ c d, ViewLike e c d → OutLike e (r f c) (r g d))
    (hr : ∀ f g, Fn.Like e f g → f.usesExc = false → ∀ c d, SeesLike e c d → OutSees e (r f c) (r g d)) {p q : Prog α} (h : RelP e p q)
    (hp : ExcFree p) : ∀ {c d}, SeesLike e c d → OutSees e (p.exec r c) (q.exec r d) := by
  induction p generalizing q with
  | ret a => intro c d hs; cases q <;> first | exact ⟨h, hs⟩ | exact h.elim
  | fail => intro c d hs; cases q <;> first | exact h | exact h.elim
  | panic => intro c d hs; cases q <;> first | exact h | exact h.elim
  | getPos k ih => intro c d hs; cases q <;> first | exact ih _ (h _ _) (hp _) hs | exact h.elim
  | getExc k ih => exact hp.elim
  | sym k x ih1 ih2 =>
    intro c d hs
    cases q with
    | sym l y =>
      have h0 := hs 0
      simp only [PSt.ahead, SymLike] at h0
      simp only [Prog.exec]
      cases hc : c.symbol <;> cases hd : d.symbol <;> simp only [hc, hd] at h0 ⊢
      · exact ih2 h.2 hp.2 hs
      · exact ih1 _ (h.1 _ _ h0) (hp.1 _) hs
    | _ => exact h.elim
  | adv k ih => intro c d hs; cases q <;> first | exact ih h hp (fun i => hs (i + 1)) | exact h.elim
  | setExc x k ih =>
    intro c d hs
    cases q with
    | setExc y l =>
      obtain ⟨rfl, h⟩ := h
      refine OutLike.sees (rel_exec hv h ⟨rfl, fun i => ?_⟩)
      rw [ahead_exc i c x, ahead_exc i d x]
      exact hs i
    | _ => exact h.elim
  | call f k ih =>
    intro c d hs
    cases q with
    | call g l =>
      have h0 := hr f g h.1 hp.1 c d hs
      simp only [Prog.exec]
      cases hc : r f c <;> cases hd : r g d <;> simp only [hc, hd, OutSees] at h0 ⊢
      · exact ih _ (h.2 _ _ h0.1) (hp.2 _) h0.2
      · exact h0
    | _ => exact h.elim

theorem outLike_exec [Uni] [Keeps e] (n : Nat) : ∀ f g, Fn.Like e f g → ∀ c d, ViewLike e c d → OutLike e (run n f c) (run n g d) := by
  induction n with
  | zero => intro f g _ c d _; exact True.intro
  | succ n ih => intro f g hl c d hv; exact rel_exec ih (al_body hl) hv

/-- A parse function that is not one for the clauses of a `try` statement does the same whatever the status is. -/
theorem outSees_run [Uni] [Keeps e] (n : Nat) : ∀ f g, Fn.Like e f g → f.usesExc = false → ∀ c d, SeesLike e c d →
    OutSees e (run n f c) (run n g d) := by
  induction n with
  | zero => intro f g _ _ c d _; exact True.intro
  | succ n ih => intro f g hl hf c d hs; exact sees_exec (outLike_exec n) ih (al_body hl) (ef_body f hf) hs

end Verif
