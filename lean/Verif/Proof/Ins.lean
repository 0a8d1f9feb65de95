import Verif.Proof.ReadLike

/-!
# Statements read in the same way wherever they are
-/

namespace Verif
open Prog

/-- The functions that look at the `except` status they are called with. -/
def Fn.looks : Fn → Bool
  | .tryLoop .. | .exceptStmt | .exceptClause => true
  | _ => false

/-- A body that does not look at the `except` status before it has set it.  `b`: the status has been set. -/
def Ins {α : Type} : Bool → Prog α → Prop
  | _, .ret _ | _, .fail _ _ | _, .panic => True
  | b, .getPos k => ∀ p, Ins b (k p)
  | b, .sym k x => (∀ t, Ins b (k t)) ∧ Ins b x
  | b, .adv k => Ins b k
  | b, .call f k => (b = true ∨ f.looks = false) ∧ ∀ t, Ins b (k t)
  | b, .getExc k => b = true ∧ ∀ x, Ins b (k x)
  | _, .setExc _ k => Ins true k

theorem Ins.mono {α : Type} {p : Prog α} : ∀ {b}, Ins b p → Ins true p := by
  induction p with
  | ret | fail | panic => intros; trivial
  | getPos k ih => intro b h p; exact ih _ (h p)
  | sym k x ih1 ih2 => intro b h; exact ⟨fun t => ih1 _ (h.1 t), ih2 h.2⟩
  | adv k ih => intro b h; exact ih (b := b) h
  | call f k ih => intro b h; exact ⟨.inl rfl, fun t => ih _ (h.2 t)⟩
  | getExc k ih => intro b h; exact ⟨rfl, fun t => ih _ (h.2 t)⟩
  | setExc x k ih => intro b h; exact h

theorem ins_bind {α β : Type} {p : Prog α} {f : α → Prog β} : ∀ {b}, Ins b p → (∀ a, Ins b (f a)) → Ins b (p >>= f) := by
  show ∀ {b}, Ins b p → (∀ a, Ins b (f a)) → Ins b (p.bind f)
  induction p with
  | ret => intro b _ h'; exact h' _
  | fail | panic => intros; trivial
  | getPos k ih => intro b h h' p; exact ih _ (h p) h'
  | sym k x ih1 ih2 => intro b h h'; exact ⟨fun t => ih1 _ (h.1 t) h', ih2 h.2 h'⟩
  | adv k ih => intro b h h'; exact ih (b := b) h h'
  | call f k ih => intro b h h'; exact ⟨h.1, fun t => ih _ (h.2 t) h'⟩
  | getExc k ih => intro b h h'; exact ⟨h.1, fun t => ih _ (h.2 t) h'⟩
  | setExc x k ih => intro b h h'; exact ih (b := true) h (fun a => (h' a).mono)

theorem Clean.ins {α : Type} {p : Prog α} (h : Clean Fn.isExpr p) {b} : Ins b p := by
  induction h with
  | ret | fail | panic => trivial
  | getPos _ ih => exact ih
  | sym _ _ ih1 ih2 => exact ⟨ih1, ih2⟩
  | adv _ ih => exact ih
  | @call f _ h _ ih => exact ⟨.inr (by cases f <;> first | rfl | cases h), ih⟩

section
variable {b : Bool}
theorem ins_here : Ins b here := fun _ => trivial
theorem ins_next : Ins b next := trivial
theorem ins_symAt {p s} : Ins b (symAt p s) := ⟨fun _ => trivial, trivial⟩
theorem ins_symHere {s} : Ins b (symHere s) := ⟨fun _ => trivial, fun _ => trivial⟩
theorem ins_sym? : Ins b sym? := ⟨fun _ => trivial, trivial⟩
theorem ins_failHere {α : Type} {s} : Ins (α := α) b (failHere s) := fun _ => trivial
theorem ins_mk {t s l} : Ins b (Prog.mk t s l) := fun _ => trivial
theorem ins_parse {f} (h : f.looks = false) : Ins b (parse f) := ⟨.inr h, fun _ => trivial⟩
theorem ins_parse' {f} : Ins true (parse f) := ⟨.inl rfl, fun _ => trivial⟩
theorem ins_pure {α : Type} {a : α} : Ins b (pure a) := trivial
theorem ins_fail {α : Type} {p s} : Ins (α := α) b (.fail p s) := trivial
theorem ins_panic {α : Type} : Ins (α := α) b .panic := trivial
theorem ins_set {α β : Type} {x} {a : α} {k : α → Prog β} (h : ∀ a, Ins true (k a)) : Ins b (.setExc x (pure a) >>= k) := h a
theorem ins_setPure {α : Type} {x} {a : α} : Ins b (.setExc x (pure a)) := trivial
theorem ins_get {α : Type} {k : ExcStatus → Prog α} (h : ∀ x, Ins true (k x)) : Ins true (.getExc k) := ⟨rfl, h⟩
theorem ins_ite {α : Type} {c : Prop} [Decidable c] {p q : Prog α} (h : Ins b p) (h' : Ins b q) : Ins b (if c then p else q) := by
  split <;> assumption
theorem ins_listResult {t s l p} : Ins b (listResult t s l p) := by
  unfold listResult; split <;> first | exact ins_mk | exact ins_pure
theorem ins_starResult {s l p} : Ins b (testlistStarExprResult s l p) := by
  unfold testlistStarExprResult; split <;> first | exact ins_mk | exact ins_pure
end

macro "in_step" : tactic => `(tactic| first
  | with_reducible exact ins_here | with_reducible exact ins_next | with_reducible exact ins_symAt
  | with_reducible exact ins_symHere | with_reducible exact ins_sym? | with_reducible exact ins_failHere
  | with_reducible exact ins_mk | with_reducible exact ins_parse' | ((with_reducible refine ins_parse ?_); rfl) | with_reducible exact ins_pure
  | with_reducible exact ins_fail | with_reducible exact ins_panic
  | with_reducible exact ins_listResult | with_reducible exact ins_starResult
  | with_reducible exact ins_setPure
  | (with_reducible refine ins_set ?_)
  | (with_reducible refine ins_get ?_)
  | (with_reducible refine ins_bind ?_ ?_)
  | (with_reducible refine ins_ite ?_ ?_)
  | intro _
  | split
  | dsimp only)

theorem ins_stmt : Ins false (stmtBody) := by
  unfold stmtBody
  repeat in_step
theorem ins_simpleStmt : Ins false (simpleStmtBody) := by
  unfold simpleStmtBody
  repeat in_step
theorem ins_simpleStmtLoop {s} {n} {p} : Ins false (simpleStmtLoopBody s n p) := by
  unfold simpleStmtLoopBody
  try simp only [simpleStmtLoopBody.fin]
  repeat in_step
theorem ins_smallStmt : Ins false (smallStmtBody) := by
  unfold smallStmtBody
  repeat in_step
theorem ins_exprStmt : Ins false (exprStmtBody) := by
  unfold exprStmtBody
  try simp only [yieldOrTestlist]
  repeat in_step
theorem ins_assignLoop {s} {l} {n} : Ins false (assignLoopBody s l n) := by
  unfold assignLoopBody
  try simp only [yieldOrTestlist]
  repeat in_step
theorem ins_annAssign {s} {l} : Ins false (annAssignBody s l) := by
  unfold annAssignBody
  try simp only [yieldOrTestlist]
  repeat in_step
theorem ins_delStmt : Ins false (delStmtBody) := by
  unfold delStmtBody
  repeat in_step
theorem ins_passStmt : Ins false (passStmtBody) := by
  unfold passStmtBody
  repeat in_step
theorem ins_flowStmt : Ins false (flowStmtBody) := by
  unfold flowStmtBody
  repeat in_step
theorem ins_breakStmt : Ins false (breakStmtBody) := by
  unfold breakStmtBody
  repeat in_step
theorem ins_continueStmt : Ins false (continueStmtBody) := by
  unfold continueStmtBody
  repeat in_step
theorem ins_returnStmt : Ins false (returnStmtBody) := by
  unfold returnStmtBody
  repeat in_step
theorem ins_yieldStmt : Ins false (yieldStmtBody) := by
  unfold yieldStmtBody
  repeat in_step
theorem ins_raiseStmt : Ins false (raiseStmtBody) := by
  unfold raiseStmtBody
  repeat in_step
theorem ins_importStmt : Ins false (importStmtBody) := by
  unfold importStmtBody
  repeat in_step
theorem ins_importName : Ins false (importNameBody) := by
  unfold importNameBody
  repeat in_step
theorem ins_importFrom : Ins false (importFromBody) := by
  unfold importFromBody
  repeat in_step
theorem ins_importDotLoop {s} {t} {d} : Ins false (importDotLoopBody s t d) := by
  unfold importDotLoopBody
  try simp only [importFromRest]
  repeat in_step
theorem ins_importAsName : Ins false (importAsNameBody) := by
  unfold importAsNameBody
  repeat in_step
theorem ins_dottedAsName : Ins false (dottedAsNameBody) := by
  unfold dottedAsNameBody
  repeat in_step
theorem ins_importAsNames : Ins false (importAsNamesBody) := by
  unfold importAsNamesBody
  repeat in_step
theorem ins_importAsNamesLoop {s} {n} {p} : Ins false (importAsNamesLoopBody s n p) := by
  unfold importAsNamesLoopBody
  repeat in_step
theorem ins_dottedAsNames : Ins false (dottedAsNamesBody) := by
  unfold dottedAsNamesBody
  repeat in_step
theorem ins_dottedAsNamesLoop {s} {n} {p} : Ins false (dottedAsNamesLoopBody s n p) := by
  unfold dottedAsNamesLoopBody
  repeat in_step
theorem ins_dottedName : Ins false (dottedNameBody) := by
  unfold dottedNameBody
  repeat in_step
theorem ins_dottedNameLoop {s} {n} {p} : Ins false (dottedNameLoopBody s n p) := by
  unfold dottedNameLoopBody
  repeat in_step
theorem ins_globalStmt : Ins false (globalStmtBody) := by
  unfold globalStmtBody
  repeat in_step
theorem ins_globalLoop {s} {t} {n} {p} : Ins false (globalLoopBody s t n p) := by
  unfold globalLoopBody
  repeat in_step
theorem ins_nonlocalStmt : Ins false (nonlocalStmtBody) := by
  unfold nonlocalStmtBody
  repeat in_step
theorem ins_nonlocalLoop {s} {t} {n} {p} : Ins false (nonlocalLoopBody s t n p) := by
  unfold nonlocalLoopBody
  repeat in_step
theorem ins_assertStmt : Ins false (assertStmtBody) := by
  unfold assertStmtBody
  repeat in_step
theorem ins_compoundStmt : Ins false (compoundStmtBody) := by
  unfold compoundStmtBody
  repeat in_step
theorem ins_asyncStmt : Ins false (asyncStmtBody) := by
  unfold asyncStmtBody
  repeat in_step
theorem ins_ifStmt : Ins false (ifStmtBody) := by
  unfold ifStmtBody
  repeat in_step
theorem ins_ifLoop {s} {t} {l} {t2} {r} {n} : Ins false (ifLoopBody s t l t2 r n) := by
  unfold ifLoopBody
  repeat in_step
theorem ins_elifStmt : Ins false (elifStmtBody) := by
  unfold elifStmtBody
  repeat in_step
theorem ins_elseStmt : Ins false (elseStmtBody) := by
  unfold elseStmtBody
  repeat in_step
theorem ins_whileStmt : Ins false (whileStmtBody) := by
  unfold whileStmtBody
  repeat in_step
theorem ins_forStmt : Ins false (forStmtBody) := by
  unfold forStmtBody
  repeat in_step
theorem ins_tryStmt : Ins false (tryStmtBody) := by
  unfold tryStmtBody
  repeat in_step
theorem ins_tryLoop {s} {t} {t2} {l} {n} : Ins true (tryLoopBody s t t2 l n) := by
  unfold tryLoopBody
  repeat in_step
theorem ins_finallyStmt : Ins false (finallyStmtBody) := by
  unfold finallyStmtBody
  repeat in_step
theorem ins_withStmt : Ins false (withStmtBody) := by
  unfold withStmtBody
  repeat in_step
theorem ins_withParenLoop {s} {t} {l} {n} {p} : Ins false (withParenLoopBody s t l n p) := by
  unfold withParenLoopBody
  try simp only [withParenEnd, withRest]
  repeat in_step
theorem ins_withLoop {s} {t} {n} {p} : Ins false (withLoopBody s t n p) := by
  unfold withLoopBody
  try simp only [withRest]
  repeat in_step
theorem ins_withItem : Ins false (withItemBody) := by
  unfold withItemBody
  repeat in_step
theorem ins_exceptStmt : Ins true (exceptStmtBody) := by
  unfold exceptStmtBody
  repeat in_step
theorem ins_exceptClause : Ins true (exceptClauseBody) := by
  unfold exceptClauseBody
  try simp only [exceptStar]
  repeat in_step
theorem ins_suite : Ins false (suiteBody) := by
  unfold suiteBody
  repeat in_step
theorem ins_suiteLoop {s} {t} {t2} {n} : Ins false (suiteLoopBody s t t2 n) := by
  unfold suiteLoopBody
  repeat in_step
theorem ins_evalInput : Ins false (evalInputBody) := by
  unfold evalInputBody
  repeat in_step
theorem ins_evalLoop {s} {r} {p} : Ins false (evalLoopBody s r p) := by
  unfold evalLoopBody
  repeat in_step
theorem ins_fileInput : Ins false (fileInputBody) := by
  unfold fileInputBody
  repeat in_step
theorem ins_fileLoop {s} {n} {p} : Ins false (fileLoopBody s n p) := by
  unfold fileLoopBody
  repeat in_step
theorem ins_singleInput : Ins false (singleInputBody) := by
  unfold singleInputBody
  try simp only [singleNewline]
  repeat in_step
theorem ins_funcTypeInput : Ins false (funcTypeInputBody) := by
  unfold funcTypeInputBody
  repeat in_step
theorem ins_funcTypeLoop {s} {r} {p} : Ins false (funcTypeLoopBody s r p) := by
  unfold funcTypeLoopBody
  repeat in_step
theorem ins_decorator : Ins false (decoratorBody) := by
  unfold decoratorBody
  try simp only [decoratorEnd]
  repeat in_step
theorem ins_decorators : Ins false (decoratorsBody) := by
  unfold decoratorsBody
  repeat in_step
theorem ins_decoratorsLoop {s} {n} : Ins false (decoratorsLoopBody s n) := by
  unfold decoratorsLoopBody
  repeat in_step
theorem ins_decorated : Ins false (decoratedBody) := by
  unfold decoratedBody
  repeat in_step
theorem ins_asyncFuncDef : Ins false (asyncFuncDefBody) := by
  unfold asyncFuncDefBody
  repeat in_step
theorem ins_funcDef : Ins false (funcDefBody) := by
  unfold funcDefBody
  repeat in_step
theorem ins_parameters : Ins false (parametersBody) := by
  unfold parametersBody
  repeat in_step
theorem ins_typedArgsList : Ins false (typedArgsListBody) := by
  unfold typedArgsListBody
  repeat in_step
theorem ins_tfpDefAssign : Ins false (tfpDefAssignBody) := by
  unfold tfpDefAssignBody
  repeat in_step
theorem ins_tfpDef : Ins false (tfpDefBody) := by
  unfold tfpDefBody
  repeat in_step
theorem ins_funcBodySuite : Ins false (funcBodySuiteBody) := by
  unfold funcBodySuiteBody
  try simp only [funcBodyIndent]
  repeat in_step
theorem ins_funcBodyLoop {s} {t} {tc} {tn} {t4} {n} : Ins false (funcBodyLoopBody s t tc tn t4 n) := by
  unfold funcBodyLoopBody
  repeat in_step
theorem ins_classDef : Ins false (classDefBody) := by
  unfold classDefBody
  try simp only [classRest]
  repeat in_step
theorem ins_funcType : Ins false (funcTypeBody) := by
  unfold funcTypeBody
  repeat in_step
theorem ins_typeList : Ins false (typeListBody) := by
  unfold typeListBody
  try simp only [typeListMul, typeListPower, typeListResult]
  repeat in_step
theorem ins_typeListMainLoop {s} {v} : Ins false (typeListMainLoopBody s v) := by
  unfold typeListMainLoopBody
  try simp only [typeListMul, typeListPower, typeListResult]
  repeat in_step
theorem ins_typeListStarLoop {s} {v} : Ins false (typeListStarLoopBody s v) := by
  unfold typeListStarLoopBody
  try simp only [typeListPower, typeListResult]
  repeat in_step
theorem ins_patternsMatch : Ins false (patternsMatchBody) := by
  unfold patternsMatchBody
  repeat in_step

theorem ins_all (f : Fn) : Ins f.looks (body f) := by
  by_cases he : f.isExpr = true
  · have := (clean_body he).ins (b := f.looks); exact this
  · cases f <;> first | exact absurd rfl he | skip
    · exact ins_stmt
    · exact ins_simpleStmt
    · exact ins_simpleStmtLoop
    · exact ins_smallStmt
    · exact ins_exprStmt
    · exact ins_assignLoop
    · exact ins_annAssign
    · exact ins_delStmt
    · exact ins_passStmt
    · exact ins_flowStmt
    · exact ins_breakStmt
    · exact ins_continueStmt
    · exact ins_returnStmt
    · exact ins_yieldStmt
    · exact ins_raiseStmt
    · exact ins_importStmt
    · exact ins_importName
    · exact ins_importFrom
    · exact ins_importDotLoop
    · exact ins_importAsName
    · exact ins_dottedAsName
    · exact ins_importAsNames
    · exact ins_importAsNamesLoop
    · exact ins_dottedAsNames
    · exact ins_dottedAsNamesLoop
    · exact ins_dottedName
    · exact ins_dottedNameLoop
    · exact ins_globalStmt
    · exact ins_globalLoop
    · exact ins_nonlocalStmt
    · exact ins_nonlocalLoop
    · exact ins_assertStmt
    · exact ins_compoundStmt
    · exact ins_asyncStmt
    · exact ins_ifStmt
    · exact ins_ifLoop
    · exact ins_elifStmt
    · exact ins_elseStmt
    · exact ins_whileStmt
    · exact ins_forStmt
    · exact ins_tryStmt
    · exact ins_tryLoop
    · exact ins_finallyStmt
    · exact ins_withStmt
    · exact ins_withParenLoop
    · exact ins_withLoop
    · exact ins_withItem
    · exact ins_exceptStmt
    · exact ins_exceptClause
    · exact ins_suite
    · exact ins_suiteLoop
    · exact ins_evalInput
    · exact ins_evalLoop
    · exact ins_fileInput
    · exact ins_fileLoop
    · exact ins_singleInput
    · exact ins_funcTypeInput
    · exact ins_funcTypeLoop
    · exact ins_decorator
    · exact ins_decorators
    · exact ins_decoratorsLoop
    · exact ins_decorated
    · exact ins_asyncFuncDef
    · exact ins_funcDef
    · exact ins_parameters
    · exact ins_typedArgsList
    · exact ins_tfpDefAssign
    · exact ins_tfpDef
    · exact ins_funcBodySuite
    · exact ins_funcBodyLoop
    · exact ins_classDef
    · exact ins_funcType
    · exact ins_typeList
    · exact ins_typeListMainLoop
    · exact ins_typeListStarLoop
    · exact ins_patternsMatch

end Verif
