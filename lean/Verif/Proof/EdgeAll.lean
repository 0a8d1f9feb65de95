import Verif.Proof.EdgeStmt

/-!
# The bodies of the functions that parse statements, up to the end of the text
-/

namespace Verif
open Prog
variable {e : Token → Token} [Uni] [Keeps e] {B : PSt} {r : Fn → PSt → Res Tree}

attribute [local irreducible] J Dead

macro "js_leaf" : tactic => `(tactic| first
  | rfl
  | assumption
  | (simp only [Lk.rel, Tree.erase, eraseList, eraseList_append, erase_toks, List.map_append, List.map_reverse, eraseList_reverse,
      List.map_cons, List.map_nil, *]; done))

/-- The two conditions. -/
macro "js_cond" : tactic => `(tactic| first
  | (simp only [*]; done)
  | (simp_all only [Starts, ne_eq, not_false_eq_true, reduceCtorEq, false_iff, iff_false, or_self]; done))

macro "js_absurd" : tactic => `(tactic| focus (exfalso; simp_all only [reduceCtorEq, or_self]; done))

macro "dead_step" : tactic => `(tactic| first
  | with_reducible exact Dead.fail
  | ((with_reducible refine Dead.symAt ?_); intro _ _; try dsimp only)
  | ((with_reducible refine Dead.parse (by assumption) rfl rfl); done)
  | ((with_reducible refine Dead.parse' (by assumption) rfl rfl); done)
  | (rw [if_neg (by simp only [*, reduceCtorEq, not_false_eq_true])])
  | ((with_reducible refine Dead.pure_bind ?_)))
macro "dead_auto" : tactic => `(tactic| (repeat' dead_step))

macro "js_step" : tactic => `(tactic| first
  | with_reducible exact J.fail
  | with_reducible exact J.panic
  | ((with_reducible refine J.here ?_); intro _ _)
  | ((with_reducible refine J.symAt ?_); intro _ _ _ _ _)
  | ((with_reducible refine J.symAtE ?_); intro _ _ _ _)
  | ((with_reducible refine J.next ?_ ?_); rotate_left; (intro h; first | js_absurd | focus (refine J.of_dead ?_; dead_auto; done) | skip))
  | ((with_reducible refine J.stmt' (by assumption) rfl ?_); with_reducible constructor)
  | ((with_reducible refine J.stmt (by assumption) rfl ?_ ?_ ?_); (with_reducible constructor); (intro _ _ _); rotate_left; (intro _ _ _))
  | ((with_reducible refine J.expr (by assumption) ?_ ?_ ?_); (with_reducible constructor); (intro _ _ _); rotate_left; (intro _; dead_auto))
  | ((with_reducible refine J.mk ?_))
  | ((with_reducible refine J.ite (by js_cond) ?_ ?_) <;> intro h <;> first | js_absurd | skip)
  | ((with_reducible refine J.ite_bind (by js_cond) ?_ ?_) <;> intro h <;> first | js_absurd | skip)
  | ((with_reducible refine J.pure_bind ?_))
  | ((with_reducible refine J.assoc ?_))
  | ((with_reducible refine J.setExc ?_))
  | ((with_reducible refine J.of_mid ?_))
  | js_leaf)
macro "js_auto" : tactic => `(tactic| (repeat' js_step))

theorem js_stmt (hr : Rec e B r) : J r e B .mid stmtBody stmtBody := by
  unfold stmtBody; js_auto
theorem js_simpleStmt (hr : Rec e B r) : J r e B .mid simpleStmtBody simpleStmtBody := by
  unfold simpleStmtBody; js_auto
theorem js_compoundStmt (hr : Rec e B r) : J r e B .mid compoundStmtBody compoundStmtBody := by
  unfold compoundStmtBody; js_auto
theorem js_asyncStmt (hr : Rec e B r) : J r e B .mid asyncStmtBody asyncStmtBody := by
  unfold asyncStmtBody; js_auto
theorem js_ifStmt (hr : Rec e B r) : J r e B .mid ifStmtBody ifStmtBody := by
  unfold ifStmtBody; js_auto
theorem js_elifStmt (hr : Rec e B r) : J r e B .mid elifStmtBody elifStmtBody := by
  unfold elifStmtBody; js_auto
theorem js_elseStmt (hr : Rec e B r) : J r e B .mid elseStmtBody elseStmtBody := by
  unfold elseStmtBody; js_auto
theorem js_whileStmt (hr : Rec e B r) : J r e B .mid whileStmtBody whileStmtBody := by
  unfold whileStmtBody; js_auto
theorem js_forStmt (hr : Rec e B r) : J r e B .mid forStmtBody forStmtBody := by
  unfold forStmtBody; js_auto
theorem js_tryStmt (hr : Rec e B r) : J r e B .mid tryStmtBody tryStmtBody := by
  unfold tryStmtBody; js_auto
theorem js_finallyStmt (hr : Rec e B r) : J r e B .mid finallyStmtBody finallyStmtBody := by
  unfold finallyStmtBody; js_auto
theorem js_withStmt (hr : Rec e B r) : J r e B .mid withStmtBody withStmtBody := by
  unfold withStmtBody; js_auto
theorem js_exceptStmt (hr : Rec e B r) : J r e B .mid exceptStmtBody exceptStmtBody := by
  unfold exceptStmtBody; js_auto
theorem js_suite (hr : Rec e B r) : J r e B .mid suiteBody suiteBody := by
  unfold suiteBody; js_auto
theorem js_funcDef (hr : Rec e B r) : J r e B .mid funcDefBody funcDefBody := by
  unfold funcDefBody; js_auto
theorem js_funcBodySuite (hr : Rec e B r) : J r e B .mid funcBodySuiteBody funcBodySuiteBody := by
  unfold funcBodySuiteBody funcBodyIndent; js_auto
theorem js_classDef (hr : Rec e B r) : J r e B .mid classDefBody classDefBody := by
  unfold classDefBody classRest; js_auto
theorem js_simpleStmtLoop (hr : Rec e B r) (s s' : Nat) (l l' : List Tree) (p p' : List Token) (h1 : eraseList e l = eraseList e l') (h2 : p.map e = p'.map e) :
    J r e B .mid (simpleStmtLoopBody s l p) (simpleStmtLoopBody s' l' p') := by
  unfold simpleStmtLoopBody simpleStmtLoopBody.fin; js_auto
theorem js_ifLoop (hr : Rec e B r) (s s' : Nat) (t t' : Token) (a a' : Tree) (t2 t2' : Token) (b b' : Tree) (l l' : List Tree) (h1 : e t = e t') (h2 : a.erase e = a'.erase e) (h3 : e t2 = e t2') (h4 : b.erase e = b'.erase e) (h5 : eraseList e l = eraseList e l') :
    J r e B .mid (ifLoopBody s t a t2 b l) (ifLoopBody s' t' a' t2' b' l') := by
  unfold ifLoopBody; js_auto
theorem js_ifLoopE (hr : Rec e B r) (s s' : Nat) (t t' : Token) (a a' : Tree) (t2 t2' : Token) (b b' : Tree) (l l' : List Tree) (h1 : e t = e t') (h2 : a.erase e = a'.erase e) (h3 : e t2 = e t2') (h4 : b.erase e = b'.erase e) (h5 : eraseList e l = eraseList e l') :
    J r e B .edge (ifLoopBody s t a t2 b l) (ifLoopBody s' t' a' t2' b' l') := by
  unfold ifLoopBody; js_auto
theorem js_tryLoop (hr : Rec e B r) (s s' : Nat) (t t' : Token) (t2 t2' : Token) (a a' : Tree) (l l' : List Tree) (h1 : e t = e t') (h3 : e t2 = e t2') (h4 : a.erase e = a'.erase e) (h5 : eraseList e l = eraseList e l') :
    J r e B .mid (tryLoopBody s t t2 a l) (tryLoopBody s' t' t2' a' l') := by
  unfold tryLoopBody; js_auto
theorem js_tryLoopE (hr : Rec e B r) (s s' : Nat) (t t' : Token) (t2 t2' : Token) (a a' : Tree) (l l' : List Tree) (h1 : e t = e t') (h3 : e t2 = e t2') (h4 : a.erase e = a'.erase e) (h5 : eraseList e l = eraseList e l') :
    J r e B .edge (tryLoopBody s t t2 a l) (tryLoopBody s' t' t2' a' l') := by
  unfold tryLoopBody; js_auto
theorem js_withParenLoop (hr : Rec e B r) (s s' : Nat) (t t' : Token) (t2 t2' : Token) (l l' : List Tree) (p p' : List Token) (h1 : e t = e t') (h3 : e t2 = e t2') (h4 : eraseList e l = eraseList e l') (h5 : p.map e = p'.map e) :
    J r e B .mid (withParenLoopBody s t t2 l p) (withParenLoopBody s' t' t2' l' p') := by
  unfold withParenLoopBody withParenEnd withRest; js_auto
theorem js_withLoop (hr : Rec e B r) (s s' : Nat) (t t' : Token) (l l' : List Tree) (p p' : List Token) (h1 : e t = e t') (h4 : eraseList e l = eraseList e l') (h5 : p.map e = p'.map e) :
    J r e B .mid (withLoopBody s t l p) (withLoopBody s' t' l' p') := by
  unfold withLoopBody withRest; js_auto
theorem js_suiteLoop (hr : Rec e B r) (s s' : Nat) (t t' : Token) (t2 t2' : Token) (l l' : List Tree) (h1 : e t = e t') (h3 : e t2 = e t2') (h4 : eraseList e l = eraseList e l') :
    J r e B .mid (suiteLoopBody s t t2 l) (suiteLoopBody s' t' t2' l') := by
  unfold suiteLoopBody; js_auto
theorem js_funcBodyLoop (hr : Rec e B r) (s s' : Nat) (t t' : Token) (a a' b b' : Tree) (t2 t2' : Token) (l l' : List Tree) (h1 : e t = e t') (h6 : a.erase e = a'.erase e) (h7 : b.erase e = b'.erase e) (h3 : e t2 = e t2') (h4 : eraseList e l = eraseList e l') :
    J r e B .mid (funcBodyLoopBody s t a b t2 l) (funcBodyLoopBody s' t' a' b' t2' l') := by
  unfold funcBodyLoopBody; js_auto

/-- A function that parses statements does the same in both parsers, and stops at the same place. -/
theorem js_body (hr : Rec e B r) {f g : Fn} (hl : Fn.Like e f g) (hs : f.isS = true) (hd : f ≠ .decorated) :
    J r e B .mid (body f) (body g) := by
  cases hl <;> first | (cases hs; done) | skip
  case stmt => exact js_stmt hr
  case simpleStmt => exact js_simpleStmt hr
  case simpleStmtLoop => exact js_simpleStmtLoop hr _ _ _ _ _ _ (by assumption) (by assumption)
  case compoundStmt => exact js_compoundStmt hr
  case asyncStmt => exact js_asyncStmt hr
  case ifStmt => exact js_ifStmt hr
  case ifLoop => exact js_ifLoop hr _ _ _ _ _ _ _ _ _ _ _ _ (by assumption) (by assumption) (by assumption) (by assumption) (by assumption)
  case elifStmt => exact js_elifStmt hr
  case elseStmt => exact js_elseStmt hr
  case whileStmt => exact js_whileStmt hr
  case forStmt => exact js_forStmt hr
  case tryStmt => exact js_tryStmt hr
  case tryLoop => exact js_tryLoop hr _ _ _ _ _ _ _ _ _ _ (by assumption) (by assumption) (by assumption) (by assumption)
  case finallyStmt => exact js_finallyStmt hr
  case withStmt => exact js_withStmt hr
  case withParenLoop => exact js_withParenLoop hr _ _ _ _ _ _ _ _ _ _ (by assumption) (by assumption) (by assumption) (by assumption)
  case withLoop => exact js_withLoop hr _ _ _ _ _ _ _ _ (by assumption) (by assumption) (by assumption)
  case exceptStmt => exact js_exceptStmt hr
  case suite => exact js_suite hr
  case suiteLoop => exact js_suiteLoop hr _ _ _ _ _ _ _ _ (by assumption) (by assumption) (by assumption)
  case decorated => exact (hd rfl).elim
  case funcDef => exact js_funcDef hr
  case funcBodySuite => exact js_funcBodySuite hr
  case funcBodyLoop => exact js_funcBodyLoop hr _ _ _ _ _ _ _ _ _ _ _ _ (by assumption) (by assumption) (by assumption) (by assumption) (by assumption)
  case classDef => exact js_classDef hr
  case patternsMatch => exact J.panic

theorem rec_run (n : Nat) : Rec e B (run n) := by
  induction n with
  | zero =>
    constructor
    · intro f g _ k c d _ t c' h; cases h
    · intro f g _ _ k c d _ t c' h; cases h
    · intro f _ _ c _ t c' h; cases h
  | succ n ih =>
    refine ⟨run_off (n + 1), fun f g hl hs k c d hk t c' h => ?_, fun f hs ho c hc t c' h => (run_exact h).edge hs ho hc⟩
    cases k with
    | succ k =>
      refine (js_body ih hl hs ?_).out c d ⟨k, hk⟩ t c' h
      rintro rfl
      exact run_exact h
    | zero =>
      by_cases ho : f.isOpt = true
      · cases hl <;> first | (cases ho; done) | skip
        case ifLoop => exact (js_ifLoopE ih _ _ _ _ _ _ _ _ _ _ _ _ (by assumption) (by assumption) (by assumption) (by assumption) (by assumption)).out c d hk t c' h
        case tryLoop => exact (js_tryLoopE ih _ _ _ _ _ _ _ _ _ _ (by assumption) (by assumption) (by assumption) (by assumption)).out c d hk t c' h
      · exact ((run_exact h).edge hs (by simpa using ho) hk.zero).elim

end Verif
