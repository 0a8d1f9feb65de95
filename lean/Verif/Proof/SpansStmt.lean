import Verif.Proof.SpansExpr

/-!
# Where the nodes of a tree start and end: statements, definitions, entry points
-/

namespace Verif
open Prog
set_option linter.unusedVariables false

section
variable [Uni]
attribute [local irreducible] Sp SpFrom SpFromE SpPeek SpFromPeek SpLoose WP PSt.advance PSt.pos

theorem sp_simpleStmtLoop (s ns ss c) : WP ΦP (simpleStmtLoopBody s ns ss) c (ΦP (.simpleStmtLoop s ns ss) c) := by
  unfold simpleStmtLoopBody simpleStmtLoopBody.fin
  sp_simp
  intro t ht
  refine ⟨fun hk t2 ht2 => ⟨fun hk2 t3 ht3 hk3 hl => ?_, fun _ x c1 v y c2 hy hl => ?_⟩, fun _ t3 ht3 hk3 hl => ?_⟩
  · refine SpFrom.fin (m := [.tok t, .tok t3]) ?_ (.tok ht (.tok ht3 (.refl _))) rfl
    refine congrArg some ?_
    rw [List.map_reverse, List.reverse_reverse, List.reverse_reverse, List.map_append, List.map_singleton,
      alternate_trailing (by simpa using hl), List.append_assoc]
    rfl
  · exact SpFrom.snoc (p := []) hl hy (.tok ht v)
  · exact SpFrom.fin (m := [.tok t3]) (by arr) (.tok ht3 (.refl _)) rfl

theorem sp_yieldOrTestlist (s c) : WP ΦP (yieldOrTestlist s) c (Sp1 c) := by
  unfold yieldOrTestlist; sp_simp; try (wp_paths <;> sp_close)

theorem sp_assignLoop (s l ns c) : WP ΦP (assignLoopBody s l ns) c (ΦP (.assignLoop s l ns) c) := by
  unfold assignLoopBody
  sp_simp
  intro t ht
  refine ⟨fun hk => ?_, fun _ => ⟨fun hk => ?_, fun _ => ?_⟩⟩
  · refine wp_mono _ (fun x c1 hx => ?_) (sp_yieldOrTestlist _ _)
    intro y c2 hy
    have v := hx.elim
    exact SpFrom.step (l := l :: ns) hy (.seq (.tok ht v))
  · refine SpFrom.intro fun c0 hs hp => .node rfl ?_ hs rfl
    exact (Sp.pack (l := [l]) hp).app (.tok ht (.refl _))
  · refine SpFrom.intro fun c0 hs hp => .node rfl ?_ hs rfl
    exact (Sp.pack (l := [l]) hp).app (.none (.refl _))

theorem sp_annAssign (s l c) : WP ΦP (annAssignBody s l) c (ΦP (.annAssign s l) c) := by
  unfold annAssignBody
  sp_simp
  intro t ht hk x c1 v t2 ht2
  refine ⟨fun hk => ?_, fun _ => ?_⟩
  · refine wp_mono _ (fun y c2 hy => ?_) (sp_yieldOrTestlist _ _)
    have z := hy.elim
    refine SpFrom.intro fun c0 hs hp => .node rfl ?_ hs rfl
    exact hp.app (.tok ht (.cons v (.seq (.tok ht2 z))))
  · refine SpFrom.intro fun c0 hs hp => .node rfl ?_ hs rfl
    exact hp.app (.tok ht (.cons v (.none (.refl _))))

theorem sp_exprStmt (c) : WP ΦP exprStmtBody c (ΦP .exprStmt c) := by
  unfold exprStmtBody
  sp_simp
  intro x c1 v t ht
  refine ⟨fun hk y c2 hy => ?_, fun _ => ⟨fun hk y c2 hy => ?_, fun _ => ?_⟩⟩
  · exact Sp1.of hy v rfl
  · exact Sp1.of hy v rfl
  · split
    · rename_i tag htag
      sp_simp
      refine wp_mono _ (fun y c2 hy => ?_) (sp_yieldOrTestlist _ _)
      have z := hy.elim
      refine Sp1.mk (.node (fs' := [x, .tok t, y]) ?_ (.cons v (.tok ht z)) rfl rfl ?_) <;>
        unfold augOp at htag <;> split at htag <;> simp at htag <;> subst htag <;> rfl
    · sp_simp
      exact Sp1.mk v

theorem sp_importFromRest (s t ds c) :
    WP ΦP (importFromRest s t ds) c (SpFrom s (.tok t :: ds.map .tok) c) := by
  unfold importFromRest
  sp_simp
  intro t3 ht3
  have key : ∀ left c1, Sp c [left] c1 → WP ΦP (do
      let t4 ← symAt s "Expecting 'import' in from import statement!"
      if t4.kind = .PyImport then do
        next
        let t5 ← symAt s "Expecting symbol in 'from' statement!"
        if t5.kind = .PyMul then do
          next
          mk .ImportFromStmt s [.tok t, .toks ds.reverse, left, .tok t4, .tok t5, .none, .none]
        else if t5.kind = .PyLeftParen then do
          next
          let right ← parse .importAsNames
          let t6 ← symAt s "Expecting symbol in 'from' statement!"
          if t6.kind = .PyRightParen then do
            next
            mk .ImportFromStmt s
              [.tok t, .toks ds.reverse, left, .tok t4, .tok t5, right, .tok t6]
          else fail s "Expecting ')' in from import statement!"
        else do
          let right ← parse .importAsNames
          mk .ImportFromStmt s [.tok t, .toks ds.reverse, left, .tok t4, .none, right, .none]
      else fail s "Expecting symbol in 'from' statement!") c1 (SpFrom s (.tok t :: ds.map .tok) c) := by
    intro left c1 hl
    sp_simp
    intro t4 ht4 hk t5 ht5
    refine ⟨fun _ => ?_, fun _ => ⟨fun _ x c2 v t6 ht6 _ => ?_, fun _ x c2 v => ?_⟩⟩
    · refine SpFrom.fin (m := [left, .tok t4, .tok t5, .none, .none]) (by arr) ?_ rfl
      exact .cons hl (.tok ht4 (.tok ht5 (.none (.none (.refl _)))))
    · refine SpFrom.fin (m := [left, .tok t4, .tok t5, x, .tok t6]) (by arr) ?_ rfl
      exact .cons hl (.tok ht4 (.tok ht5 (.cons v (.tok ht6 (.refl _)))))
    · refine SpFrom.fin (m := [left, .tok t4, .none, x, .none]) (by arr) ?_ rfl
      exact .cons hl (.tok ht4 (.none (.cons v (.none (.refl _)))))
  refine ⟨fun _ => fun _ => ?_, fun _ x c1 v => ?_⟩
  · have := key _ _ (.none (.refl _))
    revert this; sp_simp
  · have := key _ _ v
    revert this; sp_simp

theorem sp_importDotLoop (s t ds c) : WP ΦP (importDotLoopBody s t ds) c (ΦP (.importDotLoop s t ds) c) := by
  unfold importDotLoopBody
  sp_simp
  refine ⟨fun t2 ht2 => ⟨fun hk x c1 hx => ?_, fun _ => ?_⟩, fun _ _ => ?_⟩
  · rw [List.map_append] at hx
    exact SpFrom.step (l := .tok t :: ds.map .tok) hx (.tok ht2 (.refl _))
  · exact sp_importFromRest _ _ _ _
  · exact sp_importFromRest _ _ _ _

theorem sp_importAsNamesLoop (s ns ss c) :
    WP ΦP (importAsNamesLoopBody s ns ss) c (ΦP (.importAsNamesLoop s ns ss) c) := by
  unfold importAsNamesLoopBody
  sp_simp
  intro t ht
  refine ⟨fun hk x c1 v y c2 hy hl => ?_, fun _ hl => ?_⟩
  · exact SpFrom.snoc (p := []) hl hy (.tok ht v)
  · exact SpFrom.fin (m := []) (by arr) (.refl _) rfl

theorem sp_dottedAsNamesLoop (s ns ss c) :
    WP ΦP (dottedAsNamesLoopBody s ns ss) c (ΦP (.dottedAsNamesLoop s ns ss) c) := by
  unfold dottedAsNamesLoopBody
  sp_simp
  intro t ht
  refine ⟨fun hk x c1 v y c2 hy hl => ?_, fun _ hl => ?_⟩
  · exact SpFrom.snoc (p := []) hl hy (.tok ht v)
  · exact SpFrom.fin (m := []) (by arr) (.refl _) rfl

theorem sp_dottedNameLoop (s ns ss c) : WP ΦP (dottedNameLoopBody s ns ss) c (ΦP (.dottedNameLoop s ns ss) c) := by
  unfold dottedNameLoopBody
  sp_simp
  intro t ht
  refine ⟨fun hk t2 ht2 hk2 y c2 hy hl => ?_, fun _ hl => ?_⟩
  · refine SpFrom.snoc (p := []) (ns := ns.map .tok) (x := .tok t2) (by simpa using hl) (fun h => ?_)
      (.tok ht (.tok ht2 (.refl _)))
    have := hy (by simpa using hl)
    rwa [List.map_append] at this
  · exact SpFrom.fin (m := []) (by arr) (.refl _) rfl

theorem sp_globalLoop (s g ns ss c) : WP ΦP (globalLoopBody s g ns ss) c (ΦP (.globalLoop s g ns ss) c) := by
  unfold globalLoopBody
  sp_simp
  intro t ht
  refine ⟨fun hk t2 ht2 hk2 y c2 hy hl => ?_, fun _ hl => ?_⟩
  · refine SpFrom.snoc (p := [.tok g]) (ns := ns.map .tok) (x := .tok t2) (by simpa using hl) (fun h => ?_)
      (.tok ht (.tok ht2 (.refl _)))
    have := hy (by simpa using hl)
    rwa [List.map_append] at this
  · exact SpFrom.fin (m := []) (by arr) (.refl _) rfl

theorem sp_nonlocalLoop (s g ns ss c) : WP ΦP (nonlocalLoopBody s g ns ss) c (ΦP (.nonlocalLoop s g ns ss) c) := by
  unfold nonlocalLoopBody
  sp_simp
  intro t ht
  refine ⟨fun hk t2 ht2 hk2 y c2 hy hl => ?_, fun _ hl => ?_⟩
  · refine SpFrom.snoc (p := [.tok g]) (ns := ns.map .tok) (x := .tok t2) (by simpa using hl) (fun h => ?_)
      (.tok ht (.tok ht2 (.refl _)))
    have := hy (by simpa using hl)
    rwa [List.map_append] at this
  · exact SpFrom.fin (m := []) (by arr) (.refl _) rfl

theorem sp_ifLoop (s t l t2 r ns c) : WP ΦP (ifLoopBody s t l t2 r ns) c (ΦP (.ifLoop s t l t2 r ns) c) := by
  unfold ifLoopBody
  sp_simp
  intro t3 ht3
  refine ⟨fun hk x c1 v y c2 hy => ?_, fun _ => ⟨fun _ x c1 v => ?_, fun _ => ?_⟩⟩
  · exact SpFrom.step (l := .tok t :: l :: .tok t2 :: r :: ns) hy v
  · exact SpFrom.fin (m := [x]) (by arr) v rfl
  · exact SpFrom.fin (m := [.none]) (by arr) (.none (.refl _)) rfl

theorem sp_tryLoop (s t t2 l ns c) : WP ΦP (tryLoopBody s t t2 l ns) c (ΦP (.tryLoop s t t2 l ns) c) := by
  unfold tryLoopBody
  sp_simp
  intro t3 ht3
  refine ⟨fun hk x c1 v y c2 hy => ?_, fun _ t5 ht5 => ⟨fun _ x c1 v t6 ht6 => ⟨fun _ y c2 z => ?_, fun _ => ?_⟩, fun _ t6 ht6 => ⟨fun _ y c2 z => ?_, fun _ => ?_⟩⟩⟩
  · exact SpFrom.step (l := .tok t :: .tok t2 :: l :: ns) hy v
  · exact SpFrom.fin (m := [x, y]) (by arr) (.cons v z) rfl
  · exact SpFrom.fin (m := [x, .none]) (by arr) (.cons v (.none (.refl _))) rfl
  · exact SpFrom.fin (m := [.none, y]) (by arr) (.none z) rfl
  · exact SpFrom.fin (m := [.none, .none]) (by arr) (.none (.none (.refl _))) rfl

theorem sp_withRest (s t lp ns ss rp c) {c0} (h0 : Sp c0 [rp] c) :
    WP ΦP (withRest s t lp ns ss rp) c (SpFrom s (.tok t :: lp :: alternate ns (ss.map .tok)) c0) := by
  unfold withRest
  sp_simp
  intro t2 ht2 hk x c1 v
  exact SpFrom.fin (m := [rp, .tok t2, x]) (by arr) (.cons h0 (.tok ht2 v)) rfl

theorem sp_withParenEnd (s t lp ns ss c) :
    WP ΦP (withParenEnd s t lp ns ss) c (SpFrom s (.tok t :: .tok lp :: alternate ns (ss.map .tok)) c) := by
  unfold withParenEnd
  sp_simp
  intro t7 ht7 hk
  exact sp_withRest _ _ _ _ _ _ _ (.tok ht7 (.refl _))

theorem sp_withParenLoop (s t lp ns ss c) :
    WP ΦP (withParenLoopBody s t lp ns ss) c (ΦP (.withParenLoop s t lp ns ss) c) := by
  unfold withParenLoopBody
  sp_simp
  intro t5 ht5
  refine ⟨fun hk t6 ht6 => ⟨fun _ => ?_, fun _ x c1 v y c2 hy hl => ?_⟩, fun _ => ?_⟩
  · refine wp_mono _ (fun y c1 hy hl => ?_) (sp_withParenEnd _ _ _ _ _ _)
    rw [List.map_append, List.map_singleton, alternate_trailing (by simpa using hl)] at hy
    exact SpFrom.step (l := .tok t :: .tok lp :: alternate ns (ss.map .tok)) hy (.tok ht5 (.refl _))
  · exact SpFrom.snoc (p := [.tok t, .tok lp]) hl hy (.tok ht5 v)
  · exact wp_mono _ (fun y c1 hy hl => hy) (sp_withParenEnd _ _ _ _ _ _)

theorem sp_withLoop (s t ns ss c) : WP ΦP (withLoopBody s t ns ss) c (ΦP (.withLoop s t ns ss) c) := by
  unfold withLoopBody
  sp_simp
  intro t5 ht5
  refine ⟨fun hk x c1 v y c2 hy hl => ?_, fun _ => ?_⟩
  · exact SpFrom.snoc (p := [.tok t]) hl hy (.tok ht5 v)
  · refine wp_mono _ (fun y c1 hy hl => ?_) (sp_withRest _ _ _ _ _ _ _ (.none (.refl _)))
    exact SpFrom.re hy (fun c0 hs hp => hp.insNone)

theorem sp_suiteLoop (s t t2 ns c) : WP ΦP (suiteLoopBody s t t2 ns) c (ΦP (.suiteLoop s t t2 ns) c) := by
  unfold suiteLoopBody
  sp_simp
  intro t3 ht3
  refine ⟨fun hk => ?_, fun _ x c1 v y c2 hy => ?_⟩
  · exact SpFrom.fin (m := [.tok t3]) (by arr) (.tok ht3 (.refl _)) rfl
  · exact SpFrom.step (l := .tok t :: .tok t2 :: ns) hy v

theorem sp_exceptClause (c) : WP ΦP exceptClauseBody c (ΦP .exceptClause c) := by
  unfold exceptClauseBody exceptStar
  sp_simp
  wp_paths
  · cases c.advance.advance.exc <;> sp_simp <;> wp_paths <;> sp_close
  · cases c.advance.exc <;> sp_simp <;> wp_paths <;> sp_close

theorem sp_funcBodyLoop (s t a b t4 ns c) :
    WP ΦP (funcBodyLoopBody s t a b t4 ns) c (ΦP (.funcBodyLoop s t a b t4 ns) c) := by
  unfold funcBodyLoopBody
  sp_simp
  intro t3 ht3
  refine ⟨fun hk => ?_, fun _ x c1 v y c2 hy => ?_⟩
  · exact SpFrom.fin (m := [.tok t3]) (by arr) (.tok ht3 (.refl _)) rfl
  · exact SpFrom.step (l := .tok t :: a :: b :: .tok t4 :: ns) hy v

/-! ### Function types -/

theorem sp_typeListResult (s v c) (h : v.div = .none) : WP ΦP (typeListResult s v) c (SpLoose s v c) := by
  unfold typeListResult
  sp_simp
  refine SpLoose.fin (fun _ => rfl) rfl ?_
  rw [h]
  exact ((present_append [v.mulS, v.mulN, v.powS, v.powN] [.none]).trans (List.append_nil _)).symm

theorem sp_typeListPower (s v t c) (h : v.div = .none) (ht : c.symbol = .ok t) (a : v.powS = .none) (b : v.powN = .none) :
    WP ΦP (typeListPower s v t) c (SpLoose s v c) := by
  unfold typeListPower
  sp_simp
  intro x c1 w
  refine wp_mono _ (fun y c2 hy => ?_) (sp_typeListResult _ { v with powS := .tok t, powN := x } _ h)
  exact SpLoose.step hy (fun l hl => hl.pow a b t x) (.tok ht (Sp.present w))

theorem sp_typeListMul (s v t c) (h : v.div = .none) (ht : c.symbol = .ok t) (a : v.mulS = .none) (b : v.mulN = .none)
    (d : v.powS = .none) (e : v.powN = .none) : WP ΦP (typeListMul s v t) c (SpLoose s v c) := by
  unfold typeListMul
  sp_simp
  intro x c1 w y c2 hy
  exact SpLoose.step (hy d e h) (fun l hl => hl.mul a b t x) (.tok ht (Sp.present w))

theorem sp_typeListStarLoop (s v c) : WP ΦP (typeListStarLoopBody s v) c (ΦP (.typeListStarLoop s v) c) := by
  unfold typeListStarLoopBody
  sp_simp
  intro t ht
  by_cases hn : v.powS = .none ∧ v.powN = .none ∧ v.div = .none
  · refine ⟨fun hk t2 ht2 => ⟨fun hk2 => ?_, fun _ x c1 w y c2 hy a b f => ?_⟩, fun _ => ?_⟩
    · refine wp_mono _ (fun y c2 hy _ _ _ => ?_) (sp_typeListPower _ _ _ _ hn.2.2 ht2 hn.1 hn.2.1)
      exact SpLoose.step hy (fun l hl => hl.sep t) (.tok ht (.refl _))
    · exact SpLoose.step (hy a b f) (m := [.tok t] ++ present [x])
        (fun l hl => by rw [← List.append_assoc]; exact (hl.sep t).node x) (.tok ht (Sp.present w))
    · exact wp_mono _ (fun y c2 hy _ _ _ => hy) (sp_typeListResult _ _ _ hn.2.2)
  · refine ⟨fun hk t2 ht2 => ⟨fun hk2 => wp_any _ ?_, fun _ x c1 w y c2 hy a b f => absurd ⟨a, b, f⟩ hn⟩, fun _ => wp_any _ ?_⟩
    · exact fun _ _ a b f => absurd ⟨a, b, f⟩ hn
    · exact fun _ _ a b f => absurd ⟨a, b, f⟩ hn

theorem sp_typeListMainLoop (s v c) : WP ΦP (typeListMainLoopBody s v) c (ΦP (.typeListMainLoop s v) c) := by
  unfold typeListMainLoopBody
  sp_simp
  intro t ht
  by_cases hn : v.mulS = .none ∧ v.mulN = .none ∧ v.powS = .none ∧ v.powN = .none ∧ v.div = .none
  · obtain ⟨ha, hb, hd, he, hf⟩ := hn
    refine ⟨fun hk t2 ht2 => ⟨fun hk2 => ?_, fun _ => ⟨fun hk2 => ?_, fun _ x c1 w y c2 hy a b d e f => ?_⟩⟩, fun _ => ?_⟩
    · refine wp_mono _ (fun y c2 hy _ _ _ _ _ => ?_) (sp_typeListMul _ _ _ _ hf ht2 ha hb hd he)
      exact SpLoose.step hy (fun l hl => hl.sep t) (.tok ht (.refl _))
    · refine wp_mono _ (fun y c2 hy _ _ _ _ _ => ?_) (sp_typeListPower _ _ _ _ hf ht2 hd he)
      exact SpLoose.step hy (fun l hl => hl.sep t) (.tok ht (.refl _))
    · exact SpLoose.step (hy a b d e f) (m := [.tok t] ++ present [x])
        (fun l hl => by rw [← List.append_assoc]; exact (hl.sep t).node x) (.tok ht (Sp.present w))
    · exact wp_mono _ (fun y c2 hy _ _ _ _ _ => hy) (sp_typeListResult _ _ _ hf)
  · have hx : ∀ {P : Prop}, v.mulS = .none → v.mulN = .none → v.powS = .none → v.powN = .none → v.div = .none → P :=
      fun a b d e f => absurd ⟨a, b, d, e, f⟩ hn
    refine ⟨fun hk t2 ht2 => ⟨fun hk2 => wp_any _ fun _ _ => hx, fun _ => ⟨fun hk2 => wp_any _ fun _ _ => hx,
      fun _ x c1 w y c2 hy => hx⟩⟩, fun _ => wp_any _ fun _ _ => hx⟩

theorem sp_typeList (c) : WP ΦP typeListBody c (ΦP .typeList c) := by
  unfold typeListBody
  sp_simp
  intro t ht
  refine ⟨fun hk => ?_, fun _ => ⟨fun hk => ?_, fun _ x c1 w y c2 hy => ?_⟩⟩
  · exact wp_mono _ (fun y c2 hy => Sp1.ofLoose hy holds_nil (.refl _) rfl) (sp_typeListMul _ _ _ _ rfl ht rfl rfl rfl rfl)
  · exact wp_mono _ (fun y c2 hy => Sp1.ofLoose hy holds_nil (.refl _) rfl) (sp_typeListPower _ _ _ _ rfl ht rfl rfl)
  · exact Sp1.ofLoose hy (holds_nil.node x) (Sp.present w) rfl

/-! ### Entry points -/

theorem sp_evalLoop (s r ss c) : WP ΦP (evalLoopBody s r ss) c (ΦP (.evalLoop s r ss) c) := by
  unfold evalLoopBody
  sp_simp
  intro t ht
  refine ⟨fun hk y c2 hy => ?_, fun _ hk => ?_⟩
  · rw [List.map_append] at hy
    exact SpFromPeek.step (l := r :: ss.map .tok) hy (.tok ht (.refl _))
  · exact SpFromPeek.fin (by arr) ht hk

theorem sp_funcTypeLoop (s r ss c) : WP ΦP (funcTypeLoopBody s r ss) c (ΦP (.funcTypeLoop s r ss) c) := by
  unfold funcTypeLoopBody
  sp_simp
  intro t ht
  refine ⟨fun hk y c2 hy => ?_, fun _ hk => ?_⟩
  · rw [List.map_append] at hy
    exact SpFromPeek.step (l := r :: ss.map .tok) hy (.tok ht (.refl _))
  · exact SpFromPeek.fin (by arr) ht hk

theorem sp_fileLoop (s ns ss c) : WP ΦP (fileLoopBody s ns ss) c (ΦP (.fileLoop s ns ss) c) := by
  unfold fileLoopBody
  sp_simp
  intro t ht
  refine ⟨fun hk l hl => ?_, fun _ => ⟨fun hk y c2 hy l hl => ?_, fun _ x c1 v y c2 hy l hl => ?_⟩⟩
  · refine SpFromPeek.intro fun c0 hs hp => .intro ⟨_, _, l, t, by rw [hs], ht, hk, rfl, .inr ⟨rfl, (?_ : Interleaves [.seq ns.reverse, .toks ss.reverse, .tok t] _)⟩, hp⟩
    refine ⟨?_, ?_, ?_⟩
    · obtain ⟨h1, h2, h3⟩ := hl
      have hr : present [Tree.none, .none, .none, .none, .none] = [] := rfl
      rw [present_append, present_append, hr, List.append_nil] at h1
      rw [present_append, present_append]
      refine List.Perm.append_right _ (h1.trans (List.Perm.append ?_ ?_))
      · exact (List.reverse_perm _).symm.filter _
      · exact ((List.reverse_perm _).symm.map _).filter _
    · rw [List.reverse_reverse]; exact hl.2.1.trans (List.sublist_append_left ..)
    · rw [List.map_reverse, List.reverse_reverse, present_toks]; exact hl.2.2.trans (List.sublist_append_left ..)
  · exact SpFromPeek.step (hy _ (hl.sep t)) (.tok ht (.refl _))
  · exact SpFromPeek.step (hy _ (hl.node x)) (Sp.present v)

theorem sp_evalInput (c) : WP ΦP evalInputBody c (ΦP .evalInput c) := by
  unfold evalInputBody
  sp_simp
  intro x c1 v y c2 hy
  exact SpPeek.of hy v rfl

theorem sp_funcTypeInput (c) : WP ΦP funcTypeInputBody c (ΦP .funcTypeInput c) := by
  unfold funcTypeInputBody
  sp_simp
  intro x c1 v y c2 hy
  exact SpPeek.of hy v rfl

theorem sp_fileInput (c) : WP ΦP fileInputBody c (ΦP .fileInput c) := by
  unfold fileInputBody
  sp_simp
  intro y c2 hy
  exact SpPeek.of (hy _ holds_nil) (.refl _) rfl

theorem sp_singleInput (c) : WP ΦP singleInputBody c (ΦP .singleInput c) := by
  unfold singleInputBody singleNewline
  sp_simp
  intro t ht
  refine ⟨fun hk => .inl ?_, fun _ => ⟨fun hk x c1 v t2 ht2 hk2 => .inr ?_, fun _ => ⟨fun hk x c1 v t2 ht2 hk2 => .inr ?_, fun _ x c1 v => .inl ?_⟩⟩⟩
  · exact Sp1.mk (.node rfl (.none (.tok ht (.refl _))) rfl rfl)
  · exact .intro ⟨_, _, [x], t2, rfl, ht2, hk2, rfl, .inl rfl, v⟩
  · exact .intro ⟨_, _, [x], t2, rfl, ht2, hk2, rfl, .inl rfl, v⟩
  · exact Sp1.mk (.node rfl (.cons v (.none (.refl _))) rfl rfl)

theorem sp_decorator (c) : WP ΦP decoratorBody c (ΦP .decorator c) := by
  unfold decoratorBody decoratorEnd
  sp_simp
  intro t ht hk x c1 v t2 ht2
  refine ⟨fun hk2 t3 ht3 => ⟨fun hk3 t4 ht4 hk4 t5 ht5 hk5 => ?_, fun hk3 y c2 z t4 ht4 hk4 t5 ht5 hk5 => ?_⟩, fun _ t5 ht5 hk5 => ?_⟩
  · exact .intro ⟨_, _, [.tok t, x, .tok t2, .none, .tok t4], t5, rfl, ht5, hk5, rfl, .inl rfl,
      .tok ht (.cons v (.tok ht2 (.none (.tok ht4 (.refl _)))))⟩
  · exact .intro ⟨_, _, [.tok t, x, .tok t2, y, .tok t4], t5, rfl, ht5, hk5, rfl, .inl rfl,
      .tok ht (.cons v (.tok ht2 (.cons z (.tok ht4 (.refl _)))))⟩
  · exact .intro ⟨_, _, [.tok t, x, .none, .none, .none], t5, rfl, ht5, hk5, rfl, .inl rfl,
      .tok ht (.cons v (.none (.none (.none (.refl _)))))⟩

theorem sp_decoratorsLoop (s ns c) : WP ΦP (decoratorsLoopBody s ns) c (ΦP (.decoratorsLoop s ns) c) := by
  unfold decoratorsLoopBody
  sp_simp
  intro t ht
  intro hk x c1 hx y c2 hy ⟨u, hu, hk'⟩
  rw [ht] at hu; cases hu; rw [hk] at hk'; cases hk'

theorem sp_decorators (c) : WP ΦP decoratorsBody c (ΦP .decorators c) := by
  unfold decoratorsBody
  sp_simp
  intro x c1 hx y c2 hy
  obtain ⟨_, _, _, u, _, h2, h3, _⟩ := hx.elim
  obtain ⟨rfl, rfl⟩ := hy ⟨u, h2, h3⟩
  exact ⟨x, hx, rfl⟩

theorem sp_decorated (c) : WP ΦP decoratedBody c (ΦP .decorated c) := by
  unfold decoratedBody
  sp_simp
  intro t ht hk x c1 ⟨y, hy, _⟩ t2 ht2
  obtain ⟨_, _, _, u, _, h2, h3, _⟩ := hy.elim
  rw [ht2] at h2; cases h2
  refine ⟨fun h => ?_, fun _ => ⟨fun h => ?_, fun _ h => ?_⟩⟩ <;> rw [h3] at h <;> cases h

theorem sp_patternsMatch (c) : WP ΦP patternsMatchBody c (ΦP .patternsMatch c) := by
  unfold patternsMatchBody; sp_simp

/-! ### The functions without loops -/

theorem sp_stmt (c) : WP ΦP stmtBody c (ΦP .stmt c) := by
  unfold stmtBody; sp_simp; try (wp_paths <;> sp_close)
theorem sp_simpleStmt (c) : WP ΦP simpleStmtBody c (ΦP .simpleStmt c) := by
  unfold simpleStmtBody; sp_simp; try (wp_paths <;> sp_close)
theorem sp_smallStmt (c) : WP ΦP smallStmtBody c (ΦP .smallStmt c) := by
  unfold smallStmtBody; sp_simp; try (wp_paths <;> sp_close)
theorem sp_delStmt (c) : WP ΦP delStmtBody c (ΦP .delStmt c) := by
  unfold delStmtBody; sp_simp; try (wp_paths <;> sp_close)
theorem sp_passStmt (c) : WP ΦP passStmtBody c (ΦP .passStmt c) := by
  unfold passStmtBody; sp_simp; try (wp_paths <;> sp_close)
theorem sp_flowStmt (c) : WP ΦP flowStmtBody c (ΦP .flowStmt c) := by
  unfold flowStmtBody; sp_simp; try (wp_paths <;> sp_close)
theorem sp_breakStmt (c) : WP ΦP breakStmtBody c (ΦP .breakStmt c) := by
  unfold breakStmtBody; sp_simp; try (wp_paths <;> sp_close)
theorem sp_continueStmt (c) : WP ΦP continueStmtBody c (ΦP .continueStmt c) := by
  unfold continueStmtBody; sp_simp; try (wp_paths <;> sp_close)
theorem sp_returnStmt (c) : WP ΦP returnStmtBody c (ΦP .returnStmt c) := by
  unfold returnStmtBody; sp_simp; try (wp_paths <;> sp_close)
theorem sp_yieldStmt (c) : WP ΦP yieldStmtBody c (ΦP .yieldStmt c) := by
  unfold yieldStmtBody; sp_simp; try (wp_paths <;> sp_close)
theorem sp_raiseStmt (c) : WP ΦP raiseStmtBody c (ΦP .raiseStmt c) := by
  unfold raiseStmtBody; sp_simp; try (wp_paths <;> sp_close)
theorem sp_importStmt (c) : WP ΦP importStmtBody c (ΦP .importStmt c) := by
  unfold importStmtBody; sp_simp; try (wp_paths <;> sp_close)
theorem sp_importName (c) : WP ΦP importNameBody c (ΦP .importName c) := by
  unfold importNameBody; sp_simp; try (wp_paths <;> sp_close)
theorem sp_importFrom (c) : WP ΦP importFromBody c (ΦP .importFrom c) := by
  unfold importFromBody; sp_simp; try (wp_paths <;> sp_close)
theorem sp_importAsName (c) : WP ΦP importAsNameBody c (ΦP .importAsName c) := by
  unfold importAsNameBody; sp_simp; try (wp_paths <;> sp_close)
theorem sp_dottedAsName (c) : WP ΦP dottedAsNameBody c (ΦP .dottedAsName c) := by
  unfold dottedAsNameBody; sp_simp; try (wp_paths <;> sp_close)
theorem sp_importAsNames (c) : WP ΦP importAsNamesBody c (ΦP .importAsNames c) := by
  unfold importAsNamesBody; sp_simp; try (wp_paths <;> sp_close)
theorem sp_dottedAsNames (c) : WP ΦP dottedAsNamesBody c (ΦP .dottedAsNames c) := by
  unfold dottedAsNamesBody; sp_simp; try (wp_paths <;> sp_close)
theorem sp_dottedName (c) : WP ΦP dottedNameBody c (ΦP .dottedName c) := by
  unfold dottedNameBody; sp_simp; try (wp_paths <;> sp_close)
theorem sp_globalStmt (c) : WP ΦP globalStmtBody c (ΦP .globalStmt c) := by
  unfold globalStmtBody; sp_simp; try (wp_paths <;> sp_close)
theorem sp_nonlocalStmt (c) : WP ΦP nonlocalStmtBody c (ΦP .nonlocalStmt c) := by
  unfold nonlocalStmtBody; sp_simp; try (wp_paths <;> sp_close)
theorem sp_assertStmt (c) : WP ΦP assertStmtBody c (ΦP .assertStmt c) := by
  unfold assertStmtBody; sp_simp; try (wp_paths <;> sp_close)
theorem sp_compoundStmt (c) : WP ΦP compoundStmtBody c (ΦP .compoundStmt c) := by
  unfold compoundStmtBody; sp_simp; try (wp_paths <;> sp_close)
theorem sp_asyncStmt (c) : WP ΦP asyncStmtBody c (ΦP .asyncStmt c) := by
  unfold asyncStmtBody; sp_simp; try (wp_paths <;> sp_close)
theorem sp_ifStmt (c) : WP ΦP ifStmtBody c (ΦP .ifStmt c) := by
  unfold ifStmtBody; sp_simp; try (wp_paths <;> sp_close)
theorem sp_elifStmt (c) : WP ΦP elifStmtBody c (ΦP .elifStmt c) := by
  unfold elifStmtBody; sp_simp; try (wp_paths <;> sp_close)
theorem sp_elseStmt (c) : WP ΦP elseStmtBody c (ΦP .elseStmt c) := by
  unfold elseStmtBody; sp_simp; try (wp_paths <;> sp_close)
theorem sp_whileStmt (c) : WP ΦP whileStmtBody c (ΦP .whileStmt c) := by
  unfold whileStmtBody; sp_simp; try (wp_paths <;> sp_close)
theorem sp_forStmt (c) : WP ΦP forStmtBody c (ΦP .forStmt c) := by
  unfold forStmtBody; sp_simp; try (wp_paths <;> sp_close)
theorem sp_tryStmt (c) : WP ΦP tryStmtBody c (ΦP .tryStmt c) := by
  unfold tryStmtBody; sp_simp; try (wp_paths <;> sp_close)
theorem sp_finallyStmt (c) : WP ΦP finallyStmtBody c (ΦP .finallyStmt c) := by
  unfold finallyStmtBody; sp_simp; try (wp_paths <;> sp_close)
theorem sp_withStmt (c) : WP ΦP withStmtBody c (ΦP .withStmt c) := by
  unfold withStmtBody; sp_simp; try (wp_paths <;> sp_close)
theorem sp_withItem (c) : WP ΦP withItemBody c (ΦP .withItem c) := by
  unfold withItemBody; sp_simp; try (wp_paths <;> sp_close)
theorem sp_exceptStmt (c) : WP ΦP exceptStmtBody c (ΦP .exceptStmt c) := by
  unfold exceptStmtBody; sp_simp; try (wp_paths <;> sp_close)
theorem sp_suite (c) : WP ΦP suiteBody c (ΦP .suite c) := by
  unfold suiteBody; sp_simp; try (wp_paths <;> sp_close)
theorem sp_asyncFuncDef (c) : WP ΦP asyncFuncDefBody c (ΦP .asyncFuncDef c) := by
  unfold asyncFuncDefBody; sp_simp; try (wp_paths <;> sp_close)
theorem sp_funcDef (c) : WP ΦP funcDefBody c (ΦP .funcDef c) := by
  unfold funcDefBody; sp_simp; try (wp_paths <;> sp_close)
theorem sp_parameters (c) : WP ΦP parametersBody c (ΦP .parameters c) := by
  unfold parametersBody; sp_simp; try (wp_paths <;> sp_close)
theorem sp_typedArgsList (c) : WP ΦP typedArgsListBody c (ΦP .typedArgsList c) := by
  unfold typedArgsListBody; sp_simp; try (wp_paths <;> sp_close)
theorem sp_tfpDefAssign (c) : WP ΦP tfpDefAssignBody c (ΦP .tfpDefAssign c) := by
  unfold tfpDefAssignBody; sp_simp; try (wp_paths <;> sp_close)
theorem sp_tfpDef (c) : WP ΦP tfpDefBody c (ΦP .tfpDef c) := by
  unfold tfpDefBody; sp_simp; try (wp_paths <;> sp_close)
theorem sp_funcBodySuite (c) : WP ΦP funcBodySuiteBody c (ΦP .funcBodySuite c) := by
  unfold funcBodySuiteBody; sp_simp [funcBodyIndent]; try (wp_paths <;> sp_close)
theorem sp_classDef (c) : WP ΦP classDefBody c (ΦP .classDef c) := by
  unfold classDefBody; sp_simp [classRest]; try (wp_paths <;> sp_close)
theorem sp_funcType (c) : WP ΦP funcTypeBody c (ΦP .funcType c) := by
  unfold funcTypeBody; sp_simp; try (wp_paths <;> sp_close)

theorem sp_body (f c) : WP ΦP (body f) c (ΦP f c) := by
  cases f with
  | atom => exact sp_atom c
  | atomStrLoop a0 a1 => exact sp_atomStrLoop a0 a1 c
  | atomExpr => exact sp_atomExpr c
  | trailerLoop a0 a1 a2 a3 => exact sp_trailerLoop a0 a1 a2 a3 c
  | power => exact sp_power c
  | factor => exact sp_factor c
  | term => exact sp_term c
  | termLoop a0 a1 => exact sp_termLoop a0 a1 c
  | arith => exact sp_arith c
  | arithLoop a0 a1 => exact sp_arithLoop a0 a1 c
  | shift => exact sp_shift c
  | shiftLoop a0 a1 => exact sp_shiftLoop a0 a1 c
  | andExpr => exact sp_andExpr c
  | andExprLoop a0 a1 => exact sp_andExprLoop a0 a1 c
  | xorExpr => exact sp_xorExpr c
  | xorExprLoop a0 a1 => exact sp_xorExprLoop a0 a1 c
  | expr => exact sp_expr c
  | exprLoop a0 a1 => exact sp_exprLoop a0 a1 c
  | starExpr => exact sp_starExpr c
  | comparison => exact sp_comparison c
  | comparisonLoop a0 a1 => exact sp_comparisonLoop a0 a1 c
  | notTest => exact sp_notTest c
  | andTest => exact sp_andTest c
  | andTestLoop a0 a1 => exact sp_andTestLoop a0 a1 c
  | orTest => exact sp_orTest c
  | orTestLoop a0 a1 => exact sp_orTestLoop a0 a1 c
  | lambdaDef a0 => exact sp_lambdaDef a0 c
  | noCondTest => exact sp_noCondTest c
  | test => exact sp_test c
  | namedExpression => exact sp_namedExpression c
  | testlistComp => exact sp_testlistComp c
  | testlistCompLoop a0 a1 a2 => exact sp_testlistCompLoop a0 a1 a2 c
  | trailer => exact sp_trailer c
  | subscriptList => exact sp_subscriptList c
  | subscriptListLoop a0 a1 a2 => exact sp_subscriptListLoop a0 a1 a2 c
  | subscript => exact sp_subscript c
  | exprlist => exact sp_exprlist c
  | exprlistLoop a0 a1 a2 => exact sp_exprlistLoop a0 a1 a2 c
  | testlist => exact sp_testlist c
  | testlistLoop a0 a1 a2 => exact sp_testlistLoop a0 a1 a2 c
  | dictorsetMaker => exact sp_dictorsetMaker c
  | setLoop a0 a1 a2 => exact sp_setLoop a0 a1 a2 c
  | arglist => exact sp_arglist c
  | arglistLoop a0 a1 a2 => exact sp_arglistLoop a0 a1 a2 c
  | argument => exact sp_argument c
  | compIter => exact sp_compIter c
  | syncCompFor => exact sp_syncCompFor c
  | compFor => exact sp_compFor c
  | compIf => exact sp_compIf c
  | yieldExpr => exact sp_yieldExpr c
  | testlistStarExpr => exact sp_testlistStarExpr c
  | testlistStarExprLoop a0 a1 a2 => exact sp_testlistStarExprLoop a0 a1 a2 c
  | varArgsList => exact sp_varArgsList c
  | varArgsMainLoop a0 a1 => exact sp_varArgsMainLoop a0 a1 c
  | varArgsStarLoop a0 a1 => exact sp_varArgsStarLoop a0 a1 c
  | varArgsDivLoop a0 a1 => exact sp_varArgsDivLoop a0 a1 c
  | varArgsAssignments => exact sp_varArgsAssignments c
  | vfpDef => exact sp_vfpDef c
  | stmt => exact sp_stmt c
  | simpleStmt => exact sp_simpleStmt c
  | simpleStmtLoop a0 a1 a2 => exact sp_simpleStmtLoop a0 a1 a2 c
  | smallStmt => exact sp_smallStmt c
  | exprStmt => exact sp_exprStmt c
  | assignLoop a0 a1 a2 => exact sp_assignLoop a0 a1 a2 c
  | annAssign a0 a1 => exact sp_annAssign a0 a1 c
  | delStmt => exact sp_delStmt c
  | passStmt => exact sp_passStmt c
  | flowStmt => exact sp_flowStmt c
  | breakStmt => exact sp_breakStmt c
  | continueStmt => exact sp_continueStmt c
  | returnStmt => exact sp_returnStmt c
  | yieldStmt => exact sp_yieldStmt c
  | raiseStmt => exact sp_raiseStmt c
  | importStmt => exact sp_importStmt c
  | importName => exact sp_importName c
  | importFrom => exact sp_importFrom c
  | importDotLoop a0 a1 a2 => exact sp_importDotLoop a0 a1 a2 c
  | importAsName => exact sp_importAsName c
  | dottedAsName => exact sp_dottedAsName c
  | importAsNames => exact sp_importAsNames c
  | importAsNamesLoop a0 a1 a2 => exact sp_importAsNamesLoop a0 a1 a2 c
  | dottedAsNames => exact sp_dottedAsNames c
  | dottedAsNamesLoop a0 a1 a2 => exact sp_dottedAsNamesLoop a0 a1 a2 c
  | dottedName => exact sp_dottedName c
  | dottedNameLoop a0 a1 a2 => exact sp_dottedNameLoop a0 a1 a2 c
  | globalStmt => exact sp_globalStmt c
  | globalLoop a0 a1 a2 a3 => exact sp_globalLoop a0 a1 a2 a3 c
  | nonlocalStmt => exact sp_nonlocalStmt c
  | nonlocalLoop a0 a1 a2 a3 => exact sp_nonlocalLoop a0 a1 a2 a3 c
  | assertStmt => exact sp_assertStmt c
  | compoundStmt => exact sp_compoundStmt c
  | asyncStmt => exact sp_asyncStmt c
  | ifStmt => exact sp_ifStmt c
  | ifLoop a0 a1 a2 a3 a4 a5 => exact sp_ifLoop a0 a1 a2 a3 a4 a5 c
  | elifStmt => exact sp_elifStmt c
  | elseStmt => exact sp_elseStmt c
  | whileStmt => exact sp_whileStmt c
  | forStmt => exact sp_forStmt c
  | tryStmt => exact sp_tryStmt c
  | tryLoop a0 a1 a2 a3 a4 => exact sp_tryLoop a0 a1 a2 a3 a4 c
  | finallyStmt => exact sp_finallyStmt c
  | withStmt => exact sp_withStmt c
  | withParenLoop a0 a1 a2 a3 a4 => exact sp_withParenLoop a0 a1 a2 a3 a4 c
  | withLoop a0 a1 a2 a3 => exact sp_withLoop a0 a1 a2 a3 c
  | withItem => exact sp_withItem c
  | exceptStmt => exact sp_exceptStmt c
  | exceptClause => exact sp_exceptClause c
  | suite => exact sp_suite c
  | suiteLoop a0 a1 a2 a3 => exact sp_suiteLoop a0 a1 a2 a3 c
  | evalInput => exact sp_evalInput c
  | evalLoop a0 a1 a2 => exact sp_evalLoop a0 a1 a2 c
  | fileInput => exact sp_fileInput c
  | fileLoop a0 a1 a2 => exact sp_fileLoop a0 a1 a2 c
  | singleInput => exact sp_singleInput c
  | funcTypeInput => exact sp_funcTypeInput c
  | funcTypeLoop a0 a1 a2 => exact sp_funcTypeLoop a0 a1 a2 c
  | decorator => exact sp_decorator c
  | decorators => exact sp_decorators c
  | decoratorsLoop a0 a1 => exact sp_decoratorsLoop a0 a1 c
  | decorated => exact sp_decorated c
  | asyncFuncDef => exact sp_asyncFuncDef c
  | funcDef => exact sp_funcDef c
  | parameters => exact sp_parameters c
  | typedArgsList => exact sp_typedArgsList c
  | tfpDefAssign => exact sp_tfpDefAssign c
  | tfpDef => exact sp_tfpDef c
  | funcBodySuite => exact sp_funcBodySuite c
  | funcBodyLoop a0 a1 a2 a3 a4 a5 => exact sp_funcBodyLoop a0 a1 a2 a3 a4 a5 c
  | classDef => exact sp_classDef c
  | funcType => exact sp_funcType c
  | typeList => exact sp_typeList c
  | typeListMainLoop a0 a1 => exact sp_typeListMainLoop a0 a1 c
  | typeListStarLoop a0 a1 => exact sp_typeListStarLoop a0 a1 c
  | patternsMatch => exact sp_patternsMatch c

/-- Every successful run puts the positions of its first symbol and of the symbol after its last in its result. -/
theorem run_spans {n f c t c'} (h : run n f c = .ok t c') : ΦP f c t c' := run_sound sp_body n f c t c' h

end

end Verif
