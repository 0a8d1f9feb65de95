import Verif.Proof.ReadsExpr

/-!
# The tokens of a tree are the tokens consumed: statements, definitions, entry points
-/

namespace Verif
open Prog
set_option linter.unusedVariables false

section
variable [Uni]
attribute [local irreducible] Rd RdFrom RdPeek RdFromPeek RdLoose WP PSt.advance

theorem rd_simpleStmtLoop (s ns ss c) : WP ΦR (simpleStmtLoopBody s ns ss) c (ΦR (.simpleStmtLoop s ns ss) c) := by
  unfold simpleStmtLoopBody simpleStmtLoopBody.fin
  rd_simp
  intro t ht
  refine ⟨fun hk t2 ht2 => ⟨fun hk2 t3 ht3 hk3 hl => ?_, fun _ x c1 ts u v y c2 hy hl => ?_⟩, fun _ t3 ht3 hk3 hl => ?_⟩
  · refine RdFrom.fin (m := [.tok t, .tok t3]) ?_ (.step ht (.step ht3 (.refl _))) (.tok (.tok .nil))
    refine congrArg some ?_
    rw [List.map_reverse, List.reverse_reverse, List.reverse_reverse, List.map_append, List.map_singleton,
      alternate_trailing (by simpa using hl), List.append_assoc]
    rfl
  · exact RdFrom.snoc (p := []) hl hy (.step ht u) (.tok v)
  · exact RdFrom.fin (m := [.tok t3]) (by arr) (.step ht3 (.refl _)) (.tok .nil)

theorem rd_yieldOrTestlist (s c) : WP ΦR (yieldOrTestlist s) c (Rd c) := by
  unfold yieldOrTestlist; rd_simp; wp_paths <;> rd_close

theorem rd_assignLoop (s l ns c) : WP ΦR (assignLoopBody s l ns) c (ΦR (.assignLoop s l ns) c) := by
  unfold assignLoopBody
  rd_simp
  intro t ht
  refine ⟨fun hk => ?_, fun _ => ⟨fun hk => ?_, fun _ => ?_⟩⟩
  · refine wp_mono _ (fun x c1 hx => ?_) (rd_yieldOrTestlist _ _)
    intro y c2 hy
    obtain ⟨ts, u, v⟩ := hx.elim
    exact RdFrom.step (l := l :: ns) hy (.step ht u) (.seq (.tok v))
  · refine RdFrom.intro fun pre hp => ⟨[t], .step ht (.refl _), .node rfl ?_⟩
    exact (Reads.pack (l := [l]) hp).app (.tok .nil)
  · refine RdFrom.intro fun pre hp => ⟨[], .refl _, .node rfl ?_⟩
    exact (Reads.pack (l := [l]) hp).app (.none .nil)

theorem rd_annAssign (s l c) : WP ΦR (annAssignBody s l) c (ΦR (.annAssign s l) c) := by
  unfold annAssignBody
  rd_simp
  intro t ht hk x c1 ts u v t2 ht2
  refine ⟨fun hk => ?_, fun _ => ?_⟩
  · refine wp_mono _ (fun y c2 hy => ?_) (rd_yieldOrTestlist _ _)
    obtain ⟨us, w, z⟩ := hy.elim
    refine RdFrom.intro fun pre hp => ⟨_, .step ht (u.trans (.step ht2 w)), .node rfl ?_⟩
    exact hp.app (.tok (v.app (.seq (.tok z))))
  · refine RdFrom.intro fun pre hp => ⟨_, .step ht u, .node rfl ?_⟩
    have := hp.app (Reads.tok (t := t) (v.app (.none .nil)))
    simpa using this

theorem rd_exprStmt (c) : WP ΦR exprStmtBody c (ΦR .exprStmt c) := by
  unfold exprStmtBody
  rd_simp
  intro x c1 ts u v t ht
  refine ⟨fun hk y c2 hy => ?_, fun _ => ⟨fun hk y c2 hy => ?_, fun _ => ?_⟩⟩
  · exact Rd.of hy u v
  · exact Rd.of hy u v
  · split
    · rename_i tag htag
      rd_simp
      refine wp_mono _ (fun y c2 hy => ?_) (rd_yieldOrTestlist _ _)
      obtain ⟨us, w, z⟩ := hy.elim
      refine Rd.mk (u.trans (.step ht w)) (.node (fs' := [x, .tok t, y]) ?_ (v.app (.tok z)))
      unfold augOp at htag; split at htag <;> simp at htag <;> subst htag <;> rfl
    · rd_simp
      exact Rd.mk u v

theorem rd_importFromRest (s t ds c) :
    WP ΦR (importFromRest s t ds) c (RdFrom (.tok t :: ds.map .tok) c) := by
  unfold importFromRest
  rd_simp
  intro t3 ht3
  have key : ∀ left us c1, Consumed c us c1 → Reads [left] us → WP ΦR (do
      let t4 ← symAt s "Expecting 'import' in from import statement!"
      if t4.kind = .PyImport then do
        next
        let t5 ← symAt s "Expecting symbol in 'from' statement!"
        if t5.kind = .PyMul then do
          next
          mk .ImportFromStmt s [.tok t, .toks ds.reverse, left, .tok t4, .tok t5, .none, .none]
        else if t5.kind = .PyLeftParen then do
          next
          let right ← parse .importAsNames
          let t6 ← symAt s "Expecting symbol in 'from' statement!"
          if t6.kind = .PyRightParen then do
            next
            mk .ImportFromStmt s
              [.tok t, .toks ds.reverse, left, .tok t4, .tok t5, right, .tok t6]
          else fail s "Expecting ')' in from import statement!"
        else do
          let right ← parse .importAsNames
          mk .ImportFromStmt s [.tok t, .toks ds.reverse, left, .tok t4, .none, right, .none]
      else fail s "Expecting symbol in 'from' statement!") c1 (RdFrom (.tok t :: ds.map .tok) c) := by
    intro left us c1 hu hl
    rd_simp
    intro t4 ht4 hk t5 ht5
    refine ⟨fun _ => ?_, fun _ => ⟨fun _ x c2 ts u v t6 ht6 _ => ?_, fun _ x c2 ts u v => ?_⟩⟩
    · refine RdFrom.fin (m := [left, .tok t4, .tok t5, .none, .none]) (by arr) (hu.trans (.step ht4 (.step ht5 (.refl _)))) ?_
      exact hl.app (.tok (.tok (.none (.none .nil))))
    · refine RdFrom.fin (m := [left, .tok t4, .tok t5, x, .tok t6]) (by arr)
        (hu.trans (.step ht4 (.step ht5 (u.trans (.step ht6 (.refl _)))))) ?_
      exact hl.app (.tok (.tok (v.app (.tok .nil))))
    · refine RdFrom.fin (m := [left, .tok t4, .none, x, .none]) (by arr)
        (hu.trans (.step ht4 (u.trans (.refl _)))) ?_
      exact hl.app (.tok (.none (v.app (.none .nil))))
  refine ⟨fun _ => fun _ => ?_, fun _ x c1 ts u v => ?_⟩
  · have := key _ _ _ (.refl _) (.none .nil)
    revert this; rd_simp
  · have := key _ _ _ u v
    revert this; rd_simp

theorem rd_importDotLoop (s t ds c) : WP ΦR (importDotLoopBody s t ds) c (ΦR (.importDotLoop s t ds) c) := by
  unfold importDotLoopBody
  rd_simp
  refine ⟨fun t2 ht2 => ⟨fun hk x c1 hx => ?_, fun _ => ?_⟩, fun _ _ => ?_⟩
  · rw [List.map_append] at hx
    exact RdFrom.step (l := .tok t :: ds.map .tok) hx (.step ht2 (.refl _)) (.tok .nil)
  · exact rd_importFromRest _ _ _ _
  · exact rd_importFromRest _ _ _ _

theorem rd_importAsNamesLoop (s ns ss c) :
    WP ΦR (importAsNamesLoopBody s ns ss) c (ΦR (.importAsNamesLoop s ns ss) c) := by
  unfold importAsNamesLoopBody
  rd_simp
  intro t ht
  refine ⟨fun hk x c1 ts u v y c2 hy hl => ?_, fun _ hl => ?_⟩
  · exact RdFrom.snoc (p := []) hl hy (.step ht u) (.tok v)
  · exact RdFrom.fin (m := []) (by arr) (.refl _) .nil

theorem rd_dottedAsNamesLoop (s ns ss c) :
    WP ΦR (dottedAsNamesLoopBody s ns ss) c (ΦR (.dottedAsNamesLoop s ns ss) c) := by
  unfold dottedAsNamesLoopBody
  rd_simp
  intro t ht
  refine ⟨fun hk x c1 ts u v y c2 hy hl => ?_, fun _ hl => ?_⟩
  · exact RdFrom.snoc (p := []) hl hy (.step ht u) (.tok v)
  · exact RdFrom.fin (m := []) (by arr) (.refl _) .nil

theorem rd_dottedNameLoop (s ns ss c) : WP ΦR (dottedNameLoopBody s ns ss) c (ΦR (.dottedNameLoop s ns ss) c) := by
  unfold dottedNameLoopBody
  rd_simp
  intro t ht
  refine ⟨fun hk t2 ht2 hk2 y c2 hy hl => ?_, fun _ hl => ?_⟩
  · refine RdFrom.snoc (p := []) (ns := ns.map .tok) (x := .tok t2) (by simpa using hl) (fun h => ?_)
      (.step ht (.step ht2 (.refl _))) (.tok (.tok .nil))
    have := hy (by simpa using hl)
    rwa [List.map_append] at this
  · exact RdFrom.fin (m := []) (by arr) (.refl _) .nil

theorem rd_globalLoop (s g ns ss c) : WP ΦR (globalLoopBody s g ns ss) c (ΦR (.globalLoop s g ns ss) c) := by
  unfold globalLoopBody
  rd_simp
  intro t ht
  refine ⟨fun hk t2 ht2 hk2 y c2 hy hl => ?_, fun _ hl => ?_⟩
  · refine RdFrom.snoc (p := [.tok g]) (ns := ns.map .tok) (x := .tok t2) (by simpa using hl) (fun h => ?_)
      (.step ht (.step ht2 (.refl _))) (.tok (.tok .nil))
    have := hy (by simpa using hl)
    rwa [List.map_append] at this
  · exact RdFrom.fin (m := []) (by arr) (.refl _) .nil

theorem rd_nonlocalLoop (s g ns ss c) : WP ΦR (nonlocalLoopBody s g ns ss) c (ΦR (.nonlocalLoop s g ns ss) c) := by
  unfold nonlocalLoopBody
  rd_simp
  intro t ht
  refine ⟨fun hk t2 ht2 hk2 y c2 hy hl => ?_, fun _ hl => ?_⟩
  · refine RdFrom.snoc (p := [.tok g]) (ns := ns.map .tok) (x := .tok t2) (by simpa using hl) (fun h => ?_)
      (.step ht (.step ht2 (.refl _))) (.tok (.tok .nil))
    have := hy (by simpa using hl)
    rwa [List.map_append] at this
  · exact RdFrom.fin (m := []) (by arr) (.refl _) .nil

theorem rd_ifLoop (s t l t2 r ns c) : WP ΦR (ifLoopBody s t l t2 r ns) c (ΦR (.ifLoop s t l t2 r ns) c) := by
  unfold ifLoopBody
  rd_simp
  intro t3 ht3
  refine ⟨fun hk x c1 ts u v y c2 hy => ?_, fun _ => ⟨fun _ x c1 ts u v => ?_, fun _ => ?_⟩⟩
  · exact RdFrom.step (l := .tok t :: l :: .tok t2 :: r :: ns) hy u v
  · exact RdFrom.fin (m := [x]) (by arr) u v
  · exact RdFrom.fin (m := [.none]) (by arr) (.refl _) (.none .nil)

theorem rd_tryLoop (s t t2 l ns c) : WP ΦR (tryLoopBody s t t2 l ns) c (ΦR (.tryLoop s t t2 l ns) c) := by
  unfold tryLoopBody
  rd_simp
  intro t3 ht3
  refine ⟨fun hk x c1 ts u v y c2 hy => ?_, fun _ t5 ht5 => ⟨fun _ x c1 ts u v t6 ht6 => ⟨fun _ y c2 us w z => ?_, fun _ => ?_⟩, fun _ t6 ht6 => ⟨fun _ y c2 us w z => ?_, fun _ => ?_⟩⟩⟩
  · exact RdFrom.step (l := .tok t :: .tok t2 :: l :: ns) hy u v
  · exact RdFrom.fin (m := [x, y]) (by arr) (u.trans w) (v.app z)
  · exact RdFrom.fin (m := [x, .none]) (by arr) (u.trans (.refl _)) (v.app (.none .nil))
  · exact RdFrom.fin (m := [.none, y]) (by arr) w (.none z)
  · exact RdFrom.fin (m := [.none, .none]) (by arr) (.refl _) (.none (.none .nil))

theorem rd_withRest (s t lp ns ss rp us c) (hr : Reads [rp] us) {c0} (h0 : Consumed c0 us c) :
    WP ΦR (withRest s t lp ns ss rp) c (RdFrom (.tok t :: lp :: alternate ns (ss.map .tok)) c0) := by
  unfold withRest
  rd_simp
  intro t2 ht2 hk x c1 ts u v
  exact RdFrom.fin (m := [rp, .tok t2, x]) (by arr) (h0.trans (.step ht2 u)) (hr.app (.tok v))

theorem rd_withParenEnd (s t lp ns ss c) :
    WP ΦR (withParenEnd s t lp ns ss) c (RdFrom (.tok t :: .tok lp :: alternate ns (ss.map .tok)) c) := by
  unfold withParenEnd
  rd_simp
  intro t7 ht7 hk
  exact rd_withRest _ _ _ _ _ _ _ _ (.tok .nil) (.step ht7 (.refl _))

theorem rd_withParenLoop (s t lp ns ss c) :
    WP ΦR (withParenLoopBody s t lp ns ss) c (ΦR (.withParenLoop s t lp ns ss) c) := by
  unfold withParenLoopBody
  rd_simp
  intro t5 ht5
  refine ⟨fun hk t6 ht6 => ⟨fun _ => ?_, fun _ x c1 ts u v y c2 hy hl => ?_⟩, fun _ => ?_⟩
  · refine wp_mono _ (fun y c1 hy hl => ?_) (rd_withParenEnd _ _ _ _ _ _)
    rw [List.map_append, List.map_singleton, alternate_trailing (by simpa using hl)] at hy
    exact RdFrom.step (l := .tok t :: .tok lp :: alternate ns (ss.map .tok)) hy (.step ht5 (.refl _)) (.tok .nil)
  · exact RdFrom.snoc (p := [.tok t, .tok lp]) hl hy (.step ht5 u) (.tok v)
  · exact wp_mono _ (fun y c1 hy hl => hy) (rd_withParenEnd _ _ _ _ _ _)

theorem rd_withLoop (s t ns ss c) : WP ΦR (withLoopBody s t ns ss) c (ΦR (.withLoop s t ns ss) c) := by
  unfold withLoopBody
  rd_simp
  intro t5 ht5
  refine ⟨fun hk x c1 ts u v y c2 hy hl => ?_, fun _ => ?_⟩
  · exact RdFrom.snoc (p := [.tok t]) hl hy (.step ht5 u) (.tok v)
  · refine wp_mono _ (fun y c1 hy hl => ?_) (rd_withRest _ _ _ _ _ _ _ _ (.none .nil) (.refl _))
    exact RdFrom.re hy (ts := []) (fun pre hp => by
      cases hp with | tok hp => simpa using Reads.tok (.none hp)) (.refl _)

theorem rd_suiteLoop (s t t2 ns c) : WP ΦR (suiteLoopBody s t t2 ns) c (ΦR (.suiteLoop s t t2 ns) c) := by
  unfold suiteLoopBody
  rd_simp
  intro t3 ht3
  refine ⟨fun hk => ?_, fun _ x c1 ts u v y c2 hy => ?_⟩
  · exact RdFrom.fin (m := [.tok t3]) (by arr) (.step ht3 (.refl _)) (.tok .nil)
  · exact RdFrom.step (l := .tok t :: .tok t2 :: ns) hy u v

theorem rd_exceptClause (c) : WP ΦR exceptClauseBody c (ΦR .exceptClause c) := by
  unfold exceptClauseBody exceptStar
  rd_simp
  wp_paths
  · cases c.advance.advance.exc <;> rd_simp <;> wp_paths <;> rd_close
  · cases c.advance.exc <;> rd_simp <;> wp_paths <;> rd_close

theorem rd_funcBodyLoop (s t a b t4 ns c) :
    WP ΦR (funcBodyLoopBody s t a b t4 ns) c (ΦR (.funcBodyLoop s t a b t4 ns) c) := by
  unfold funcBodyLoopBody
  rd_simp
  intro t3 ht3
  refine ⟨fun hk => ?_, fun _ x c1 ts u v y c2 hy => ?_⟩
  · exact RdFrom.fin (m := [.tok t3]) (by arr) (.step ht3 (.refl _)) (.tok .nil)
  · exact RdFrom.step (l := .tok t :: a :: b :: .tok t4 :: ns) hy u v

/-! ### Function types -/

theorem rd_typeListResult (s v c) (h : v.div = .none) : WP ΦR (typeListResult s v) c (RdLoose v c) := by
  unfold typeListResult
  rd_simp
  refine RdLoose.fin (fun _ => rfl) ?_
  rw [h]
  exact ((present_append [v.mulS, v.mulN, v.powS, v.powN] [.none]).trans (List.append_nil _)).symm

theorem rd_typeListPower (s v t c) (h : v.div = .none) (ht : c.symbol = .ok t) (a : v.powS = .none) (b : v.powN = .none) :
    WP ΦR (typeListPower s v t) c (RdLoose v c) := by
  unfold typeListPower
  rd_simp
  intro x c1 ts u w
  refine wp_mono _ (fun y c2 hy => ?_) (rd_typeListResult _ { v with powS := .tok t, powN := x } _ h)
  exact RdLoose.step hy (fun l hl => hl.pow a b t x) (.step ht u) (.tok (reads_present w))

theorem rd_typeListMul (s v t c) (h : v.div = .none) (ht : c.symbol = .ok t) (a : v.mulS = .none) (b : v.mulN = .none)
    (d : v.powS = .none) (e : v.powN = .none) : WP ΦR (typeListMul s v t) c (RdLoose v c) := by
  unfold typeListMul
  rd_simp
  intro x c1 ts u w y c2 hy
  exact RdLoose.step (hy d e h) (fun l hl => hl.mul a b t x) (.step ht u) (.tok (reads_present w))

theorem rd_typeListStarLoop (s v c) : WP ΦR (typeListStarLoopBody s v) c (ΦR (.typeListStarLoop s v) c) := by
  unfold typeListStarLoopBody
  rd_simp
  intro t ht
  by_cases hn : v.powS = .none ∧ v.powN = .none ∧ v.div = .none
  · refine ⟨fun hk t2 ht2 => ⟨fun hk2 => ?_, fun _ x c1 ts u w y c2 hy a b f => ?_⟩, fun _ => ?_⟩
    · refine wp_mono _ (fun y c2 hy _ _ _ => ?_) (rd_typeListPower _ _ _ _ hn.2.2 ht2 hn.1 hn.2.1)
      exact RdLoose.step hy (fun l hl => hl.sep t) (.step ht (.refl _)) (.tok .nil)
    · exact RdLoose.step (hy a b f) (m := [.tok t] ++ present [x])
        (fun l hl => by rw [← List.append_assoc]; exact (hl.sep t).node x) (.step ht u) (.tok (reads_present w))
    · exact wp_mono _ (fun y c2 hy _ _ _ => hy) (rd_typeListResult _ _ _ hn.2.2)
  · refine ⟨fun hk t2 ht2 => ⟨fun hk2 => wp_any _ ?_, fun _ x c1 ts u w y c2 hy a b f => absurd ⟨a, b, f⟩ hn⟩, fun _ => wp_any _ ?_⟩
    · exact fun _ _ a b f => absurd ⟨a, b, f⟩ hn
    · exact fun _ _ a b f => absurd ⟨a, b, f⟩ hn

theorem rd_typeListMainLoop (s v c) : WP ΦR (typeListMainLoopBody s v) c (ΦR (.typeListMainLoop s v) c) := by
  unfold typeListMainLoopBody
  rd_simp
  intro t ht
  by_cases hn : v.mulS = .none ∧ v.mulN = .none ∧ v.powS = .none ∧ v.powN = .none ∧ v.div = .none
  · obtain ⟨ha, hb, hd, he, hf⟩ := hn
    refine ⟨fun hk t2 ht2 => ⟨fun hk2 => ?_, fun _ => ⟨fun hk2 => ?_, fun _ x c1 ts u w y c2 hy a b d e f => ?_⟩⟩, fun _ => ?_⟩
    · refine wp_mono _ (fun y c2 hy _ _ _ _ _ => ?_) (rd_typeListMul _ _ _ _ hf ht2 ha hb hd he)
      exact RdLoose.step hy (fun l hl => hl.sep t) (.step ht (.refl _)) (.tok .nil)
    · refine wp_mono _ (fun y c2 hy _ _ _ _ _ => ?_) (rd_typeListPower _ _ _ _ hf ht2 hd he)
      exact RdLoose.step hy (fun l hl => hl.sep t) (.step ht (.refl _)) (.tok .nil)
    · exact RdLoose.step (hy a b d e f) (m := [.tok t] ++ present [x])
        (fun l hl => by rw [← List.append_assoc]; exact (hl.sep t).node x) (.step ht u) (.tok (reads_present w))
    · exact wp_mono _ (fun y c2 hy _ _ _ _ _ => hy) (rd_typeListResult _ _ _ hf)
  · have hx : ∀ {P : Prop}, v.mulS = .none → v.mulN = .none → v.powS = .none → v.powN = .none → v.div = .none → P :=
      fun a b d e f => absurd ⟨a, b, d, e, f⟩ hn
    refine ⟨fun hk t2 ht2 => ⟨fun hk2 => wp_any _ fun _ _ => hx, fun _ => ⟨fun hk2 => wp_any _ fun _ _ => hx,
      fun _ x c1 ts u w y c2 hy => hx⟩⟩, fun _ => wp_any _ fun _ _ => hx⟩

theorem rd_typeList (c) : WP ΦR typeListBody c (ΦR .typeList c) := by
  unfold typeListBody
  rd_simp
  intro t ht
  refine ⟨fun hk => ?_, fun _ => ⟨fun hk => ?_, fun _ x c1 ts u w y c2 hy => ?_⟩⟩
  · exact wp_mono _ (fun y c2 hy => Rd.ofLoose hy holds_nil (.refl _) .nil) (rd_typeListMul _ _ _ _ rfl ht rfl rfl rfl rfl)
  · exact wp_mono _ (fun y c2 hy => Rd.ofLoose hy holds_nil (.refl _) .nil) (rd_typeListPower _ _ _ _ rfl ht rfl rfl)
  · exact Rd.ofLoose hy (holds_nil.node x) u (reads_present w)

/-! ### Entry points -/

theorem RdFromPeek.intro {k l c t c'} (h : ∀ pre, Reads l pre → ∃ ts u, Consumed c ts c' ∧ c'.symbol = .ok u ∧
    u.kind = k ∧ Reads [t] (pre ++ (ts ++ [u]))) : RdFromPeek k l c t c' := by
  with_unfolding_all exact h
theorem RdFromPeek.elim {k l c t c'} (h : RdFromPeek k l c t c') : ∀ pre, Reads l pre → ∃ ts u, Consumed c ts c' ∧
    c'.symbol = .ok u ∧ u.kind = k ∧ Reads [t] (pre ++ (ts ++ [u])) := by
  with_unfolding_all exact h
theorem RdPeek.intro {k c t c'} (h : ∃ ts u, Consumed c ts c' ∧ c'.symbol = .ok u ∧
    u.kind = k ∧ Reads [t] (ts ++ [u])) : RdPeek k c t c' := by
  with_unfolding_all exact h
theorem RdPeek.elim {k c t c'} (h : RdPeek k c t c') : ∃ ts u, Consumed c ts c' ∧ c'.symbol = .ok u ∧
    u.kind = k ∧ Reads [t] (ts ++ [u]) := by
  with_unfolding_all exact h

theorem RdFromPeek.step {k l m c1 t c' ts c} (h : RdFromPeek k (l ++ m) c1 t c') (h1 : Consumed c ts c1)
    (h2 : Reads m ts) : RdFromPeek k l c t c' := by
  refine .intro fun pre hp => ?_
  obtain ⟨us, u, h3, h4, h5, h6⟩ := h.elim _ (hp.app h2)
  exact ⟨_, u, h1.trans h3, h4, h5, by simpa [List.append_assoc] using h6⟩

theorem RdPeek.of {k l c1 t c' ts c} (h : RdFromPeek k l c1 t c') (h1 : Consumed c ts c1) (h2 : Reads l ts) :
    RdPeek k c t c' := by
  obtain ⟨us, u, h3, h4, h5, h6⟩ := h.elim _ h2
  exact .intro ⟨_, u, h1.trans h3, h4, h5, by simpa [List.append_assoc] using h6⟩

theorem RdFromPeek.fin {k l fs tag s e c u} (h : arrange tag fs = some (l ++ [.tok u])) (h1 : c.symbol = .ok u)
    (h2 : u.kind = k) : RdFromPeek k l c (.node tag s e fs) c :=
  .intro fun pre hp => ⟨[], u, .refl _, h1, h2, .node h (by rw [List.append_nil]; exact hp.app (.tok .nil))⟩

theorem rd_evalLoop (s r ss c) : WP ΦR (evalLoopBody s r ss) c (ΦR (.evalLoop s r ss) c) := by
  unfold evalLoopBody
  rd_simp
  intro t ht
  refine ⟨fun hk y c2 hy => ?_, fun _ hk => ?_⟩
  · rw [List.map_append] at hy
    exact RdFromPeek.step (l := r :: ss.map .tok) hy (.step ht (.refl _)) (.tok .nil)
  · exact RdFromPeek.fin (by arr) ht hk

theorem rd_funcTypeLoop (s r ss c) : WP ΦR (funcTypeLoopBody s r ss) c (ΦR (.funcTypeLoop s r ss) c) := by
  unfold funcTypeLoopBody
  rd_simp
  intro t ht
  refine ⟨fun hk y c2 hy => ?_, fun _ hk => ?_⟩
  · rw [List.map_append] at hy
    exact RdFromPeek.step (l := r :: ss.map .tok) hy (.step ht (.refl _)) (.tok .nil)
  · exact RdFromPeek.fin (by arr) ht hk

theorem rd_fileLoop (s ns ss c) : WP ΦR (fileLoopBody s ns ss) c (ΦR (.fileLoop s ns ss) c) := by
  unfold fileLoopBody
  rd_simp
  intro t ht
  refine ⟨fun hk l hl => ?_, fun _ => ⟨fun hk y c2 hy l hl => ?_, fun _ x c1 ts u v y c2 hy l hl => ?_⟩⟩
  · refine RdFromPeek.intro fun pre hp => ⟨[], t, .refl _, ht, hk, ?_⟩
    obtain ⟨h1, h2, h3⟩ := hl
    refine .loose rfl (fs' := l ++ [.tok t]) ⟨?_, ?_, ?_⟩ ?_
    · have hr : present [Tree.none, .none, .none, .none, .none] = [] := rfl
      rw [present_append, present_append, hr, List.append_nil] at h1
      rw [present_append, present_append]
      refine List.Perm.append_right _ (h1.trans (List.Perm.append ?_ ?_))
      · exact (List.reverse_perm _).symm.filter _
      · exact ((List.reverse_perm _).symm.map _).filter _
    · rw [List.reverse_reverse]; exact h2.trans (List.sublist_append_left ..)
    · rw [List.map_reverse, List.reverse_reverse, present_toks]; exact h3.trans (List.sublist_append_left ..)
    · rw [List.append_nil]; exact hp.app (.tok .nil)
  · exact RdFromPeek.step (hy _ (hl.sep t)) (.step ht (.refl _)) (.tok .nil)
  · exact RdFromPeek.step (hy _ (hl.node x)) u (reads_present v)

theorem rd_evalInput (c) : WP ΦR evalInputBody c (ΦR .evalInput c) := by
  unfold evalInputBody
  rd_simp
  intro x c1 ts u v y c2 hy
  exact RdPeek.of hy u v

theorem rd_funcTypeInput (c) : WP ΦR funcTypeInputBody c (ΦR .funcTypeInput c) := by
  unfold funcTypeInputBody
  rd_simp
  intro x c1 ts u v y c2 hy
  exact RdPeek.of hy u v

theorem rd_fileInput (c) : WP ΦR fileInputBody c (ΦR .fileInput c) := by
  unfold fileInputBody
  rd_simp
  intro y c2 hy
  exact RdPeek.of (hy _ holds_nil) (.refl _) .nil

theorem rd_singleInput (c) : WP ΦR singleInputBody c (ΦR .singleInput c) := by
  unfold singleInputBody singleNewline
  rd_simp
  intro t ht
  refine ⟨fun hk => .inl ?_, fun _ => ⟨fun hk x c1 ts u v t2 ht2 hk2 => .inr ?_, fun _ => ⟨fun hk x c1 ts u v t2 ht2 hk2 => .inr ?_, fun _ x c1 ts u v => .inl ?_⟩⟩⟩
  · exact Rd.mk (.step ht (.refl _)) (.node rfl (.none (.tok .nil)))
  · exact .intro ⟨ts, t2, u, ht2, hk2, .node rfl (v.app (.tok .nil))⟩
  · exact .intro ⟨ts, t2, u, ht2, hk2, .node rfl (v.app (.tok .nil))⟩
  · exact Rd.mk (u.trans (.refl _)) (.node rfl (v.app (.none .nil)))

theorem rd_decorator (c) : WP ΦR decoratorBody c (ΦR .decorator c) := by
  unfold decoratorBody decoratorEnd
  rd_simp
  intro t ht hk x c1 ts u v t2 ht2
  refine ⟨fun hk2 t3 ht3 => ⟨fun hk3 t4 ht4 hk4 t5 ht5 hk5 => ?_, fun hk3 y c2 us w z t4 ht4 hk4 t5 ht5 hk5 => ?_⟩, fun _ t5 ht5 hk5 => ?_⟩
  · refine .intro ⟨_, t5, .step ht (u.trans (.step ht2 (.step ht4 (.refl _)))), ht5, hk5, .node rfl ?_⟩
    have := Reads.tok (t := t) (v.app (.tok (t := t2) (.none (.tok (t := t4) (.tok (t := t5) .nil)))))
    simpa using this
  · refine .intro ⟨_, t5, .step ht (u.trans (.step ht2 (w.trans (.step ht4 (.refl _))))), ht5, hk5, .node rfl ?_⟩
    have := Reads.tok (t := t) (v.app (.tok (t := t2) (z.app (.tok (t := t4) (.tok (t := t5) .nil)))))
    simpa using this
  · refine .intro ⟨_, t5, .step ht u, ht5, hk5, .node rfl ?_⟩
    have := Reads.tok (t := t) (v.app (.none (.none (.none (.tok (t := t5) .nil)))))
    simpa using this

theorem rd_decoratorsLoop (s ns c) : WP ΦR (decoratorsLoopBody s ns) c (ΦR (.decoratorsLoop s ns) c) := by
  unfold decoratorsLoopBody
  rd_simp
  intro t ht
  refine ⟨fun hk x c1 hx y c2 hy ⟨u, hu, hk'⟩ => ?_, fun _ _ => ⟨s, _, rfl⟩⟩
  rw [ht] at hu; cases hu; rw [hk] at hk'; cases hk'

theorem rd_decorators (c) : WP ΦR decoratorsBody c (ΦR .decorators c) := by
  unfold decoratorsBody
  rd_simp
  intro x c1 hx y c2 hy
  obtain ⟨ts, u, h1, h2, h3, h4⟩ := hx.elim
  obtain ⟨rfl, s, e, rfl⟩ := hy ⟨u, h2, h3⟩
  exact .intro ⟨ts, u, h1, h2, h3, .node rfl h4⟩

theorem rd_decorated (c) : WP ΦR decoratedBody c (ΦR .decorated c) := by
  unfold decoratedBody
  rd_simp
  intro t ht hk x c1 hx t2 ht2
  obtain ⟨ts, u, h1, h2, h3, h4⟩ := hx.elim
  rw [ht2] at h2; cases h2
  refine ⟨fun h => ?_, fun _ => ⟨fun h => ?_, fun _ h => ?_⟩⟩ <;> rw [h3] at h <;> cases h

theorem rd_patternsMatch (c) : WP ΦR patternsMatchBody c (ΦR .patternsMatch c) := by
  unfold patternsMatchBody; rd_simp

/-! ### The functions without loops -/

theorem rd_stmt (c) : WP ΦR stmtBody c (ΦR .stmt c) := by
  unfold stmtBody; rd_simp; try (wp_paths <;> rd_close)
theorem rd_simpleStmt (c) : WP ΦR simpleStmtBody c (ΦR .simpleStmt c) := by
  unfold simpleStmtBody; rd_simp; try (wp_paths <;> rd_close)
theorem rd_smallStmt (c) : WP ΦR smallStmtBody c (ΦR .smallStmt c) := by
  unfold smallStmtBody; rd_simp; try (wp_paths <;> rd_close)
theorem rd_delStmt (c) : WP ΦR delStmtBody c (ΦR .delStmt c) := by
  unfold delStmtBody; rd_simp; try (wp_paths <;> rd_close)
theorem rd_passStmt (c) : WP ΦR passStmtBody c (ΦR .passStmt c) := by
  unfold passStmtBody; rd_simp; try (wp_paths <;> rd_close)
theorem rd_flowStmt (c) : WP ΦR flowStmtBody c (ΦR .flowStmt c) := by
  unfold flowStmtBody; rd_simp; try (wp_paths <;> rd_close)
theorem rd_breakStmt (c) : WP ΦR breakStmtBody c (ΦR .breakStmt c) := by
  unfold breakStmtBody; rd_simp; try (wp_paths <;> rd_close)
theorem rd_continueStmt (c) : WP ΦR continueStmtBody c (ΦR .continueStmt c) := by
  unfold continueStmtBody; rd_simp; try (wp_paths <;> rd_close)
theorem rd_returnStmt (c) : WP ΦR returnStmtBody c (ΦR .returnStmt c) := by
  unfold returnStmtBody; rd_simp; try (wp_paths <;> rd_close)
theorem rd_yieldStmt (c) : WP ΦR yieldStmtBody c (ΦR .yieldStmt c) := by
  unfold yieldStmtBody; rd_simp; try (wp_paths <;> rd_close)
theorem rd_raiseStmt (c) : WP ΦR raiseStmtBody c (ΦR .raiseStmt c) := by
  unfold raiseStmtBody; rd_simp; try (wp_paths <;> rd_close)
theorem rd_importStmt (c) : WP ΦR importStmtBody c (ΦR .importStmt c) := by
  unfold importStmtBody; rd_simp; try (wp_paths <;> rd_close)
theorem rd_importName (c) : WP ΦR importNameBody c (ΦR .importName c) := by
  unfold importNameBody; rd_simp; try (wp_paths <;> rd_close)
theorem rd_importFrom (c) : WP ΦR importFromBody c (ΦR .importFrom c) := by
  unfold importFromBody; rd_simp; try (wp_paths <;> rd_close)
theorem rd_importAsName (c) : WP ΦR importAsNameBody c (ΦR .importAsName c) := by
  unfold importAsNameBody; rd_simp; try (wp_paths <;> rd_close)
theorem rd_dottedAsName (c) : WP ΦR dottedAsNameBody c (ΦR .dottedAsName c) := by
  unfold dottedAsNameBody; rd_simp; try (wp_paths <;> rd_close)
theorem rd_importAsNames (c) : WP ΦR importAsNamesBody c (ΦR .importAsNames c) := by
  unfold importAsNamesBody; rd_simp; try (wp_paths <;> rd_close)
theorem rd_dottedAsNames (c) : WP ΦR dottedAsNamesBody c (ΦR .dottedAsNames c) := by
  unfold dottedAsNamesBody; rd_simp; try (wp_paths <;> rd_close)
theorem rd_dottedName (c) : WP ΦR dottedNameBody c (ΦR .dottedName c) := by
  unfold dottedNameBody; rd_simp; try (wp_paths <;> rd_close)
theorem rd_globalStmt (c) : WP ΦR globalStmtBody c (ΦR .globalStmt c) := by
  unfold globalStmtBody; rd_simp; try (wp_paths <;> rd_close)
theorem rd_nonlocalStmt (c) : WP ΦR nonlocalStmtBody c (ΦR .nonlocalStmt c) := by
  unfold nonlocalStmtBody; rd_simp; try (wp_paths <;> rd_close)
theorem rd_assertStmt (c) : WP ΦR assertStmtBody c (ΦR .assertStmt c) := by
  unfold assertStmtBody; rd_simp; try (wp_paths <;> rd_close)
theorem rd_compoundStmt (c) : WP ΦR compoundStmtBody c (ΦR .compoundStmt c) := by
  unfold compoundStmtBody; rd_simp; try (wp_paths <;> rd_close)
theorem rd_asyncStmt (c) : WP ΦR asyncStmtBody c (ΦR .asyncStmt c) := by
  unfold asyncStmtBody; rd_simp; try (wp_paths <;> rd_close)
theorem rd_ifStmt (c) : WP ΦR ifStmtBody c (ΦR .ifStmt c) := by
  unfold ifStmtBody; rd_simp; try (wp_paths <;> rd_close)
theorem rd_elifStmt (c) : WP ΦR elifStmtBody c (ΦR .elifStmt c) := by
  unfold elifStmtBody; rd_simp; try (wp_paths <;> rd_close)
theorem rd_elseStmt (c) : WP ΦR elseStmtBody c (ΦR .elseStmt c) := by
  unfold elseStmtBody; rd_simp; try (wp_paths <;> rd_close)
theorem rd_whileStmt (c) : WP ΦR whileStmtBody c (ΦR .whileStmt c) := by
  unfold whileStmtBody; rd_simp; try (wp_paths <;> rd_close)
theorem rd_forStmt (c) : WP ΦR forStmtBody c (ΦR .forStmt c) := by
  unfold forStmtBody; rd_simp; try (wp_paths <;> rd_close)
theorem rd_tryStmt (c) : WP ΦR tryStmtBody c (ΦR .tryStmt c) := by
  unfold tryStmtBody; rd_simp; try (wp_paths <;> rd_close)
theorem rd_finallyStmt (c) : WP ΦR finallyStmtBody c (ΦR .finallyStmt c) := by
  unfold finallyStmtBody; rd_simp; try (wp_paths <;> rd_close)
theorem rd_withStmt (c) : WP ΦR withStmtBody c (ΦR .withStmt c) := by
  unfold withStmtBody; rd_simp; try (wp_paths <;> rd_close)
theorem rd_withItem (c) : WP ΦR withItemBody c (ΦR .withItem c) := by
  unfold withItemBody; rd_simp; try (wp_paths <;> rd_close)
theorem rd_exceptStmt (c) : WP ΦR exceptStmtBody c (ΦR .exceptStmt c) := by
  unfold exceptStmtBody; rd_simp; try (wp_paths <;> rd_close)
theorem rd_suite (c) : WP ΦR suiteBody c (ΦR .suite c) := by
  unfold suiteBody; rd_simp; try (wp_paths <;> rd_close)
theorem rd_asyncFuncDef (c) : WP ΦR asyncFuncDefBody c (ΦR .asyncFuncDef c) := by
  unfold asyncFuncDefBody; rd_simp; try (wp_paths <;> rd_close)
theorem rd_funcDef (c) : WP ΦR funcDefBody c (ΦR .funcDef c) := by
  unfold funcDefBody; rd_simp; try (wp_paths <;> rd_close)
theorem rd_parameters (c) : WP ΦR parametersBody c (ΦR .parameters c) := by
  unfold parametersBody; rd_simp; try (wp_paths <;> rd_close)
theorem rd_typedArgsList (c) : WP ΦR typedArgsListBody c (ΦR .typedArgsList c) := by
  unfold typedArgsListBody; rd_simp; try (wp_paths <;> rd_close)
theorem rd_tfpDefAssign (c) : WP ΦR tfpDefAssignBody c (ΦR .tfpDefAssign c) := by
  unfold tfpDefAssignBody; rd_simp; try (wp_paths <;> rd_close)
theorem rd_tfpDef (c) : WP ΦR tfpDefBody c (ΦR .tfpDef c) := by
  unfold tfpDefBody; rd_simp; try (wp_paths <;> rd_close)
theorem rd_funcBodySuite (c) : WP ΦR funcBodySuiteBody c (ΦR .funcBodySuite c) := by
  unfold funcBodySuiteBody; rd_simp [funcBodyIndent]; try (wp_paths <;> rd_close)
theorem rd_classDef (c) : WP ΦR classDefBody c (ΦR .classDef c) := by
  unfold classDefBody; rd_simp [classRest]; try (wp_paths <;> rd_close)
theorem rd_funcType (c) : WP ΦR funcTypeBody c (ΦR .funcType c) := by
  unfold funcTypeBody; rd_simp; try (wp_paths <;> rd_close)

theorem rd_body (f c) : WP ΦR (body f) c (ΦR f c) := by
  cases f with
  | atom => exact rd_atom c
  | atomStrLoop a0 a1 => exact rd_atomStrLoop a0 a1 c
  | atomExpr => exact rd_atomExpr c
  | trailerLoop a0 a1 a2 a3 => exact rd_trailerLoop a0 a1 a2 a3 c
  | power => exact rd_power c
  | factor => exact rd_factor c
  | term => exact rd_term c
  | termLoop a0 a1 => exact rd_termLoop a0 a1 c
  | arith => exact rd_arith c
  | arithLoop a0 a1 => exact rd_arithLoop a0 a1 c
  | shift => exact rd_shift c
  | shiftLoop a0 a1 => exact rd_shiftLoop a0 a1 c
  | andExpr => exact rd_andExpr c
  | andExprLoop a0 a1 => exact rd_andExprLoop a0 a1 c
  | xorExpr => exact rd_xorExpr c
  | xorExprLoop a0 a1 => exact rd_xorExprLoop a0 a1 c
  | expr => exact rd_expr c
  | exprLoop a0 a1 => exact rd_exprLoop a0 a1 c
  | starExpr => exact rd_starExpr c
  | comparison => exact rd_comparison c
  | comparisonLoop a0 a1 => exact rd_comparisonLoop a0 a1 c
  | notTest => exact rd_notTest c
  | andTest => exact rd_andTest c
  | andTestLoop a0 a1 => exact rd_andTestLoop a0 a1 c
  | orTest => exact rd_orTest c
  | orTestLoop a0 a1 => exact rd_orTestLoop a0 a1 c
  | lambdaDef a0 => exact rd_lambdaDef a0 c
  | noCondTest => exact rd_noCondTest c
  | test => exact rd_test c
  | namedExpression => exact rd_namedExpression c
  | testlistComp => exact rd_testlistComp c
  | testlistCompLoop a0 a1 a2 => exact rd_testlistCompLoop a0 a1 a2 c
  | trailer => exact rd_trailer c
  | subscriptList => exact rd_subscriptList c
  | subscriptListLoop a0 a1 a2 => exact rd_subscriptListLoop a0 a1 a2 c
  | subscript => exact rd_subscript c
  | exprlist => exact rd_exprlist c
  | exprlistLoop a0 a1 a2 => exact rd_exprlistLoop a0 a1 a2 c
  | testlist => exact rd_testlist c
  | testlistLoop a0 a1 a2 => exact rd_testlistLoop a0 a1 a2 c
  | dictorsetMaker => exact rd_dictorsetMaker c
  | setLoop a0 a1 a2 => exact rd_setLoop a0 a1 a2 c
  | arglist => exact rd_arglist c
  | arglistLoop a0 a1 a2 => exact rd_arglistLoop a0 a1 a2 c
  | argument => exact rd_argument c
  | compIter => exact rd_compIter c
  | syncCompFor => exact rd_syncCompFor c
  | compFor => exact rd_compFor c
  | compIf => exact rd_compIf c
  | yieldExpr => exact rd_yieldExpr c
  | testlistStarExpr => exact rd_testlistStarExpr c
  | testlistStarExprLoop a0 a1 a2 => exact rd_testlistStarExprLoop a0 a1 a2 c
  | varArgsList => exact rd_varArgsList c
  | varArgsMainLoop a0 a1 => exact rd_varArgsMainLoop a0 a1 c
  | varArgsStarLoop a0 a1 => exact rd_varArgsStarLoop a0 a1 c
  | varArgsDivLoop a0 a1 => exact rd_varArgsDivLoop a0 a1 c
  | varArgsAssignments => exact rd_varArgsAssignments c
  | vfpDef => exact rd_vfpDef c
  | stmt => exact rd_stmt c
  | simpleStmt => exact rd_simpleStmt c
  | simpleStmtLoop a0 a1 a2 => exact rd_simpleStmtLoop a0 a1 a2 c
  | smallStmt => exact rd_smallStmt c
  | exprStmt => exact rd_exprStmt c
  | assignLoop a0 a1 a2 => exact rd_assignLoop a0 a1 a2 c
  | annAssign a0 a1 => exact rd_annAssign a0 a1 c
  | delStmt => exact rd_delStmt c
  | passStmt => exact rd_passStmt c
  | flowStmt => exact rd_flowStmt c
  | breakStmt => exact rd_breakStmt c
  | continueStmt => exact rd_continueStmt c
  | returnStmt => exact rd_returnStmt c
  | yieldStmt => exact rd_yieldStmt c
  | raiseStmt => exact rd_raiseStmt c
  | importStmt => exact rd_importStmt c
  | importName => exact rd_importName c
  | importFrom => exact rd_importFrom c
  | importDotLoop a0 a1 a2 => exact rd_importDotLoop a0 a1 a2 c
  | importAsName => exact rd_importAsName c
  | dottedAsName => exact rd_dottedAsName c
  | importAsNames => exact rd_importAsNames c
  | importAsNamesLoop a0 a1 a2 => exact rd_importAsNamesLoop a0 a1 a2 c
  | dottedAsNames => exact rd_dottedAsNames c
  | dottedAsNamesLoop a0 a1 a2 => exact rd_dottedAsNamesLoop a0 a1 a2 c
  | dottedName => exact rd_dottedName c
  | dottedNameLoop a0 a1 a2 => exact rd_dottedNameLoop a0 a1 a2 c
  | globalStmt => exact rd_globalStmt c
  | globalLoop a0 a1 a2 a3 => exact rd_globalLoop a0 a1 a2 a3 c
  | nonlocalStmt => exact rd_nonlocalStmt c
  | nonlocalLoop a0 a1 a2 a3 => exact rd_nonlocalLoop a0 a1 a2 a3 c
  | assertStmt => exact rd_assertStmt c
  | compoundStmt => exact rd_compoundStmt c
  | asyncStmt => exact rd_asyncStmt c
  | ifStmt => exact rd_ifStmt c
  | ifLoop a0 a1 a2 a3 a4 a5 => exact rd_ifLoop a0 a1 a2 a3 a4 a5 c
  | elifStmt => exact rd_elifStmt c
  | elseStmt => exact rd_elseStmt c
  | whileStmt => exact rd_whileStmt c
  | forStmt => exact rd_forStmt c
  | tryStmt => exact rd_tryStmt c
  | tryLoop a0 a1 a2 a3 a4 => exact rd_tryLoop a0 a1 a2 a3 a4 c
  | finallyStmt => exact rd_finallyStmt c
  | withStmt => exact rd_withStmt c
  | withParenLoop a0 a1 a2 a3 a4 => exact rd_withParenLoop a0 a1 a2 a3 a4 c
  | withLoop a0 a1 a2 a3 => exact rd_withLoop a0 a1 a2 a3 c
  | withItem => exact rd_withItem c
  | exceptStmt => exact rd_exceptStmt c
  | exceptClause => exact rd_exceptClause c
  | suite => exact rd_suite c
  | suiteLoop a0 a1 a2 a3 => exact rd_suiteLoop a0 a1 a2 a3 c
  | evalInput => exact rd_evalInput c
  | evalLoop a0 a1 a2 => exact rd_evalLoop a0 a1 a2 c
  | fileInput => exact rd_fileInput c
  | fileLoop a0 a1 a2 => exact rd_fileLoop a0 a1 a2 c
  | singleInput => exact rd_singleInput c
  | funcTypeInput => exact rd_funcTypeInput c
  | funcTypeLoop a0 a1 a2 => exact rd_funcTypeLoop a0 a1 a2 c
  | decorator => exact rd_decorator c
  | decorators => exact rd_decorators c
  | decoratorsLoop a0 a1 => exact rd_decoratorsLoop a0 a1 c
  | decorated => exact rd_decorated c
  | asyncFuncDef => exact rd_asyncFuncDef c
  | funcDef => exact rd_funcDef c
  | parameters => exact rd_parameters c
  | typedArgsList => exact rd_typedArgsList c
  | tfpDefAssign => exact rd_tfpDefAssign c
  | tfpDef => exact rd_tfpDef c
  | funcBodySuite => exact rd_funcBodySuite c
  | funcBodyLoop a0 a1 a2 a3 a4 a5 => exact rd_funcBodyLoop a0 a1 a2 a3 a4 a5 c
  | classDef => exact rd_classDef c
  | funcType => exact rd_funcType c
  | typeList => exact rd_typeList c
  | typeListMainLoop a0 a1 => exact rd_typeListMainLoop a0 a1 c
  | typeListStarLoop a0 a1 => exact rd_typeListStarLoop a0 a1 c
  | patternsMatch => exact rd_patternsMatch c

/-- Every successful run consumes tokens and puts them in its result. -/
theorem run_reads {n f c t c'} (h : run n f c = .ok t c') : ΦR f c t c' := run_sound rd_body n f c t c' h

end

end Verif
