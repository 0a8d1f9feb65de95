import Verif.Proof.ExactSoundStmt

/-!
# What the parse functions consume is in the exact grammar: assignments, imports, blocks
-/

namespace Verif
open Prog XR
set_option linter.unusedVariables false
set_option linter.unusedSectionVars false
set_option linter.unusedSimpArgs false

section
variable [Uni]

attribute [local irreducible] XG XPeek XE XL XT StrOk NoCont SymIn WP PSt.advance LoopX ExprEnd ExprItem SubEnd SubItem Halts

/-! ### Assignments -/

theorem xs_yieldOrTestlist (s c) : WP ΦEx (yieldOrTestlist s) c (fun _ c' => RhsX c c') := by
  unfold yieldOrTestlist; xe_simp
  intro t ht
  refine ⟨fun _ x c1 => ⟨fun ts u v => .inl (.mk u (.of1 (.left v))), fun ts u v w => .inr (.inl ⟨.mk u (.of1 v), w⟩)⟩,
    fun _ x c1 => ⟨fun ts u v => .inl (.mk u (.of1 (.right v))), fun ts u v w => .inr (.inr ⟨.mk u (.of1 v), w⟩)⟩⟩

theorem RhsX.tr {c c'} (h : RhsX c c') : XG X.rhs_tr c c' := by
  rcases h with h | ⟨h, _⟩ | ⟨h, _⟩
  · obtain ⟨ts, u, v⟩ := h.elim
    cases v with
    | left v => exact .mk u (.of1 (.left v.yield_tr))
    | right v => exact .mk u (.of1 (.right v.testlist_tr))
  · obtain ⟨ts, u, v⟩ := h.elim; exact .mk u (.of1 (.left v))
  · obtain ⟨ts, u, v⟩ := h.elim; exact .mk u (.of1 (.right v))

theorem RhsX.inner {c c'} (h : RhsX c c') (hs : SymIn [.PyAssign] c') : XG (n .yield_expr_tr ∥ n .testlist) c c' := by
  rcases h with h | ⟨h, _⟩ | ⟨h, h'⟩
  · obtain ⟨ts, u, v⟩ := h.elim
    cases v with
    | left v => exact .mk u (.of1 (.left v.yield_tr))
    | right v => exact .mk u (.of1 (.right v))
  · obtain ⟨ts, u, v⟩ := h.elim; exact .mk u (.of1 (.left v))
  · exact (SymIn.disj h' hs (by decide)).elim

theorem RhsX.typed {c c'} (h : RhsX c c') (hs : SymIn [.TypeComment] c') : XG (n .yield_expr ∥ n .testlist) c c' := by
  rcases h with h | ⟨h, h'⟩ | ⟨h, h'⟩
  · exact h
  · exact (SymIn.disj h' hs (by decide)).elim
  · exact (SymIn.disj h' hs (by decide)).elim

attribute [local irreducible] RhsX

theorem xs_assignLoop (s l ns c) : WP ΦEx (assignLoopBody s l ns) c (ΦEx (.assignLoop s l ns) c) := by
  unfold assignLoopBody
  xe_simp
  intro t ht
  refine ⟨fun hk => ?_, fun hk => ⟨fun hk2 => ?_, fun _ => ?_⟩⟩
  · refine wp_mono _ (fun x c1 hx => ?_) (xs_yieldOrTestlist _ _)
    intro y c2 h
    refine .inl ⟨.of ht hk (by decide), ?_⟩
    rcases h with ⟨h1, h2⟩ | ⟨h2, rfl⟩ | ⟨h1, h2⟩
    · obtain ⟨ts, w, z⟩ := (hx.inner h1).elim
      obtain ⟨us, w', z'⟩ := h2.elim
      rw [advance_exc_eq] at z
      have h1 : XDer pRule (k .PyAssign ⬝ (n .yield_expr_tr ∥ n .testlist)) c.exc (t :: ts) c1.exc := .seq (ts := [t]) (.k hk) z
      exact XG.mk (.step ht (w.trans w')) (XDK.of1 (XDer.round h1 z'))
    · obtain ⟨ts, w, z⟩ := hx.tr.elim
      rw [advance_exc_eq] at z
      exact XG.mk (.step ht w) (XDK.of1 (.seq (ts := []) .stop (.seq (ts := [t]) (.k hk) (.left z))))
    · obtain ⟨ts, w, z⟩ := (hx.typed h1).elim
      obtain ⟨us, w', z'⟩ := h2.elim
      rw [advance_exc_eq] at z
      exact XG.mk (.step ht (w.trans w')) (XDK.of1 (.seq (ts := []) .stop (.seq (ts := [t]) (.k hk) (.right (.seq z z')))))
  · exact .inr (.inr ⟨.of ht hk2 (by decide), by xe_close⟩)
  · exact .inr (.inl (by xe_close))

theorem xs_annAssign (s l c) : WP ΦEx (annAssignBody s l) c (ΦEx (.annAssign s l) c) := by
  unfold annAssignBody
  xe_simp
  intro t ht hk x c1 ts u v v2 v3 t2 ht2
  refine ⟨fun hk => ?_, fun _ => ?_⟩
  · refine wp_mono _ (fun y c2 hy => ?_) (xs_yieldOrTestlist _ _)
    obtain ⟨us, w, z⟩ := hy.tr.elim
    rw [advance_exc_eq] at z
    xe_close
  · xe_close

theorem xs_exprRest {c c1 : PSt} {ts} (s x) (u : Consumed c ts c1) (v : XDer pRule (n .star_list_tr) c.exc ts c1.exc) :
    WP ΦEx (do
      let t ← symAt s "Expecting symbol in expression statement!"
      if t.kind = .PyColon then parse (.annAssign s x)
      else if t.kind = .PyAssign then parse (.assignLoop s x [])
      else
        match augOp t.kind with
        | some tag => do
          next
          let right ← yieldOrTestlist s
          mk tag s [x, .tok t, right]
        | none => pure x) c1 (fun _ c' => XG (n .expr_stmt) c c') := by
  xe_simp
  intro t ht
  refine ⟨fun hk y c2 us u' v' => ?_, fun _ => ⟨fun hk y c2 h => ?_, fun _ => ?_⟩⟩
  · xe_close
  · rcases h with ⟨_, h⟩ | ⟨h, rfl⟩ | ⟨h, _⟩
    · obtain ⟨us, w, z⟩ := h.elim
      exact XG.mk (u.trans w) (XDK.of1 (.n (.seq v (.right (.right (.right z))))))
    · xe_close
    · exact (h.no ht hk (by decide)).elim
  · split
    · rename_i tag htag
      xe_simp
      refine wp_mono _ (fun y c2 hy => ?_) (xs_yieldOrTestlist _ _)
      obtain ⟨us, w, z⟩ := hy.tr.elim
      rw [advance_exc_eq] at z
      have h1 : XDer pRule X.augassign c1.exc [t] c1.exc := by
        unfold augOp at htag; split at htag <;> simp at htag <;> exact XDK.out (by xder)
      exact XG.mk (u.trans (.step ht w)) (XDK.of1 (.n (.seq v (.right (.right (.left (.seq (ts := [t]) h1 z)))))))
    · xe_simp
      xe_close

theorem xs_exprStmt (c) : WP ΦEx exprStmtBody c (ΦEx .exprStmt c) := by
  have key := @xs_exprRest _ c
  unfold exprStmtBody
  rw [wp_bind, wp_here, wp_bind, wp_parse]
  simp only [ΦEx]
  intro x c1
  rw [xt_imp]
  exact ⟨fun ts u v => key _ _ u v.star_list_tr, fun ts u v _ => key _ _ u v⟩

/-! ### Imports -/

theorem xs_importFromRest (s t ds c) :
    WP ΦEx (importFromRest s t ds) c (fun _ c' => XG ((n .dotted_name ∥ .eps) ⬝ xImport) c c' ∧
      (ds = [] → XG (n .dotted_name ⬝ xImport) c c')) := by
  unfold importFromRest
  xe_simp
  intro t3 ht3
  refine ⟨fun hk3 hd => ?_, fun _ x c1 ts u v => ?_⟩
  · have hd : ds ≠ [] := by rintro rfl; exact hd rfl
    have key : ∀ x (us : List Token) y, XDer pRule xImport x us y → XDer pRule ((n .dotted_name ∥ .eps) ⬝ xImport) x us y :=
      fun x us y h => .seq (ts := []) (.right .eps) h
    intro t4 ht4 hk t5 ht5
    refine ⟨fun _ => ?_, fun _ => ⟨fun _ x c2 ts u v t6 ht6 _ => ?_, fun _ x c2 ts u v => ?_⟩⟩
    · exact ⟨XG.mk (.step ht4 (.step ht5 (.refl _))) (XDK.of1 (key _ _ _ (XDK.out (by xend)))), fun h => absurd h hd⟩
    · exact ⟨XG.mk (.step ht4 (.step ht5 (u.trans (.step ht6 (.refl _))))) (XDK.of1 (key _ _ _ (XDK.out (by xend)))), fun h => absurd h hd⟩
    · exact ⟨XG.mk (.step ht4 (u.trans (.refl _))) (XDK.of1 (key _ _ _ (XDK.out (by xend)))), fun h => absurd h hd⟩
  · intro t4 ht4 hk t5 ht5
    refine ⟨fun _ => ?_, fun _ => ⟨fun _ x c2 ts u v t6 ht6 _ => ?_, fun _ x c2 ts u v => ?_⟩⟩ <;>
      exact ⟨by xe_close, fun _ => by xe_close⟩

theorem xs_importDots {ds : List Token} {c c' : PSt} (h : XG ((n .dotted_name ∥ .eps) ⬝ xImport) c c' ∧
      (ds = [] → XG (n .dotted_name ⬝ xImport) c c')) :
    if ds = [] then XG ((star X.dots ⬝ n .dotted_name ∥ plus X.dots) ⬝ xImport) c c'
    else XG ((star X.dots ⬝ n .dotted_name ∥ star X.dots) ⬝ xImport) c c' := by
  split
  · rename_i hd
    obtain ⟨ts, u, v⟩ := (h.2 hd).elim
    cases v with
    | seq v w => exact XG.mk u (XDK.of1 (.seq (.left (.seq (ts := []) .stop v)) w))
  · obtain ⟨ts, u, v⟩ := h.1.elim
    cases v with
    | seq v w =>
      cases v with
      | left v => exact XG.mk u (XDK.of1 (.seq (.left (.seq (ts := []) .stop v)) w))
      | right v => cases v; exact XG.mk u (XDK.of1 (.seq (ts := []) (.right .stop) w))

omit [Uni] in
theorem XDer.moreDots {t ts x y} (h : XDer pRule X.dots x [t] x)
    (h' : XDer pRule ((star X.dots ⬝ XR.n .dotted_name ∥ star X.dots) ⬝ xImport) x ts y) :
    XDer pRule ((star X.dots ⬝ XR.n .dotted_name ∥ plus X.dots) ⬝ xImport) x (t :: ts) y ∧
    XDer pRule ((star X.dots ⬝ XR.n .dotted_name ∥ star X.dots) ⬝ xImport) x (t :: ts) y := by
  cases h' with
  | @seq _ _ _ us _ vs _ v w =>
    cases v with
    | left v =>
      have := XDer.round h v
      exact ⟨.seq (ts := t :: us) (.left this) w, .seq (ts := t :: us) (.left this) w⟩
    | right v =>
      exact ⟨.seq (ts := t :: us) (.right (.seq (ts := [t]) h v)) w, .seq (ts := t :: us) (.right (.more (ts := [t]) h v)) w⟩

theorem xs_importDotLoop (s t ds c) : WP ΦEx (importDotLoopBody s t ds) c (ΦEx (.importDotLoop s t ds) c) := by
  unfold importDotLoopBody
  xe_simp
  refine ⟨fun t2 ht2 => ⟨fun hk x c1 hx => ?_, fun _ => ?_⟩, fun _ _ => ?_⟩
  · rw [if_neg (by simp)] at hx
    obtain ⟨ts, u, v⟩ := hx.elim
    rw [advance_exc_eq] at v
    have hd : XDer pRule X.dots c.exc [t2] c.exc := by rcases hk with h | h <;> exact XDK.out (by xder)
    obtain ⟨h1, h2⟩ := XDer.moreDots hd v
    split
    · exact XG.mk (.step ht2 u) (XDK.of1 h1)
    · exact XG.mk (.step ht2 u) (XDK.of1 h2)
  · exact wp_mono _ (fun _ _ h => by xe_simp; exact xs_importDots h) (xs_importFromRest _ _ _ _)
  · exact wp_mono _ (fun _ _ h => by xe_simp; exact xs_importDots h) (xs_importFromRest _ _ _ _)

theorem xs_importFrom (c) : WP ΦEx importFromBody c (ΦEx .importFrom c) := by
  unfold importFromBody; xe_simp [if_true]; xe_auto

/-! ### Blocks -/

omit [Uni] in
theorem XDer.loopDedent {a b : XR} {x u z us y} (h : XDer pRule a x u z) (h' : XDer pRule (star a ⬝ b) z us y) :
    XDer pRule (plus a ⬝ b) x (u ++ us) y := by
  cases h' with
  | seq p q => rw [← List.append_assoc]; exact .seq (.seq h p) q

theorem xs_ifLoop (s t l t2 r ns c) : WP ΦEx (ifLoopBody s t l t2 r ns) c (ΦEx (.ifLoop s t l t2 r ns) c) := by
  unfold ifLoopBody
  xe_simp
  intro t3 ht3
  refine ⟨fun hk x c1 ts u v y c2 us w z => ?_, ?_⟩
  · exact XG.mk (u.trans w) (XDK.of1 (XDer.round v z))
  · xe_auto

theorem xs_tryLoop (s t t2 l ns c) : WP ΦEx (tryLoopBody s t t2 l ns) c (ΦEx (.tryLoop s t t2 l ns) c) := by
  unfold tryLoopBody
  xe_simp
  intro t3 ht3
  refine ⟨fun hk x c1 ts u v y c2 us w z => ?_, ?_⟩
  · exact XG.mk (u.trans w) (XDK.of1 (XDer.round v z))
  · xe_auto

theorem xs_suiteLoop (s t t2 ns c) : WP ΦEx (suiteLoopBody s t t2 ns) c (ΦEx (.suiteLoop s t t2 ns) c) := by
  unfold suiteLoopBody
  xe_simp
  intro t3 ht3
  refine ⟨?_, fun hk x c1 ts u v y c2 us w z => ?_⟩
  · xe_auto
  · exact XG.mk (u.trans w) (XDK.of1 (XDer.round v z))

theorem xs_suite (c) : WP ΦEx suiteBody c (ΦEx .suite c) := by
  unfold suiteBody
  xe_simp
  intro t ht
  refine ⟨fun hk t2 ht2 hk2 x c1 ts u v y c2 us w z => ?_, fun _ => ?_⟩
  · have := XDer.loopDedent v z
    exact XG.mk (.step ht (.step ht2 (u.trans w))) (XDK.of1 (.n (.right (.seq (ts := [t]) (.k hk) (.seq (ts := [t2]) (.k hk2) this)))))
  · xe_auto

theorem xs_funcBodyLoop (s t a b t4 ns c) :
    WP ΦEx (funcBodyLoopBody s t a b t4 ns) c (ΦEx (.funcBodyLoop s t a b t4 ns) c) := by
  unfold funcBodyLoopBody
  xe_simp
  intro t3 ht3
  refine ⟨?_, fun hk x c1 ts u v y c2 us w z => ?_⟩
  · xe_auto
  · exact XG.mk (u.trans w) (XDK.of1 (XDer.round v z))

theorem xs_funcBodySuite (c) : WP ΦEx funcBodySuiteBody c (ΦEx .funcBodySuite c) := by
  unfold funcBodySuiteBody funcBodyIndent
  xe_simp
  intro t ht
  refine ⟨fun hk t2 ht2 => ⟨fun hk2 t3 ht3 hk3 t4 ht4 hk4 x c1 ts u v y c2 us w z => ?_, fun _ t4 ht4 hk4 x c1 ts u v y c2 us w z => ?_⟩, fun _ => ?_⟩
  · have := XDer.loopDedent v z
    exact XG.mk (.step ht (.step ht2 (.step ht3 (.step ht4 (u.trans w))))) (XDK.of1 (.n (.right (.seq (ts := [t]) (.k hk)
      (.seq (ts := [t2, t3]) (.present (.seq (ts := [t2]) (.k hk2) (.k hk3))) (.seq (ts := [t4]) (.k hk4) this))))))
  · have := XDer.loopDedent v z
    exact XG.mk (.step ht (.step ht4 (u.trans w))) (XDK.of1 (.n (.right (.seq (ts := [t]) (.k hk)
      (.seq (ts := []) .absent (.seq (ts := [t4]) (.k hk4) this))))))
  · xe_auto

theorem xs_simpleStmtLoop (s ns ss c) : WP ΦEx (simpleStmtLoopBody s ns ss) c (ΦEx (.simpleStmtLoop s ns ss) c) := by
  unfold simpleStmtLoopBody simpleStmtLoopBody.fin
  xe_simp
  intro t ht
  refine ⟨fun hk t2 ht2 => ⟨fun hk2 t3 ht3 hk3 => ⟨?_, .of ht hk (by decide)⟩, fun _ x c1 h y c2 us w z hs => ⟨?_, .of ht hk (by decide)⟩⟩,
    fun _ t3 ht3 hk3 => ⟨?_, .of ht3 hk3 (by decide)⟩⟩
  · xe_close
  · rcases h with h | h
    · obtain ⟨ts, u, v⟩ := h.elim
      rw [advance_exc_eq] at v
      exact XG.mk (.step ht (u.trans w)) (XDK.of1 (XDer.round (.seq (ts := [t]) (.k hk) v) z))
    · exact (SymIn.disj h hs (by decide)).elim
  · xe_close

theorem xs_simpleStmt (c) : WP ΦEx simpleStmtBody c (ΦEx .simpleStmt c) := by
  unfold simpleStmtBody; xe_simp
  intro x c1 h y c2 us w z hs
  rcases h with h | h
  · obtain ⟨ts, u, v⟩ := h.elim
    exact XG.mk (u.trans w) (XDK.of1 (.n (.seq v z)))
  · exact (SymIn.disj h hs (by decide)).elim

theorem xs_smallStmt (c) : WP ΦEx smallStmtBody c (ΦEx .smallStmt c) := by
  unfold smallStmtBody; xe_simp
  intro t ht
  refine ⟨fun _ x c1 h => h.imp (fun h => ?_) id, fun _ => ?_⟩
  · obtain ⟨ts, u, v⟩ := h.elim
    xe_close
  · wp_paths <;> exact Or.inl (by xe_close)

end

end Verif
