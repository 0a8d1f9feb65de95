import Verif.Proof.ViableStmt

/-!
# Failing runs: assignments, imports, blocks
-/

namespace Verif
open Prog XR
set_option linter.unusedVariables false
set_option linter.unusedSectionVars false
set_option linter.unusedSimpArgs false

section
variable [Uni]

attribute [local irreducible] XG XPeek XE XL XT StrOk NoCont SymIn WF PSt.advance LoopX ExprEnd ExprItem SubEnd SubItem Halts XV XVD XVL Pre

/-! ### Assignments -/

theorem vf_yieldOrTestlist (s c) : WF ΦEx ΨV (fun d => XV (n .yield_expr ∥ n .testlist) c d) (yieldOrTestlist s) c (fun _ c' => RhsX c c') := by
  unfold yieldOrTestlist; vf_simp
  refine ⟨fun t ht => ⟨fun _ => ⟨by vf_auto, fun x c1 => ⟨fun ts u v => .inl (.mk u (.of1 (.left v))), fun ts u v w => .inr (.inl ⟨.mk u (.of1 v), w⟩)⟩⟩,
    fun _ => ⟨by vf_auto, fun x c1 => ⟨fun ts u v => .inl (.mk u (.of1 (.right v))), fun ts u v w => .inr (.inr ⟨.mk u (.of1 v), w⟩)⟩⟩⟩, by vf_auto⟩

theorem XV.rhs {c d} (h : XV (XR.n .yield_expr ∥ XR.n .testlist) c d) : XV X.rhs_tr c d :=
  h.sub fun _ _ _ d => by
    cases d with
    | left v => exact .left v.yield_tr
    | right v => exact .right v.testlist_tr

attribute [local irreducible] RhsX

theorem Pre.eassign {x a us z} (h : XDer pRule (k .PyAssign ⬝ (n .yield_expr_tr ∥ n .testlist)) x a z) (h' : Pre xAssigns z us) :
    Pre xAssigns x (a ++ us) := h'.after fun us y d => XDer.round h d

theorem vf_assignLoop (s l ns c) : VF (assignLoopBody s l ns) (.assignLoop s l ns) c := by
  unfold assignLoopBody
  vf_simp
  refine ⟨fun t ht hk => ?_, fun _ _ => ⟨[], .refl _, .inl rfl⟩⟩
  have hs : SymIn [.PyAssign] c := .of ht hk (by decide)
  refine wf_mono _ (fun x c1 hx => ?_) (fun d hd => ?_) (vf_yieldOrTestlist _ _)
  · intro d ⟨us, w', h⟩
    rcases h with rfl | ⟨h1, h2⟩
    · obtain ⟨ts, w, z⟩ := hx.tr.elim
      rw [advance_exc_eq] at z
      refine ⟨_, .step ht (w.trans w'), .inr ⟨hs, ?_⟩⟩
      exact PreK.out (.seq (.stop (.seq (.k hk (.left (.of z (.nil rfl)))))))
    · obtain ⟨ts, w, z⟩ := (hx.inner h1).elim
      rw [advance_exc_eq] at z
      refine ⟨_, .step ht (w.trans w'), .inr ⟨hs, ?_⟩⟩
      exact Pre.eassign (.seq (ts := [t]) (.k hk) z) h2
  · obtain ⟨ts, w, z⟩ := hd.rhs.elim
    rw [advance_exc_eq] at z
    refine ⟨_, .step ht (w.trans (.refl _)), .inr ⟨hs, ?_⟩⟩
    exact PreK.out (.seq (.stop (.seq (.k hk (.left (.vi z rfl))))))

theorem vf_annAssign (s l c) : VF (annAssignBody s l) (.annAssign s l) c := by
  unfold annAssignBody
  vf_simp
  refine ⟨fun t ht => ⟨fun hk => ⟨by vf_auto, fun x c1 ts u v _ _ => ⟨fun t2 ht2 hk2 => ?_, by vf_auto⟩⟩, by vf_auto⟩, by vf_auto⟩
  refine wf_mono _ (fun _ _ _ => True.intro) (fun d hd => ?_) (vf_yieldOrTestlist _ _)
  obtain ⟨us, w, z⟩ := hd.rhs.elim
  rw [advance_exc_eq] at z
  vf_close

theorem vf_exprRest {c c1 : PSt} {ts} (s x) (u : Consumed c ts c1) (v : XDer pRule (n .star_list_tr) c.exc ts c1.exc) :
    WF ΦEx ΨV (fun d => XV (n .expr_stmt) c d) (do
      let t ← symAt s "Expecting symbol in expression statement!"
      if t.kind = .PyColon then parse (.annAssign s x)
      else if t.kind = .PyAssign then parse (.assignLoop s x [])
      else
        match augOp t.kind with
        | some tag => do
          next
          let right ← yieldOrTestlist s
          mk tag s [x, .tok t, right]
        | none => pure x) c1 (fun _ _ => True) := by
  vf_simp
  have stop : XV (n .expr_stmt) c c1 := XV.mk (u.trans (.refl _)) (.n (.seq (.of v (.nil rfl))))
  refine ⟨fun t ht => ⟨fun hk => by vf_auto, fun _ => ⟨fun hk d ⟨us, w, h⟩ => ?_, fun _ => ?_⟩⟩, fun _ _ => stop⟩
  · rcases h with rfl | ⟨_, h⟩
    · exact XV.mk (u.trans w) (.n (.seq (.of v (.nil rfl))))
    · exact XV.mk (u.trans (w.trans (.refl _))) (.n (.seq (.of v (.right (.right (.right (.vi h rfl)))))))
  · split
    · rename_i tag htag
      vf_simp
      refine wf_mono _ (fun _ _ _ => True.intro) (fun d hd => ?_) (vf_yieldOrTestlist _ _)
      obtain ⟨us, w, z⟩ := hd.rhs.elim
      rw [advance_exc_eq] at z
      have h1 : XDer pRule X.augassign c1.exc [t] c1.exc := by
        unfold augOp at htag; split at htag <;> simp at htag <;> exact XDK.out (by xder)
      exact XV.mk (u.trans (.step ht (w.trans (.refl _)))) (.n (.seq (.of v (.right (.right (.left (.seq (.of (u := [t]) h1 (.vi z rfl)))))))))
    · vf_simp

theorem vf_exprStmt (c) : VF exprStmtBody .exprStmt c := by
  have key := @vf_exprRest _ c
  unfold exprStmtBody
  unfold VF
  rw [wf_bind, wf_here, wf_bind, wf_parse]
  simp only [ΦEx, ΨV, xv_imp]
  refine ⟨by vf_auto, fun x c1 => ?_⟩
  rw [xt_imp]
  exact ⟨fun ts u v => key _ _ u v.star_list_tr, fun ts u v _ => key _ _ u v⟩

/-! ### Imports -/

theorem vf_importFromRest (s t ds c) : WF ΦEx ΨV (fun d => XV ((n .dotted_name ∥ .eps) ⬝ xImport) c d ∧
      (ds = [] → XV (n .dotted_name ⬝ xImport) c d)) (importFromRest s t ds) c (fun _ _ => True) := by
  unfold importFromRest
  vf_simp [xImport]
  refine ⟨fun t3 ht3 => ⟨fun hk3 => ⟨fun hd => ⟨by vf_auto, fun _ => by vf_auto⟩, fun hd => ?_⟩, fun _ => ?_⟩, fun _ _ => ⟨by vf_close, fun _ => by vf_close⟩⟩
  · have hd : ds ≠ [] := by rintro rfl; exact hd rfl
    wp_paths <;> first | contradiction | vf_close
  · wp_paths <;> vf_close

theorem vf_importDots {ds : List Token} {c d : PSt} (h : XV ((n .dotted_name ∥ .eps) ⬝ xImport) c d ∧
      (ds = [] → XV (n .dotted_name ⬝ xImport) c d)) :
    if ds = [] then XV ((star X.dots ⬝ n .dotted_name ∥ plus X.dots) ⬝ xImport) c d
    else XV ((star X.dots ⬝ n .dotted_name ∥ star X.dots) ⬝ xImport) c d := by
  split
  · rename_i hd
    refine (h.2 hd).sub fun x us y v => ?_
    cases v with
    | seq v w => exact .seq (.left (.seq (ts := []) .stop v)) w
  · refine h.1.sub fun x us y v => ?_
    cases v with
    | seq v w =>
      cases v with
      | left v => exact .seq (.left (.seq (ts := []) .stop v)) w
      | right v => cases v; exact .seq (ts := []) (.right .stop) w

theorem vf_importDotLoop (s t ds c) : VF (importDotLoopBody s t ds) (.importDotLoop s t ds) c := by
  unfold importDotLoopBody
  vf_simp
  refine ⟨fun t2 ht2 => ⟨fun hk d hx => ?_, fun _ => ?_⟩, fun _ _ => ?_⟩
  · rw [if_neg (by simp)] at hx
    obtain ⟨ts, u, v⟩ := hx.elim
    rw [advance_exc_eq] at v
    have hd : XDer pRule X.dots c.exc [t2] c.exc := by rcases hk with h | h <;> exact XDK.out (by xder)
    split
    · exact XV.mk (.step ht2 u) (v.after (p := [t2]) fun _ _ d => (XDer.moreDots hd d).1).k1
    · exact XV.mk (.step ht2 u) (v.after (p := [t2]) fun _ _ d => (XDer.moreDots hd d).2).k1
  · exact wf_mono _ (fun _ _ _ => True.intro) (fun _ h => by vf_simp; exact vf_importDots h) (vf_importFromRest _ _ _ _)
  · exact wf_mono _ (fun _ _ _ => True.intro) (fun _ h => by vf_simp; exact vf_importDots h) (vf_importFromRest _ _ _ _)

theorem vf_importFrom (c) : VF importFromBody .importFrom c := by
  unfold importFromBody; vf_simp [if_true, xImport]; vf_auto

/-! ### Blocks -/

theorem vf_ifLoop (s t l t2 r ns c) : VF (ifLoopBody s t l t2 r ns) (.ifLoop s t l t2 r ns) c := by
  unfold ifLoopBody
  vf_simp
  vf_auto

theorem vf_tryLoop (s t t2 l ns c) : VF (tryLoopBody s t t2 l ns) (.tryLoop s t t2 l ns) c := by
  unfold tryLoopBody
  vf_simp
  vf_auto

end

end Verif
