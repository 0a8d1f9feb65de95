import Verif.Proof.ExactSoundList

/-!
# What the parse functions consume is in the exact grammar: the rest of the expressions
-/

namespace Verif
open Prog XR
set_option linter.unusedVariables false
set_option linter.unusedSectionVars false
set_option linter.unusedSimpArgs false

section
variable [Uni]

attribute [local irreducible] XG XPeek XE XL XT StrOk NoCont SymIn WP PSt.advance LoopX ExprEnd ExprItem SubEnd SubItem Halts

theorem xs_testlistCompLoop (s ns ss c) : WP ΦEx (testlistCompLoopBody s ns ss) c (ΦEx (.testlistCompLoop s ns ss) c) := by
  unfold testlistCompLoopBody; xe_simp [starOrNamed]; xe_auto
theorem xs_testlistComp (c) : WP ΦEx testlistCompBody c (ΦEx .testlistComp c) := by
  unfold testlistCompBody; xe_simp [starOrNamed]; xe_auto
theorem xs_trailer (c) : WP ΦEx trailerBody c (ΦEx .trailer c) := by
  unfold trailerBody; xe_simp; xe_auto
theorem xs_compIter (c) : WP ΦEx compIterBody c (ΦEx .compIter c) := by
  unfold compIterBody; xe_simp; xe_auto
theorem ExprEnd.isIn {x b c t} (h : ExprEnd x b c) (ht : c.symbol = .ok t) (hk : t.kind = .PyIn) :
    XDer pRule (n .exprlist_in) x b c.exc := by
  have hi : SymIn [.PyIn] c := .of ht hk (by decide)
  have : (XDer pRule (n .exprlist) x b c.exc ∧ (SymIn [.PyIn] c → XDer pRule (n .exprlist_in) x b c.exc)) ∨
      (XDer pRule (n .exprlist_in) x b c.exc ∧ SymIn [.PyIn] c) := by with_unfolding_all exact h
  exact this.elim (fun h => h.2 hi) (fun h => h.1)
theorem ExprEnd.cases {x b c} (h : ExprEnd x b c) : XDer pRule (n .exprlist) x b c.exc ∨ SymIn [.PyIn] c := by
  have : (XDer pRule (n .exprlist) x b c.exc ∧ (SymIn [.PyIn] c → XDer pRule (n .exprlist_in) x b c.exc)) ∨
      (XDer pRule (n .exprlist_in) x b c.exc ∧ SymIn [.PyIn] c) := by with_unfolding_all exact h
  exact this.imp (fun h => h.1) (fun h => h.2)
theorem xs_syncCompFor (c) : WP ΦEx syncCompForBody c (ΦEx .syncCompFor c) := by
  unfold syncCompForBody; xe_simp
  intro t ht hk x c1 ⟨ts, a, b⟩ t2 ht2 hk2
  replace b := b.isIn ht2 hk2
  xe_auto
theorem xs_compFor (c) : WP ΦEx compForBody c (ΦEx .compFor c) := by
  unfold compForBody; xe_simp; xe_auto
theorem xs_compIf (c) : WP ΦEx compIfBody c (ΦEx .compIf c) := by
  unfold compIfBody; xe_simp; xe_auto
theorem xs_yieldExpr (c) : WP ΦEx yieldExprBody c (ΦEx .yieldExpr c) := by
  unfold yieldExprBody; xe_simp; xe_auto
theorem xs_varArgsAssignments (c) : WP ΦEx varArgsAssignmentsBody c (ΦEx .varArgsAssignments c) := by
  unfold varArgsAssignmentsBody; xe_simp; xe_auto
theorem xs_vfpDef (c) : WP ΦEx vfpDefBody c (ΦEx .vfpDef c) := by
  unfold vfpDefBody; xe_simp; xe_auto

/-! ### Subscripts -/

theorem SubItem.one {x a c} (h : XDer pRule (n .subscript) x a c.exc) : SubItem x a c := by
  with_unfolding_all exact Or.inl h
theorem SubItem.opened {x a c} (h : XDer pRule (n .subscript_open) x a c.exc) (h' : SymIn subEnds c) : SubItem x a c := by
  with_unfolding_all exact Or.inr ⟨h, h'⟩
theorem SubItem.use {x a c t} (d : SubItem x a c) (ht : c.symbol = .ok t) (hk : t.kind = .PyComa) :
    XDer pRule (n .subscript) x a c.exc := by
  have : XDer pRule (n .subscript) x a c.exc ∨ (XDer pRule (n .subscript_open) x a c.exc ∧ SymIn subEnds c) := by
    with_unfolding_all exact d
  exact this.elim id (fun h => (h.2.no ht hk (by decide)).elim)
theorem SubEnd.elim {x b c} (d : SubEnd x b c) : XDer pRule (n .subscriptlist) x b c.exc ∨
    (XDer pRule (n .subscriptlist_open) x b c.exc ∧ SymIn subEnds c) := by
  with_unfolding_all exact d

theorem xs_subscriptListLoop (s ns ss c) : WP ΦEx (subscriptListLoopBody s ns ss) c (ΦEx (.subscriptListLoop s ns ss) c) := by
  unfold subscriptListLoopBody
  xe_simp
  intro t ht
  refine ⟨fun hk x c1 => ⟨fun ts u v y c2 ⟨us, a, b⟩ => ?_, fun ts u v w y c2 ⟨us, a, b⟩ => ?_⟩, fun _ => ?_⟩
  · exact ⟨_, .step ht (u.trans a), fun x a' d => .cons (d.use ht hk) hk (b _ _ (.one v))⟩
  · exact ⟨_, .step ht (u.trans a), fun x a' d => .cons (d.use ht hk) hk (b _ _ (.opened v w))⟩
  · exact ⟨[], .refl _, fun x a d => by rw [List.append_nil]; exact .last d⟩

theorem xs_subscriptList (c) : WP ΦEx subscriptListBody c (ΦEx .subscriptList c) := by
  unfold subscriptListBody
  xe_simp
  refine fun x c1 => ⟨fun ts u v y c2 ⟨us, a, b⟩ => ?_, fun ts u v w y c2 ⟨us, a, b⟩ => ?_⟩
  · rcases (b _ _ (.one v)).elim with b | ⟨b, b'⟩
    · exact .mk1 (u.trans a) (.of1 b)
    · exact .mk2 (u.trans a) (.of1 b) b'
  · rcases (b _ _ (.opened v w)).elim with b | ⟨b, b'⟩
    · exact .mk1 (u.trans a) (.of1 b)
    · exact .mk2 (u.trans a) (.of1 b) b'

/-- the third part of a subscript -/
theorem xs_third {c c5 : PSt} {ts} {t5 : Token} (h : Consumed c ts c5) (d : XDer pRule X.slice c.exc ts c5.exc)
    (h5 : c5.symbol = .ok t5) (hk : t5.kind = .PyRightBracket ∨ t5.kind = .PyColon) :
    XT (n .subscript) (n .subscript_open) subEnds c c5 := by
  refine .mk2 h (.of1 (.n d)) ?_
  rcases hk with hk | hk <;> exact .of h5 hk (by decide)
theorem xs_third' {c c5 c' : PSt} {ts us} (h : Consumed c ts c5) (d : XDer pRule X.slice c.exc ts c5.exc)
    (h' : Consumed c5 us c') (d' : XDer pRule (n .test) c5.exc us c'.exc) :
    XT (n .subscript) (n .subscript_open) subEnds c c' :=
  .mk1 (h.trans h') (.of1 (.n (.right (.seq d d'))))

/-- the rest of a subscript after its first colon -/
theorem xs_afterColon {c c1 : PSt} {ts} {t2 : Token} (h : Consumed c ts c1) (d : XDer pRule (opt (n .test)) c.exc ts c1.exc)
    (h2 : c1.symbol = .ok t2) (hk2 : t2.kind = .PyColon) :
    WP ΦEx (do
      let t3 ← symHere "Expecting symbol in subscript expression!"
      let second ← if t3.kind = .PyRightBracket ∨ t3.kind = .PyColon then pure .none else parse .test
      let t4 ← symHere "Expecting symbol in subscript expression!"
      next
      let t5 ← symHere "Expecting symbol in subscript expression!"
      let third ← if t5.kind = .PyRightBracket ∨ t5.kind = .PyColon then pure .none else parse .test
      pure Tree.none) c1.advance (fun _ c' => XT (n .subscript) (n .subscript_open) subEnds c c') := by
  xe_simp
  intro t3 h3
  refine ⟨fun hk3 t4 h4 t5 h5 => ?_, fun _ x c2 us u v v2 v3 t4 h4 t5 h5 => ?_⟩
  · have d' : XDer pRule X.slice c.exc (ts ++ [t2] ++ [t3]) c1.advance.advance.exc := by
      rw [advance_exc_eq, advance_exc_eq, List.append_assoc]
      refine .seq d (.seq (.k hk2) ?_)
      rcases hk3 with hk3 | hk3
      · exact .right (.left (.k hk3))
      · exact .left (.k hk3)
    have h' : Consumed c (ts ++ [t2] ++ [t3]) c1.advance.advance := by
      rw [List.append_assoc]; exact h.trans (.step h2 (.step h3 (.refl _)))
    refine ⟨fun hk => xs_third h' d' h5 hk, fun _ x c3 ws p q _ _ => xs_third' h' d' p ?_⟩
    rw [advance_exc_eq, advance_exc_eq]; exact q
  · have d' : XDer pRule X.slice c.exc (ts ++ ([t2] ++ (us ++ [t4]))) c2.advance.exc := by
      rw [advance_exc_eq]
      exact .seq d (.seq (.k hk2) (xs_slice v v2 v3 h4))
    have h' : Consumed c (ts ++ ([t2] ++ (us ++ [t4]))) c2.advance :=
      h.trans (.step h2 (u.trans (.step h4 (.refl _))))
    refine ⟨fun hk => xs_third h' d' h5 hk, fun _ x c3 ws p q _ _ => xs_third' h' d' p ?_⟩
    rw [advance_exc_eq]; exact q

theorem xs_subscript (c) : WP ΦEx subscriptBody c (ΦEx .subscript c) := by
  unfold subscriptBody
  xe_simp
  intro t ht
  refine ⟨fun hk t2 ht2 => ⟨fun hk2 => ?_, fun hk2 => ?_⟩, fun _ x c1 ts u v v2 v3 t2 ht2 => ⟨fun hk2 => ?_, fun _ => ?_⟩⟩
  · have := xs_afterColon (.refl c) .absent ht2 hk2
    simp only [wp_bind, wp_here, wp_symAt, wp_symHere, wp_sym?, wp_ite, wp_next, wp_mk, wp_parse, wp_pure, wp_ret, implies_true, and_true, true_and, ΦEx, advance_exc, advance_exc_eq, consumed_exc, xe_imp, and_imp, forall_const] at this
    exact this
  · rw [ht] at ht2; cases ht2; exact absurd hk hk2
  · have := xs_afterColon u (.present v) ht2 hk2
    simp only [wp_bind, wp_here, wp_symAt, wp_symHere, wp_sym?, wp_ite, wp_next, wp_mk, wp_parse, wp_pure, wp_ret, implies_true, and_true, true_and, ΦEx, advance_exc, advance_exc_eq, consumed_exc, xe_imp, and_imp, forall_const] at this
    exact this
  · exact .mk1 u (.of1 (.n (.left v)))

/-! ### Parameter lists -/

theorem xs_varArgsPower (s v t c) (ht : c.symbol = .ok t) (hk : t.kind = .PyPower) :
    WP ΦEx (varArgsPower s v t) c (fun _ c' => XG X.kwargs c c') := by
  unfold varArgsPower varArgsResult; xe_simp; xe_auto
theorem xs_varArgsMul (s v t c) (ht : c.symbol = .ok t) (hk : t.kind = .PyMul) :
    WP ΦEx (varArgsMul s v t) c (fun _ c' => XG X.starargs c c') := by
  unfold varArgsMul
  xe_simp
  intro x c1 ts u w y c2 us u' w'
  exact XG.mk (.step ht (u.trans u')) (XDK.of1 (.seq (ts := [t]) (.k hk) (.seq w w')))

theorem xs_varArgsStarLoop (s v c) : WP ΦEx (varArgsStarLoopBody s v) c (ΦEx (.varArgsStarLoop s v) c) := by
  unfold varArgsStarLoopBody varArgsResult
  xe_simp
  intro t ht
  refine ⟨fun hk t2 ht2 => ⟨fun hk2 => ?_, fun _ x c1 ts u w y c2 us u' w' => ?_⟩, fun _ => ?_⟩
  · refine wp_mono _ (fun y c2 hy => ?_) (xs_varArgsPower _ _ _ _ ht2 hk2)
    obtain ⟨us, u', w'⟩ := hy.elim
    rw [advance_exc_eq] at w'
    xe_close
  · exact XG.mk (.step ht (u.trans u')) (XDK.of1 (XDer.round (.seq (ts := [t]) (.k hk) w) w'))
  · xe_close

theorem xs_varArgsDivLoop (s v c) : WP ΦEx (varArgsDivLoopBody s v) c (ΦEx (.varArgsDivLoop s v) c) := by
  unfold varArgsDivLoopBody varArgsResult
  xe_simp
  intro t ht
  refine ⟨fun hk t2 ht2 => ⟨fun hk2 => ?_, fun _ => ⟨fun hk2 => ?_, fun _ x c1 ts u w y c2 us u' w' => ?_⟩⟩, fun _ => ?_⟩
  · refine wp_mono _ (fun y c2 hy => ?_) (xs_varArgsMul _ _ _ _ ht2 hk2)
    obtain ⟨us, u', w'⟩ := hy.elim
    rw [advance_exc_eq] at w'
    xe_close
  · refine wp_mono _ (fun y c2 hy => ?_) (xs_varArgsPower _ _ _ _ ht2 hk2)
    obtain ⟨us, u', w'⟩ := hy.elim
    rw [advance_exc_eq] at w'
    xe_close
  · exact XG.mk (.step ht (u.trans u')) (XDK.of1 (XDer.round (.seq (ts := [t]) (.k hk) w) w'))
  · xe_close

theorem xs_varArgsMainLoop (s v c) : WP ΦEx (varArgsMainLoopBody s v) c (ΦEx (.varArgsMainLoop s v) c) := by
  unfold varArgsMainLoopBody varArgsResult
  xe_simp
  intro t ht
  refine ⟨fun hk t2 ht2 => ⟨fun hk2 y c2 us u' w' => ?_, fun _ => ⟨fun hk2 => ?_, fun _ => ⟨fun hk2 => ?_, fun _ x c1 ts u w y c2 us u' w' => ?_⟩⟩⟩, fun _ => ?_⟩
  · cases w' with
    | seq w1 w2 =>
      refine XG.mk (.step ht (.step ht2 u')) (XDK.of1 ?_)
      exact .seq (ts := []) .stop (.seq (.present (.seq (ts := [t]) (.k hk) (.seq (ts := [t2]) (.k hk2) w1))) w2)
  · refine wp_mono _ (fun y c2 hy => ?_) (xs_varArgsMul _ _ _ _ ht2 hk2)
    obtain ⟨us, u', w'⟩ := hy.elim
    rw [advance_exc_eq] at w'
    xe_close
  · refine wp_mono _ (fun y c2 hy => ?_) (xs_varArgsPower _ _ _ _ ht2 hk2)
    obtain ⟨us, u', w'⟩ := hy.elim
    rw [advance_exc_eq] at w'
    xe_close
  · exact XG.mk (.step ht (u.trans u')) (XDK.of1 (XDer.round (.seq (ts := [t]) (.k hk) w) w'))
  · xe_close

theorem xs_varArgsList (c) : WP ΦEx varArgsListBody c (ΦEx .varArgsList c) := by
  unfold varArgsListBody
  xe_simp
  intro t ht
  refine ⟨fun hk => ?_, fun _ => ⟨fun hk => ?_, fun _ x c1 ts u w y c2 us u' w' => ?_⟩⟩
  · refine wp_mono _ (fun y c2 hy => ?_) (xs_varArgsMul _ _ _ _ ht hk)
    obtain ⟨us, u', w'⟩ := hy.elim
    exact XG.mk u' (XDK.of1 (.n (.right (.left w'))))
  · refine wp_mono _ (fun y c2 hy => ?_) (xs_varArgsPower _ _ _ _ ht hk)
    obtain ⟨us, u', w'⟩ := hy.elim
    exact XG.mk u' (XDK.of1 (.n (.right (.right w'))))
  · exact XG.mk (u.trans u') (XDK.of1 (.n (.left (.seq w w'))))

end

end Verif
