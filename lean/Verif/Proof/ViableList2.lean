import Verif.Proof.ViableList

/-!
# Failing runs: the rest of the expressions
-/

namespace Verif
open Prog XR
set_option linter.unusedVariables false
set_option linter.unusedSectionVars false
set_option linter.unusedSimpArgs false

section
variable [Uni]

attribute [local irreducible] XG XPeek XE XL XT StrOk NoCont SymIn WF PSt.advance LoopX ExprEnd ExprItem SubEnd SubItem Halts XV XVD XVL Pre

theorem vf_testlistCompLoop (s ns ss c) : VF (testlistCompLoopBody s ns ss) (.testlistCompLoop s ns ss) c := by
  unfold testlistCompLoopBody; vf_simp [starOrNamed]; vf_auto
theorem vf_testlistComp (c) : VF testlistCompBody .testlistComp c := by
  unfold testlistCompBody; vf_simp [starOrNamed]; vf_auto
theorem vf_trailer (c) : VF trailerBody .trailer c := by
  unfold trailerBody; vf_simp; vf_auto
theorem vf_compIter (c) : VF compIterBody .compIter c := by
  unfold compIterBody; vf_simp; vf_auto
theorem ExprEnd.pre {x b c} (h : ExprEnd x b c) : Pre (n .exprlist_in) x b := by
  have : (XDer pRule (n .exprlist) x b c.exc ∧ (SymIn [.PyIn] c → XDer pRule (n .exprlist_in) x b c.exc)) ∨
      (XDer pRule (n .exprlist_in) x b c.exc ∧ SymIn [.PyIn] c) := by with_unfolding_all exact h
  exact this.elim (fun h => .exprlist_in (.of h.1)) (fun h => .of h.1)
theorem vf_syncCompFor (c) : VF syncCompForBody .syncCompFor c := by
  unfold syncCompForBody; vf_simp
  refine ⟨fun t ht => ⟨fun hk => ⟨by vf_auto, fun x c1 ⟨ts, a, b⟩ => ⟨fun t2 ht2 => ⟨fun hk2 => ?_, fun _ => ?_⟩, fun y hy => ?_⟩⟩,
    by vf_auto⟩, by vf_auto⟩
  · have b' := b.isIn ht2 hk2
    vf_auto
  · have b' := b.pre
    vf_close
  · have b' := b.pre
    vf_close
theorem vf_compFor (c) : VF compForBody .compFor c := by
  unfold compForBody; vf_simp; vf_auto
theorem vf_compIf (c) : VF compIfBody .compIf c := by
  unfold compIfBody; vf_simp; vf_auto
theorem vf_yieldExpr (c) : VF yieldExprBody .yieldExpr c := by
  unfold yieldExprBody; vf_simp; vf_auto
theorem vf_varArgsAssignments (c) : VF varArgsAssignmentsBody .varArgsAssignments c := by
  unfold varArgsAssignmentsBody; vf_simp; vf_auto
theorem vf_vfpDef (c) : VF vfpDefBody .vfpDef c := by
  unfold vfpDefBody; vf_simp; vf_auto
theorem vf_varArgsPower (s v t c) (ht : c.symbol = .ok t) (hk : t.kind = .PyPower) :
    WF ΦEx ΨV (fun d => XV X.kwargs c d) (varArgsPower s v t) c (fun _ _ => True) := by
  unfold varArgsPower varArgsResult; vf_simp; vf_auto
theorem vf_varArgsMul (s v t c) (ht : c.symbol = .ok t) (hk : t.kind = .PyMul) :
    WF ΦEx ΨV (fun d => XV X.starargs c d) (varArgsMul s v t) c (fun _ _ => True) := by
  unfold varArgsMul; vf_simp; vf_auto

/-- a helper fails after `p` has been read -/
macro "vf_help" h:term : tactic => `(tactic|
  (refine wf_mono _ (fun _ _ _ => True.intro) (fun d hd => ?_) $h
   obtain ⟨ws, p, q⟩ := hd.elim
   (try simp only [advance_exc_eq] at q)
   vf_close))

theorem vf_varArgsStarLoop (s v c) : VF (varArgsStarLoopBody s v) (.varArgsStarLoop s v) c := by
  unfold varArgsStarLoopBody varArgsResult
  vf_simp
  refine ⟨fun t ht hk => ⟨fun t2 ht2 => ⟨fun hk2 => ?_, fun _ => by vf_auto⟩, by vf_auto⟩, by vf_auto⟩
  vf_help (vf_varArgsPower _ _ _ _ ht2 hk2)

theorem vf_varArgsDivLoop (s v c) : VF (varArgsDivLoopBody s v) (.varArgsDivLoop s v) c := by
  unfold varArgsDivLoopBody varArgsResult
  vf_simp
  refine ⟨fun t ht hk => ⟨fun t2 ht2 => ⟨fun hk2 => ?_, fun _ => ⟨fun hk2 => ?_, fun _ => by vf_auto⟩⟩, by vf_auto⟩, by vf_auto⟩
  · vf_help (vf_varArgsMul _ _ _ _ ht2 hk2)
  · vf_help (vf_varArgsPower _ _ _ _ ht2 hk2)

theorem vf_varArgsMainLoop (s v c) : VF (varArgsMainLoopBody s v) (.varArgsMainLoop s v) c := by
  unfold varArgsMainLoopBody varArgsResult
  vf_simp [xVarargs]
  refine ⟨fun t ht hk => ⟨fun t2 ht2 => ⟨fun hk2 => ?_, fun _ => ⟨fun hk2 => ?_, fun _ => ⟨fun hk2 => ?_, fun _ => by vf_auto⟩⟩⟩, by vf_auto⟩, by vf_auto⟩
  · vf_auto
  · vf_help (vf_varArgsMul _ _ _ _ ht2 hk2)
  · vf_help (vf_varArgsPower _ _ _ _ ht2 hk2)

theorem vf_varArgsList (c) : VF varArgsListBody .varArgsList c := by
  unfold varArgsListBody
  vf_simp [xVarargs]
  refine ⟨fun t ht => ⟨fun hk => ?_, fun _ => ⟨fun hk => ?_, fun _ => by vf_auto⟩⟩, by vf_auto⟩
  · vf_help (vf_varArgsMul _ _ _ _ ht hk)
  · vf_help (vf_varArgsPower _ _ _ _ ht hk)

theorem test_second {x ts y} (h : XDer pRule (n .test) x ts y) :
    ∃ vs z, XDer pRule (only X.separate (n .test ⬝ any)) x (ts ++ vs) z := by
  refine ⟨[Kind.sample .PyColon], y, .only (.seq h .any) ?_⟩
  unfold X.separate
  simp only [List.reverse_append, List.reverse_cons, List.reverse_nil, List.nil_append, List.singleton_append]
  cases ts.reverse <;> rfl

/-- a run that stops after the second colon of a subscript -/
theorem vf_third {c c5 d : PSt} {ts us} (h : Consumed c ts c5) (d' : XDer pRule X.slice c.exc ts c5.exc) (p : Consumed c5 us d)
    (q : Pre (n .test) c5.exc us) : XV (n .subscript) c d :=
  XV.mk (h.trans (p.trans (.refl _))) (.n (.right (.seq (.of d' (.vi q rfl)))))

/-- a run that stops before it -/
theorem vf_secondPart {c c1 d : PSt} {ts us} {t2 : Token} (h : Consumed c ts c1) (d' : XDer pRule (opt (n .test)) c.exc ts c1.exc)
    (h2 : c1.symbol = .ok t2) (hk2 : t2.kind = .PyColon) (p : Consumed c1.advance us d) (q : Pre (n .test) c1.exc us) :
    XV (n .subscript) c d := by
  have q' : Pre (only X.separate (n .test ⬝ any)) c1.exc us := q.map fun _ _ d => test_second d
  exact XV.mk (h.trans (.step h2 (p.trans (.refl _))))
    (.n (.right (.seq (.seq (.of d' (.seq (.k hk2 (.right (.right (.vi q' rfl))))))))))

theorem pre_test {x} : Pre (n .test) x [] := (PreK.nil rfl).out

/-- the rest of a subscript after its first colon -/
theorem vf_afterColon {c c1 : PSt} {ts} {t2 : Token} (h : Consumed c ts c1) (d : XDer pRule (opt (n .test)) c.exc ts c1.exc)
    (h2 : c1.symbol = .ok t2) (hk2 : t2.kind = .PyColon) :
    WF ΦEx ΨV (fun d => XV (n .subscript) c d) (do
      let t3 ← symHere "Expecting symbol in subscript expression!"
      let second ← if t3.kind = .PyRightBracket ∨ t3.kind = .PyColon then pure .none else parse .test
      let t4 ← symHere "Expecting symbol in subscript expression!"
      next
      let t5 ← symHere "Expecting symbol in subscript expression!"
      let third ← if t5.kind = .PyRightBracket ∨ t5.kind = .PyColon then pure .none else parse .test
      pure Tree.none) c1.advance (fun _ _ => True) := by
  vf_simp
  have stop : XV (n .subscript) c c1.advance := vf_secondPart h d h2 hk2 (.refl _) pre_test
  refine ⟨fun t3 h3 => ⟨fun hk3 => ⟨fun t4 h4 => ?_, fun _ _ => stop⟩, fun _ => ⟨fun e us u v => vf_secondPart h d h2 hk2 u v,
    fun x c2 us u v v2 v3 => ⟨fun t4 h4 => ?_, fun _ _ => vf_secondPart h d h2 hk2 u (.of v)⟩⟩⟩, fun _ _ => stop⟩
  · have d' : XDer pRule X.slice c.exc (ts ++ [t2] ++ [t3]) c1.advance.advance.exc := by
      rw [advance_exc_eq, advance_exc_eq, List.append_assoc]
      refine .seq d (.seq (.k hk2) ?_)
      rcases hk3 with hk3 | hk3
      · exact .right (.left (.k hk3))
      · exact .left (.k hk3)
    have h' : Consumed c (ts ++ [t2] ++ [t3]) c1.advance.advance := by
      rw [List.append_assoc]; exact h.trans (.step h2 (.step h3 (.refl _)))
    refine ⟨fun t5 h5 _ e ws p q => vf_third h' d' p ?_, fun _ _ => vf_third h' d' (.refl _) pre_test⟩
    rw [advance_exc_eq, advance_exc_eq]; exact q
  · have d' : XDer pRule X.slice c.exc (ts ++ ([t2] ++ (us ++ [t4]))) c2.advance.exc := by
      rw [advance_exc_eq]
      exact .seq d (.seq (.k hk2) (xs_slice v v2 v3 h4))
    have h' : Consumed c (ts ++ ([t2] ++ (us ++ [t4]))) c2.advance :=
      h.trans (.step h2 (u.trans (.step h4 (.refl _))))
    refine ⟨fun t5 h5 _ e ws p q => vf_third h' d' p ?_, fun _ _ => vf_third h' d' (.refl _) pre_test⟩
    rw [advance_exc_eq]; exact q

theorem vf_subscript (c) : VF subscriptBody .subscript c := by
  unfold subscriptBody
  vf_simp
  refine ⟨fun t ht => ⟨fun hk => ⟨fun t2 ht2 hk2 => ?_, by vf_auto⟩, fun _ => ⟨by vf_auto, fun x c1 ts u v v2 v3 =>
    ⟨fun t2 ht2 hk2 => ?_, by vf_auto⟩⟩⟩, by vf_auto⟩
  · have := vf_afterColon (.refl c) .absent ht2 hk2
    simp only [wf_bind, wf_here, wf_symAt, wf_symHere, wf_sym?, wf_ite, wf_next, wf_mk, wf_parse, wf_pure, wf_ret, implies_true,
      and_true, true_and, ΦEx, ΨV, advance_exc, advance_exc_eq, consumed_exc, xe_imp, xv_imp, and_imp, forall_const] at this
    exact this
  · have := vf_afterColon u (.present v) ht2 hk2
    simp only [wf_bind, wf_here, wf_symAt, wf_symHere, wf_sym?, wf_ite, wf_next, wf_mk, wf_parse, wf_pure, wf_ret, implies_true,
      and_true, true_and, ΦEx, ΨV, advance_exc, advance_exc_eq, consumed_exc, xe_imp, xv_imp, and_imp, forall_const] at this
    exact this

theorem SubItem.pre {x a c} (d : SubItem x a c) : Pre (n .subscriptlist) x a := by
  have : XDer pRule (n .subscript) x a c.exc ∨ (XDer pRule (n .subscript_open) x a c.exc ∧ SymIn subEnds c) := by
    with_unfolding_all exact d
  rcases this with h | ⟨h, _⟩
  · exact .of (.n h.single)
  · exact h.un_open.map fun us y d => ⟨[], y, by rw [List.append_nil]; exact .n d.single⟩

theorem sub_fail {c d t ts} (ht : c.symbol = .ok t) (hk : t.kind = .PyComa) (h : Consumed c.advance ts d) (h' : Pre (n .subscript) c.exc ts) :
    ∃ ts, Consumed c ts d ∧ ∀ x a, SubItem x a c → Pre (n .subscriptlist) x (a ++ ts) := by
  refine ⟨t :: ts, .step ht h, fun x a e => ?_⟩
  have : PreK [n .subscriptlist] x (a ++ ([t] ++ (ts ++ []))) := .n (.seq (.of (e.use ht hk) (.more (.seq (.k hk (.vi h' rfl))))))
  simpa using this.out

theorem sub_round {c c1 d t ts us} (ht : c.symbol = .ok t) (hk : t.kind = .PyComa) (h : Consumed c.advance ts c1)
    (h' : SubItem c.exc ts c1) (p : Consumed c1 us d) (q : ∀ x a, SubItem x a c1 → Pre (n .subscriptlist) x (a ++ us)) :
    ∃ ts, Consumed c ts d ∧ ∀ x a, SubItem x a c → Pre (n .subscriptlist) x (a ++ ts) := by
  refine ⟨t :: (ts ++ us), .step ht (h.trans p), fun x a e => ?_⟩
  have := (q _ _ h').after (r' := n .subscriptlist) (x := x) (p := a ++ [t]) (fun us y hy => by
    cases hy with
    | n hy => simpa using XDer.n (p := .subscriptlist) (XDer.consList (e.use ht hk) hk hy))
  simpa using this

theorem vf_subscriptListLoop (s ns ss c) : VF (subscriptListLoopBody s ns ss) (.subscriptListLoop s ns ss) c := by
  unfold subscriptListLoopBody
  vf_simp
  refine ⟨fun t ht hk => ⟨fun d ts h h' => sub_fail ht hk h h', fun x c1 => ⟨fun ts u v d ⟨us, p, q⟩ => sub_round ht hk u (.one v) p q,
    fun ts u v w d ⟨us, p, q⟩ => sub_round ht hk u (.opened v w) p q⟩⟩, fun _ _ => ?_⟩
  exact ⟨[], .refl _, fun x a d => by rw [List.append_nil]; exact d.pre⟩

theorem vf_subscriptList (c) : VF subscriptListBody .subscriptList c := by
  unfold subscriptListBody
  vf_simp
  exact ⟨by vf_auto, fun x c1 => ⟨fun ts u v d ⟨us, p, q⟩ => XV.mk (u.trans p) (q _ _ (.one v)).k1,
    fun ts u v w d ⟨us, p, q⟩ => XV.mk (u.trans p) (q _ _ (.opened v w)).k1⟩⟩

end
end Verif
