import Verif.Proof.ViableStmt2

/-!
# Failing runs: `try`, `with`, definitions, entry points
-/

namespace Verif
open Prog XR
set_option linter.unusedVariables false
set_option linter.unusedSectionVars false
set_option linter.unusedSimpArgs false

section
variable [Uni]

theorem Pre.exceptStar {x t u} (ht : t.kind = .PyExcept) (hu : u.kind = .PyMul) : Pre (n .except_clause) x [t, u] := by
  obtain ⟨vs, y, d⟩ := prod_of (r := (mark .plain ∥ k .PyMul ⬝ mark .starred) ⬝ opt (n .test ⬝ opt (k .PyAs ⬝ X.name))) rfl x
  exact ⟨[t], [u], rfl, ⟨vs, y, .n (.seq (.k ht) d)⟩, .inr (.inl ⟨t, u, rfl, rfl, .inr ⟨ht, hu⟩⟩)⟩

omit [Uni] in
theorem notParen_head {t : Token} {l us} (h : X.notParen (t :: l) = true) (e : ∃ vs, us ++ vs = t :: l) : X.notParen us = true := by
  obtain ⟨vs, e⟩ := e
  cases us with
  | nil => rfl
  | cons u us => cases e; exact h

/-- items of a `with` statement that does not start with a parenthesis -/
theorem Pre.withItems {x ts} (h : Pre (X.list (n .with_item) ⬝ X.colon ⬝ n .suite) x ts) (hp : X.notParen ts = true) :
    Pre ((k .PyLeftParen ⬝ X.listTr (n .with_item) ⬝ k .PyRightParen ∥ only X.notParen (X.list (n .with_item))) ⬝ X.colon ⬝ n .suite) x ts := by
  obtain ⟨a, b, rfl, ⟨vs, y, d⟩, ht⟩ := h
  cases a with
  | nil =>
    obtain ⟨vs, y, d⟩ := prod_of (r := (k .PyLeftParen ⬝ X.listTr (n .with_item) ⬝ k .PyRightParen ∥
      only X.notParen (X.list (n .with_item))) ⬝ X.colon ⬝ n .suite) rfl x
    exact ⟨[], b, rfl, ⟨vs, y, d⟩, ht⟩
  | cons t a =>
    refine ⟨t :: a, b, rfl, ⟨vs, y, ?_⟩, ht⟩
    generalize he : t :: a ++ vs = ws at d
    cases d with
    | @seq _ _ _ us _ us' _ d1 d2 =>
      refine .seq (.right (.only d1 ?_)) d2
      refine notParen_head (t := t) (l := a ++ vs) ?_ ⟨us', by rw [← he]; rfl⟩
      exact hp

attribute [local irreducible] XG XPeek XE XL XT StrOk NoCont SymIn WF PSt.advance LoopX ExprEnd ExprItem SubEnd SubItem Halts XV XVD XVL Pre

theorem vf_exceptStar (s c) : WF ΦEx ΨV (fun d => ∃ ts, Consumed c ts d ∧ (ts = [] ∨ ∃ u, ts = [u] ∧ u.kind = .PyMul))
    (exceptStar s) c (fun _ c' => ∃ ts, Consumed c ts c' ∧ XDer pRule (mark .plain ∥ k .PyMul ⬝ mark .starred) c.exc ts c'.exc) := by
  unfold exceptStar
  vf_simp
  refine ⟨fun t ht => ⟨fun hk => ?_, fun _ => ?_⟩, fun _ _ => ⟨[], .refl _, .inl rfl⟩⟩
  · cases he : c.exc <;> vf_simp [he]
    · exact ⟨[t], .step ht (Consumed.done rfl rfl), .right (.seq (ts := [t]) (.k hk) (.mark rfl))⟩
    · exact ⟨[t], .step ht (Consumed.done rfl rfl), .right (.seq (ts := [t]) (.k hk) (.mark rfl))⟩
    · exact ⟨[t], .step ht (.refl _), .inr ⟨t, rfl, hk⟩⟩
  · cases he : c.exc <;> vf_simp [he]
    · exact ⟨[], Consumed.done rfl rfl, .left (.mark rfl)⟩
    · exact ⟨[], .refl _, .inl rfl⟩
    · exact ⟨[], Consumed.done rfl rfl, .left (.mark rfl)⟩

theorem vf_exceptClause (c) : VF exceptClauseBody .exceptClause c := by
  unfold exceptClauseBody
  vf_simp
  refine ⟨fun t ht => ⟨fun hk => ?_, by vf_auto⟩, by vf_auto⟩
  refine wf_mono _ (fun mul c1 ⟨ts, u, v⟩ => ?_) (fun d ⟨ts, h, h'⟩ => ?_) (vf_exceptStar _ _)
  · rw [advance_exc_eq] at v
    vf_auto
  · rcases h' with rfl | ⟨u, rfl, hu⟩
    · exact XV.mk (.step ht h) (.n (.seq (.k hk (.nil rfl))))
    · exact XV.mk (.step ht h) (Pre.exceptStar hk hu).k1

theorem vf_tryStmt (c) : VF tryStmtBody .tryStmt c := by
  unfold tryStmtBody
  vf_simp
  refine ⟨fun t ht => ⟨fun hk => ?_, by vf_auto⟩, by vf_auto⟩
  have stop : XV (n .try_stmt) c { lex := c.advance.lex, symbol := c.advance.symbol, exc := .exceptNone } :=
    XV.mk (.step ht (Consumed.done rfl rfl)) (.n (.seq (.k hk (.nil rfl))))
  refine ⟨fun t2 ht2 => ⟨fun hk2 => ?_, fun _ => stop⟩, fun _ _ => stop⟩
  have hm : Mark.act .newTry c.exc = some .exceptNone := rfl
  refine ⟨fun d ts h h' => ?_, fun x c1 ts u v => ⟨fun t3 ht3 => ⟨fun _ d us h h' => ?_, fun _ => ⟨fun d us h h' => ?_, fun y c2 us w z d vs h h' => ?_⟩⟩, fun _ _ => ?_⟩⟩
  · exact XV.mk (.step ht (.step ht2 (h.trans (.refl _)))) (.n (.seq (.k hk (.seq (.mark hm (.seq (.k hk2 (.seq (.vi h' rfl)))))))))
  · exact XV.mk (.step ht (.step ht2 (u.trans (h.trans (.refl _)))))
      (.n (.seq (.k hk (.seq (.mark hm (.seq (.k hk2 (.seq (.of v (.right (.vi h' rfl))))))))))) 
  · exact XV.mk (.step ht (.step ht2 (u.trans (h.trans (.refl _)))))
      (.n (.seq (.k hk (.seq (.mark hm (.seq (.k hk2 (.seq (.of v (.left (.seq (.seq (.vi h' rfl))))))))))))) 
  · exact XV.mk (.step ht (.step ht2 (u.trans (w.trans (h.trans (.refl _))))))
      (.n (.seq (.k hk (.seq (.mark hm (.seq (.k hk2 (.seq (.of v (.left (.seq (.seq (.of z (.vi2 h' rfl)))))))))))))) 
  · exact XV.mk (.step ht (.step ht2 (u.trans (.refl _)))) (.n (.seq (.k hk (.seq (.mark hm (.seq (.k hk2 (.seq (.of v (.nil rfl))))))))))

/-! ### `with` -/

theorem vf_withParenLoop (s t lp ns ss c) : VF (withParenLoopBody s t lp ns ss) (.withParenLoop s t lp ns ss) c := by
  unfold withParenLoopBody withParenEnd withRest
  vf_simp
  refine ⟨fun t5 ht5 => ⟨fun hk => ⟨fun t6 ht6 => ⟨fun _ => by vf_auto, fun _ => ⟨by vf_auto, fun x c1 ts u v d us w z => ?_⟩⟩, by vf_auto⟩,
    fun _ => by vf_auto⟩, by vf_auto⟩
  refine XV.mk (.step ht5 (u.trans w)) (Pre.k1 ?_)
  have := z.after (x := c.exc) (p := t5 :: ts) (r' := (star (X.comma ⬝ n .with_item) ⬝ opt X.comma) ⬝ k .PyRightParen ⬝ X.colon ⬝ n .suite)
    (fun us y z => by
      cases z with
      | seq z1 z2 =>
        have := XDer.seq (XDer.round (.seq (ts := [t5]) (.k hk) v) z1) z2
        rwa [List.append_assoc] at this)
  exact this

theorem vf_withLoop (s t ns ss c) : VF (withLoopBody s t ns ss) (.withLoop s t ns ss) c := by
  unfold withLoopBody withRest
  vf_simp
  vf_auto

theorem notParen_of {c d : PSt} {ts t} (h : Consumed c ts d) (ht : c.symbol = .ok t) (hk : ¬ t.kind = .PyLeftParen) : X.notParen ts = true := by
  cases ts with
  | nil => rfl
  | cons a l =>
    have := h.head
    rw [ht] at this; cases this
    simpa [X.notParen] using hk

theorem vf_withStmt (c) : VF withStmtBody .withStmt c := by
  unfold withStmtBody
  vf_simp
  refine ⟨fun t ht => ⟨fun hk => ⟨fun t3 ht3 => ⟨fun hk3 => ⟨by vf_auto, fun x c1 ts u v d us w z => ?_⟩, fun hk3 => ⟨fun d ts h h' => ?_, fun x c1 ts u v d us w z => ?_⟩⟩,
    by vf_auto⟩, by vf_auto⟩, by vf_auto⟩
  · refine XV.mk (.step ht (.step ht3 (u.trans w))) (.n (.seq (.k hk (Pre.k1 ?_))))
    refine z.after (p := t3 :: ts) fun us y z => ?_
    cases z with
    | @seq _ _ _ as _ bs _ z1 z2 =>
      cases z2 with
      | @seq _ _ _ ds _ es _ z2 z3 =>
        have h : XDer pRule (X.listTr (n .with_item)) c.exc (ts ++ as) _ := .seq v z1
        have := XDer.seq (.left (.seq (.k hk3) (.seq h z2)) : XDer pRule (k .PyLeftParen ⬝ X.listTr (n .with_item) ⬝ k .PyRightParen ∥
          only X.notParen (X.list (n .with_item))) c.exc _ _) z3
        simpa using this
  · have hp := notParen_of h ht3 hk3
    have h2 : Pre (X.list (n .with_item) ⬝ X.colon ⬝ n .suite) c.exc (ts ++ []) := PreK.out (.seq (.seq (.vi h' rfl)))
    rw [List.append_nil] at h2
    exact XV.mk (.step ht h) (.n (.seq (.k hk (Pre.withItems h2 hp).k1)))
  · have hp := notParen_of (u.trans w) ht3 hk3
    have h2 : Pre (X.list (n .with_item) ⬝ X.colon ⬝ n .suite) c.exc (ts ++ (us ++ [])) := PreK.out (.seq (.seq (.of v (.vi2 z rfl))))
    rw [List.append_nil] at h2
    exact XV.mk (.step ht (u.trans w)) (.n (.seq (.k hk (Pre.withItems h2 hp).k1)))

/-! ### Function types -/

theorem vf_typeListPower (s v t c) (ht : c.symbol = .ok t) (hk : t.kind = .PyPower) :
    WF ΦEx ΨV (fun d => XV (k .PyPower ⬝ n .test) c d) (typeListPower s v t) c (fun _ _ => True) := by
  unfold typeListPower typeListResult; vf_simp; vf_auto

theorem vf_typeListMul (s v t c) (ht : c.symbol = .ok t) (hk : t.kind = .PyMul) :
    WF ΦEx ΨV (fun d => XV (k .PyMul ⬝ n .test ⬝ star (X.comma ⬝ n .test) ⬝ opt (X.comma ⬝ X.typeKw)) c d) (typeListMul s v t) c (fun _ _ => True) := by
  unfold typeListMul; vf_simp; vf_auto

theorem vf_typeListStarLoop (s v c) : VF (typeListStarLoopBody s v) (.typeListStarLoop s v) c := by
  unfold typeListStarLoopBody typeListResult
  vf_simp
  refine ⟨fun t ht hk => ⟨fun t2 ht2 => ⟨fun hk2 => ?_, fun _ => by vf_auto⟩, by vf_auto⟩, by vf_auto⟩
  vf_help (vf_typeListPower _ _ _ _ ht2 hk2)

theorem vf_typeListMainLoop (s v c) : VF (typeListMainLoopBody s v) (.typeListMainLoop s v) c := by
  unfold typeListMainLoopBody typeListResult
  vf_simp [X.typeStar, X.typeKw]
  refine ⟨fun t ht hk => ⟨fun t2 ht2 => ⟨fun hk2 => ?_, fun _ => ⟨fun hk2 => ?_, fun _ => by vf_auto⟩⟩, by vf_auto⟩, by vf_auto⟩
  · vf_help (vf_typeListMul _ _ _ _ ht2 hk2)
  · vf_help (vf_typeListPower _ _ _ _ ht2 hk2)

theorem vf_typeList (c) : VF typeListBody .typeList c := by
  unfold typeListBody
  vf_simp
  refine ⟨fun t ht => ⟨fun hk => ?_, fun _ => ⟨fun hk => ?_, fun _ => by vf_auto⟩⟩, by vf_auto⟩
  · vf_help (vf_typeListMul _ _ _ _ ht hk)
  · vf_help (vf_typeListPower _ _ _ _ ht hk)

end

end Verif
