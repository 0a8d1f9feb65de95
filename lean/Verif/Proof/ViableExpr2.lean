import Verif.Proof.Viable

/-!
# Failing runs: expressions, continued
-/

namespace Verif
open Prog XR
set_option linter.unusedVariables false
set_option linter.unusedSectionVars false
set_option linter.unusedSimpArgs false

section
variable [Uni]
attribute [local irreducible] XG XPeek XE XL XT StrOk NoCont SymIn WF PSt.advance XV XVD XVL Pre

theorem vf_trailerFin (s a r lst c E) : WF ΦEx ΨV E (trailerLoopBody.fin s a r lst) c (fun _ _ => True) := by
  unfold trailerLoopBody.fin
  split <;> vf_simp
theorem vf_trailerLoop (s a r lst c) : VF (trailerLoopBody s a r lst) (.trailerLoop s a r lst) c := by
  unfold trailerLoopBody
  vf_simp [vf_trailerFin]
  vf_auto
theorem vf_atomExpr (c) : VF atomExprBody .atomExpr c := by
  unfold atomExprBody; vf_simp; vf_auto
theorem vf_power (c) : VF powerBody .power c := by
  unfold powerBody; vf_simp; vf_auto
theorem vf_factor (c) : VF factorBody .factor c := by
  unfold factorBody; vf_simp; vf_auto
theorem vf_term (c) : VF termBody .term c := by
  unfold termBody; vf_simp; vf_auto
theorem vf_arith (c) : VF arithBody .arith c := by
  unfold arithBody; vf_simp; vf_auto
theorem vf_shift (c) : VF shiftBody .shift c := by
  unfold shiftBody; vf_simp; vf_auto
theorem vf_andExpr (c) : VF andExprBody .andExpr c := by
  unfold andExprBody; vf_simp; vf_auto
theorem vf_xorExpr (c) : VF xorExprBody .xorExpr c := by
  unfold xorExprBody; vf_simp; vf_auto
theorem vf_expr (c) : VF exprBody .expr c := by
  unfold exprBody; vf_simp; vf_auto
theorem vf_starExpr (c) : VF starExprBody .starExpr c := by
  unfold starExprBody; vf_simp; vf_auto
theorem vf_comparison (c) : VF comparisonBody .comparison c := by
  unfold comparisonBody; vf_simp; vf_auto
theorem vf_notTest (c) : VF notTestBody .notTest c := by
  unfold notTestBody; vf_simp; vf_auto
theorem vf_andTest (c) : VF andTestBody .andTest c := by
  unfold andTestBody; vf_simp; vf_auto
theorem vf_orTest (c) : VF orTestBody .orTest c := by
  unfold orTestBody; vf_simp; vf_auto
theorem vf_namedExpression (c) : VF namedExpressionBody .namedExpression c := by
  unfold namedExpressionBody; vf_simp; vf_auto

theorem lam_mk {r c d t ts} (h : Consumed c (t :: ts) d) (h' : PreK [r] c.exc ts) :
    ∃ ts, Consumed c ts d ∧ (ts = [] ∨ ∃ u ts', ts = u :: ts' ∧ Pre r c.exc ts') :=
  ⟨_, h, .inr ⟨t, ts, rfl, h'.out⟩⟩

theorem vf_lambdaDef (b c) : VF (lambdaDefBody b) (.lambdaDef b) c := by
  unfold lambdaDefBody
  cases b <;> vf_simp [if_true, if_false, Bool.false_eq_true, not_false_eq_true, not_true_eq_false, reduceIte]
  all_goals
    wp_paths
    all_goals first
      | exact ⟨[], .refl _, .inl rfl⟩
      | (apply lam_mk
         · apply Consumed.step (by assumption)
           consume
         · pend)

theorem vf_noCondTest (c) : VF noCondTestBody .noCondTest c := by
  unfold noCondTestBody
  vf_simp
  refine ⟨fun t ht => ⟨fun hk d ⟨ts, h, h'⟩ => ?_, fun _ d ts h h' => by vf_close⟩, fun x hx => by vf_close⟩
  rcases h' with rfl | ⟨u, ts', rfl, h'⟩
  · exact XV.mk h (.nil rfl)
  · cases h.head.symm.trans ht
    exact XV.mk h (.n (.right (.n (.seq (.k hk h'.k1)))))

theorem vf_test (c) : VF testBody .test c := by
  unfold testBody
  vf_simp
  refine ⟨fun t ht => ⟨fun hk d ⟨ts, h, h'⟩ => ?_, fun _ => by vf_auto⟩, fun x hx => by vf_close⟩
  rcases h' with rfl | ⟨u, ts', rfl, h'⟩
  · exact XV.mk h (.nil rfl)
  · cases h.head.symm.trans ht
    exact XV.mk h (.n (.right (.n (.seq (.k hk h'.k1)))))

end

end Verif
