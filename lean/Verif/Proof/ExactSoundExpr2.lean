import Verif.Proof.ExactSoundExpr

/-!
# What the parse functions consume is in the exact grammar: expressions, continued
-/

namespace Verif
open Prog XR
set_option linter.unusedVariables false

section
variable [Uni]
attribute [local irreducible] XG XPeek XE XL XT StrOk NoCont SymIn WP PSt.advance

theorem xs_trailerFin (s a r lst c) (h : NoCont contAtomExpr c) :
    WP ΦEx (trailerLoopBody.fin s a r lst) c (fun t c' => XE (star (n .trailer)) contAtomExpr c c') := by
  unfold trailerLoopBody.fin
  split <;> xe_simp <;> xe_close
theorem xs_trailerLoop (s a r lst c) : WP ΦEx (trailerLoopBody s a r lst) c (ΦEx (.trailerLoop s a r lst) c) := by
  unfold trailerLoopBody
  xe_simp
  refine ⟨fun t ht => ⟨fun hk x c1 ts u v v2 v3 y c2 us w z z2 z3 => ?_, fun hk => ?_⟩, fun x hx => ?_⟩
  · xe_close
  · refine wp_mono _ (fun _ _ h => by simpa only [ΦEx] using h) (xs_trailerFin s a r lst c (.of ht ?_))
    revert hk; generalize t.kind = q; revert q; decide
  · exact wp_mono _ (fun _ _ h => by simpa only [ΦEx] using h) (xs_trailerFin s a r lst c (.err hx))

theorem xs_atomExpr (c) : WP ΦEx atomExprBody c (ΦEx .atomExpr c) := by
  unfold atomExprBody; xe_simp; xe_auto
theorem xs_power (c) : WP ΦEx powerBody c (ΦEx .power c) := by
  unfold powerBody; xe_simp; xe_auto
theorem xs_factor (c) : WP ΦEx factorBody c (ΦEx .factor c) := by
  unfold factorBody; xe_simp; xe_auto
theorem xs_term (c) : WP ΦEx termBody c (ΦEx .term c) := by
  unfold termBody; xe_simp; xe_auto
theorem xs_arith (c) : WP ΦEx arithBody c (ΦEx .arith c) := by
  unfold arithBody; xe_simp; xe_auto
theorem xs_shift (c) : WP ΦEx shiftBody c (ΦEx .shift c) := by
  unfold shiftBody; xe_simp; xe_auto
theorem xs_andExpr (c) : WP ΦEx andExprBody c (ΦEx .andExpr c) := by
  unfold andExprBody; xe_simp; xe_auto
theorem xs_xorExpr (c) : WP ΦEx xorExprBody c (ΦEx .xorExpr c) := by
  unfold xorExprBody; xe_simp; xe_auto
theorem xs_expr (c) : WP ΦEx exprBody c (ΦEx .expr c) := by
  unfold exprBody; xe_simp; xe_auto
theorem xs_starExpr (c) : WP ΦEx starExprBody c (ΦEx .starExpr c) := by
  unfold starExprBody; xe_simp; xe_auto
theorem xs_comparison (c) : WP ΦEx comparisonBody c (ΦEx .comparison c) := by
  unfold comparisonBody; xe_simp; xe_auto
theorem xs_notTest (c) : WP ΦEx notTestBody c (ΦEx .notTest c) := by
  unfold notTestBody; xe_simp; xe_auto
theorem xs_andTest (c) : WP ΦEx andTestBody c (ΦEx .andTest c) := by
  unfold andTestBody; xe_simp; xe_auto
theorem xs_orTest (c) : WP ΦEx orTestBody c (ΦEx .orTest c) := by
  unfold orTestBody; xe_simp; xe_auto
theorem xs_namedExpression (c) : WP ΦEx namedExpressionBody c (ΦEx .namedExpression c) := by
  unfold namedExpressionBody; xe_simp; xe_auto

theorem xs_lambdaDef (b c) : WP ΦEx (lambdaDefBody b) c (ΦEx (.lambdaDef b) c) := by
  unfold lambdaDefBody
  cases b <;> xe_simp [if_true, if_false, Bool.false_eq_true, not_false_eq_true, not_true_eq_false, reduceIte]
  all_goals
    intro t ht t2 ht2
    refine ⟨fun hk t3 ht3 hk3 => ?_, fun hk x c1 ts u w t3 ht3 hk3 => ?_⟩
    · intro y c2 us u' w' w2 w3
      exact ⟨t, _, .step ht (.step ht3 u'), .seq (ts := []) .absent (.seq (ts := [t3]) (.k hk3) w'), by strs, w3⟩
    · intro y c2 us u' w' w2 w3
      exact ⟨t, _, .step ht (u.trans (.step ht3 u')), .seq (.present w) (.seq (ts := [t3]) (.k hk3) w'),
        .after (.cons hk3 (by decide) w2), w3⟩

theorem xs_noCondTest (c) : WP ΦEx noCondTestBody c (ΦEx .noCondTest c) := by
  unfold noCondTestBody
  xe_simp
  intro t ht
  refine ⟨fun hk x c1 ⟨u, ts, h, h', _, _⟩ => ?_, fun _ x c1 ts u w w2 w3 => ?_⟩
  · cases h.head.symm.trans ht
    exact XG.mk h (XDK.of1 (.n (.right (.n (.seq (ts := [t]) (.k hk) h')))))
  · xe_close

theorem xs_test (c) : WP ΦEx testBody c (ΦEx .test c) := by
  unfold testBody
  xe_simp
  intro t ht
  refine ⟨fun hk x c1 ⟨u, ts, h, h', h2, h3⟩ => ?_, fun _ => ?_⟩
  · cases h.head.symm.trans ht
    exact XE.mk h (XDK.of1 (.n (.right (.n (.seq (ts := [t]) (.k hk) h'))))) (.cons hk (by decide) h2) h3
  · xe_auto

end

end Verif
