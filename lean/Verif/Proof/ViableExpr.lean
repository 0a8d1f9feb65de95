import Verif.Proof.Viable

/-!
# Failing runs: expressions
-/

namespace Verif
open Prog XR
set_option linter.unusedVariables false
set_option linter.unusedSectionVars false
set_option linter.unusedSimpArgs false

section
variable [Uni]
attribute [local irreducible] XG XPeek XE XL XT StrOk NoCont SymIn WF PSt.advance XV XVD XVL Pre

theorem vf_left {op : Kind → Option Tag} {operand self msg r x K}
    (h1 : ∀ k tag, op k = some tag → ∀ t : Token, t.kind = k → ∀ y, XDer pRule r y [t] y)
    (h2 : ∀ c t c', ΦEx operand c t c' → XE (n x) K c c')
    (h2' : ∀ c d, ΨV operand c d → XV (n x) c d)
    (h3' : ∀ s l c d, ΨV (self s l) c d → XV (star (r ⬝ n x)) c d)
    (s left c) : WF ΦEx ΨV (fun d => XV (star (r ⬝ n x)) c d) (leftLoopBody op operand self msg s left) c (fun _ _ => True) := by
  unfold leftLoopBody
  vf_simp
  refine ⟨fun t ht => ?_, fun _ _ => by vf_close⟩
  split
  · rename_i tag htag
    vf_simp
    have ho := h1 _ _ htag t rfl c.exc
    refine ⟨fun d hd => ?_, fun x c1 hx d hd => ?_⟩
    · obtain ⟨ts, a, b⟩ := (h2' _ _ hd).elim
      rw [advance_exc_eq] at b
      exact XV.mk (.step ht (a.trans (.refl _))) (.more (.seq (.of (u := [t]) ho (.vi b rfl))))
    · obtain ⟨ts, a, b, b2, b3⟩ := (h2 _ _ _ hx).elim
      obtain ⟨us, a', b'⟩ := (h3' _ _ _ _ hd).elim
      rw [advance_exc_eq] at b
      exact XV.mk (.step ht (a.trans (a'.trans (.refl _)))) (.more (.seq (.of (u := [t]) ho (.of b (.vi b' rfl)))))
  · vf_simp

macro "vf_loop" d:ident : tactic => `(tactic|
  (show WF ΦEx ΨV _ (leftLoopBody ..) _ _
   refine vf_left ?_ (fun c t c' h => by simp only [ΦEx] at h; exact h) (fun c d h => by simp only [ΨV] at h; exact h)
     (fun s l c d h => by simp only [ΨV] at h; exact h) _ _ _
   intro k tag h; xop_case h, $d))

theorem vf_termLoop (s l c) : VF (termLoopBody s l) (.termLoop s l) c := by vf_loop termOp
theorem vf_arithLoop (s l c) : VF (arithLoopBody s l) (.arithLoop s l) c := by vf_loop arithOp
theorem vf_shiftLoop (s l c) : VF (shiftLoopBody s l) (.shiftLoop s l) c := by vf_loop shiftOp
theorem vf_andExprLoop (s l c) : VF (andExprLoopBody s l) (.andExprLoop s l) c := by vf_loop andExprOp
theorem vf_xorExprLoop (s l c) : VF (xorExprLoopBody s l) (.xorExprLoop s l) c := by vf_loop xorExprOp
theorem vf_exprLoop (s l c) : VF (exprLoopBody s l) (.exprLoop s l) c := by vf_loop exprOp
theorem vf_andTestLoop (s l c) : VF (andTestLoopBody s l) (.andTestLoop s l) c := by vf_loop andTestOp
theorem vf_orTestLoop (s l c) : VF (orTestLoopBody s l) (.orTestLoop s l) c := by vf_loop orTestOp

theorem vf_comparisonLoop (s l c) : VF (comparisonLoopBody s l) (.comparisonLoop s l) c := by
  unfold comparisonLoopBody
  vf_simp
  refine ⟨fun t ht => ?_, fun _ _ => by vf_close⟩
  split
  · rename_i tag htag
    vf_simp
    have h1 : ∀ y, XDer pRule X.comp_op y [t] y := by
      intro y
      unfold compOp at htag; split at htag <;> simp at htag <;> exact XDK.out (by xder)
    refine ⟨fun d ts a b => ?_, fun x c1 ts a b b2 b3 d us a' b' => ?_⟩
    · exact XV.mk (.step ht (a.trans (.refl _))) (.more (.seq (.of (u := [t]) (h1 _) (.vi b rfl))))
    · exact XV.mk (.step ht (a.trans (a'.trans (.refl _)))) (.more (.seq (.of (u := [t]) (h1 _) (.of b (.vi b' rfl)))))
  · vf_simp; vf_auto

theorem vf_atomStrLoop (s l c) : VF (atomStrLoopBody s l) (.atomStrLoop s l) c := by
  unfold atomStrLoopBody; vf_simp; vf_auto
theorem vf_atom (c) : VF atomBody .atom c := by
  unfold atomBody; vf_simp; vf_auto

end
end Verif
