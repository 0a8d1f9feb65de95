import Verif.Proof.ExactTac

/-!
# Sentences of the exact grammar are accepted: expressions
-/

namespace Verif
open XR Prog
set_option linter.unusedVariables false
set_option linter.unusedSimpArgs false
set_option linter.unusedSectionVars false

section
variable [Uni]
attribute [local irreducible] Prog.bind Prog.here Prog.symAt Prog.symHere Prog.sym? Prog.next Prog.parse Prog.mk
  Prog.failHere On Eats XFits PSt.after hdT HdIs PSt.advance Suc StrEnd
variable {h : Nat}

/-! ### Binary operators -/

theorem cx_leftLoop {op : Kind → Option Tag} {operand self msg r} {p : PN} (q : PN)
    (hp : p.fn = operand)
    (hb : ∀ s l, body (self s l) = leftLoopBody op operand self msg s l)
    (h1 : ∀ x a z, XN h r x a z → ∃ t, a = [t] ∧ z = x ∧ op t.kind ≠ none)
    (h2 : ∀ K, q.follow K = true → op K = none)
    (h3 : ∀ K, q.follow K = true → p.follow K = true)
    (h4 : ∀ K, (star (r ⬝ .n p)).first K = true → p.follow K = true ∧ K ≠ .AtomString)
    (ih : ∀ p, Claim h p) {x ts y} (d : XN h (star (r ⬝ .n p)) x ts y) :
    ∀ {s l c u}, c.exc = x → XFits q ts u → On c ts u → Suc (self s l) c ts y := by
  subst hp
  refine XN.star_ind (P := fun x ts y => ∀ {s l c u}, c.exc = x → XFits q ts u → On c ts u → Suc (self s l) c ts y) ?_ ?_ d
  · intro x s l c u hx hf ho
    refine Suc.of ?_
    rw [hb]
    unfold leftLoopBody
    eat1
    rw [h2 _ (XFits.fol hf)]
    exact acc_pure hx
  · intro x a z b y d1 d2 hi s l c u hx hf ho
    simp only [xn_seq] at d1
    obtain ⟨_, _, a', d3, d4, rfl⟩ := d1
    obtain ⟨t, rfl, rfl, ht⟩ := h1 _ _ _ d3
    lists
    refine Suc.of ?_
    rw [hb]
    unfold leftLoopBody
    eat1
    split
    · eat1
      refine eats_call (by assumption) (Claim.use (ih p) d4 (by assumption)
        (XFits.rest (XFits.suff hf (by suff)) d2 h3 h4)) fun _ _ _ _ => ?_
      eat1
      exact eats_tail (by assumption) (hi (by assumption) (XFits.suff hf (by suff)))
    · rename_i hn; exact absurd hn ht

/-- One operator token. -/
macro "op_tok" : tactic => `(tactic| (
  intro x a z d
  simp only [X.term_op, xn_alt, xn_k] at d
  casesm* _ ∨ _, ∃ _, _, _ ∧ _ <;> subst_vars <;> exact ⟨_, rfl, rfl, by kdec⟩))

/-- The claims of the nonterminals of binary operators. -/
macro "left_claim" q:term "," b:ident : tactic => `(tactic| (
  start d hf
  obtain ⟨a, z, b, d1, d2, e⟩ := d
  subst e
  go $b
  eat
  exact eats_tail (by assumption) (cx_leftLoop $q rfl (fun _ _ => rfl) (by op_tok) (by decide +kernel) (by decide +kernel)
    (by decide +kernel) (by assumption) d2 (by exc_is) (XFits.suff hf (by suff)))))

/-- The claims of the nonterminals without loops. -/
macro "claim" b:ident : tactic => `(tactic| (start d hf; splits <;> go $b <;> eat))

theorem cx_power (ih : ∀ p, Claim h p) : Claim (h + 1) .power := by claim powerBody
theorem cx_factor (ih : ∀ p, Claim h p) : Claim (h + 1) .factor := by claim factorBody
theorem cx_term (ih : ∀ p, Claim h p) : Claim (h + 1) .term := by left_claim .term, termBody
theorem cx_arith (ih : ∀ p, Claim h p) : Claim (h + 1) .arith_expr := by left_claim .arith_expr, arithBody
theorem cx_shift (ih : ∀ p, Claim h p) : Claim (h + 1) .shift_expr := by left_claim .shift_expr, shiftBody
theorem cx_and (ih : ∀ p, Claim h p) : Claim (h + 1) .and_expr := by left_claim .and_expr, andExprBody
theorem cx_xor (ih : ∀ p, Claim h p) : Claim (h + 1) .xor_expr := by left_claim .xor_expr, xorExprBody
theorem cx_expr (ih : ∀ p, Claim h p) : Claim (h + 1) .expr := by left_claim .expr, exprBody
theorem cx_andTest (ih : ∀ p, Claim h p) : Claim (h + 1) .and_test := by left_claim .and_test, andTestBody
theorem cx_orTest (ih : ∀ p, Claim h p) : Claim (h + 1) .or_test := by left_claim .or_test, orTestBody
theorem cx_starExpr (ih : ∀ p, Claim h p) : Claim (h + 1) .star_expr := by claim starExprBody
theorem cx_notTest (ih : ∀ p, Claim h p) : Claim (h + 1) .not_test := by claim notTestBody
theorem cx_namedExpr (ih : ∀ p, Claim h p) : Claim (h + 1) .namedexpr_test := by claim namedExpressionBody
theorem cx_test (ih : ∀ p, Claim h p) : Claim (h + 1) .test := by claim testBody
theorem cx_testNocond (ih : ∀ p, Claim h p) : Claim (h + 1) .test_nocond := by claim noCondTestBody
theorem cx_lambdef (ih : ∀ p, Claim h p) : Claim (h + 1) .lambdef := by
  start d hf; splits <;> refine Suc.of (show Eats (lambdaDefBody true) _ _ _ from ?_) <;> unfold lambdaDefBody <;> eat
theorem cx_lambdefNocond (ih : ∀ p, Claim h p) : Claim (h + 1) .lambdef_nocond := by
  start d hf; splits <;> refine Suc.of (show Eats (lambdaDefBody false) _ _ _ from ?_) <;> unfold lambdaDefBody <;> eat
theorem cx_vararg (ih : ∀ p, Claim h p) : Claim (h + 1) .vararg := by claim varArgsAssignmentsBody
theorem cx_vfpdef (ih : ∀ p, Claim h p) : Claim (h + 1) .vfpdef := by claim vfpDefBody
theorem cx_compIter (ih : ∀ p, Claim h p) : Claim (h + 1) .comp_iter := by claim compIterBody
theorem cx_syncCompFor (ih : ∀ p, Claim h p) : Claim (h + 1) .sync_comp_for := by claim syncCompForBody
theorem cx_compFor (ih : ∀ p, Claim h p) : Claim (h + 1) .comp_for := by claim compForBody
theorem cx_compIf (ih : ∀ p, Claim h p) : Claim (h + 1) .comp_if := by claim compIfBody
theorem cx_yield (ih : ∀ p, Claim h p) : Claim (h + 1) .yield_expr := by claim yieldExprBody
theorem cx_yieldTr (ih : ∀ p, Claim h p) : Claim (h + 1) .yield_expr_tr := by claim yieldExprBody
theorem cx_trailer (ih : ∀ p, Claim h p) : Claim (h + 1) .trailer := by claim trailerBody

end
end Verif
