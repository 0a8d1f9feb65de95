import Verif.Proof.ExactBlock

/-!
# Sentences of the exact grammar are accepted: compound statements
-/

namespace Verif
open XR Prog
set_option linter.unusedVariables false
set_option linter.unusedSimpArgs false
set_option linter.unusedSectionVars false

theorem notMatch_hd {ts : List Token} {t : Token} (h : HdIs ts t) (hm : X.notMatch ts = true) : ¬ t.isMatchName = true := by
  cases ts with
  | nil => cases h
  | cons b a =>
    cases h
    unfold X.notMatch at hm
    unfold Token.isMatchName
    cases t <;> simp_all
theorem HdIs.cons {t : Token} {ts} : HdIs (t :: ts) t := rfl
theorem notParen_hd {ts : List Token} {t : Token} (h : HdIs ts t) (hm : X.notParen ts = true) : t.kind ≠ .PyLeftParen := by
  cases ts with
  | nil => cases h
  | cons b a =>
    cases h
    simpa [X.notParen] using hm

section
variable [Uni]
attribute [local irreducible] Prog.bind Prog.here Prog.symAt Prog.symHere Prog.sym? Prog.next Prog.parse Prog.mk
  Prog.failHere On Eats XFits PSt.after hdT HdIs PSt.advance Suc StrEnd OnW
variable {h : Nat}

theorem cx_stmt (ih : ∀ p, Claim h p) : Claim (h + 1) .stmt := by
  start d hf
  obtain ⟨d, hm⟩ | d := d
  · hds
    have hm := notMatch_hd (by assumption) hm
    go stmtBody
    eat
    refine eats_neg hm ?_
    eat
  · hds
    go stmtBody
    eat

theorem cx_compoundStmt (ih : ∀ p, Claim h p) : Claim (h + 1) .compound_stmt := by
  start d hf
  splits <;> go compoundStmtBody <;> eat

theorem cx_asyncStmt (ih : ∀ p, Claim h p) : Claim (h + 1) .async_stmt := by
  start d hf
  splits <;> go asyncStmtBody <;> eat

theorem cx_elif (ih : ∀ p, Claim h p) : Claim (h + 1) .elif_part := by
  start d hf
  splits <;> go elifStmtBody <;> eat

theorem cx_else (ih : ∀ p, Claim h p) : Claim (h + 1) .else_part := by
  start d hf
  splits <;> go elseStmtBody <;> eat

theorem cx_finally (ih : ∀ p, Claim h p) : Claim (h + 1) .finally_part := by
  start d hf
  splits <;> go finallyStmtBody <;> eat

theorem cx_while (ih : ∀ p, Claim h p) : Claim (h + 1) .while_stmt := by
  start d hf
  splits <;> go whileStmtBody <;> eat

theorem cx_for (ih : ∀ p, Claim h p) : Claim (h + 1) .for_stmt := by
  start d hf
  splits <;> go forStmtBody <;> eat

theorem cx_withItem (ih : ∀ p, Claim h p) : Claim (h + 1) .with_item := by
  start d hf
  splits <;> go withItemBody <;> eat

theorem cx_exceptPart (ih : ∀ p, Claim h p) : Claim (h + 1) .except_part := by
  start d hf
  splits <;> go exceptStmtBody <;> eat

theorem cx_parameters (ih : ∀ p, Claim h p) : Claim (h + 1) .parameters := by
  start d hf
  splits <;> go parametersBody <;> eat

theorem cx_funcdef (ih : ∀ p, Claim h p) : Claim (h + 1) .funcdef := by
  start d hf
  splits <;> go funcDefBody <;> eat

theorem cx_classdef (ih : ∀ p, Claim h p) : Claim (h + 1) .classdef := by
  start d hf
  splits <;> go classDefBody <;> eat

theorem cx_ifLoop (ih : ∀ p, Claim h p) {x a z} (d : XN h (star (.n .elif_part)) x a z) :
    ∀ b y, XN h (opt (.n .else_part)) z b y → ∀ s t l t2 r n, LoopOk .if_stmt (.ifLoop s t l t2 r n) x (a ++ b) y := by
  refine XN.star_ind (P := fun x a z => ∀ b y, XN h (opt (.n .else_part)) z b y → ∀ s t l t2 r n,
    LoopOk .if_stmt (.ifLoop s t l t2 r n) x (a ++ b) y) ?_ ?_ d
  · intro x b y d s t l t2 r n
    loop_start hf
    xinv d
    splits <;> go ifLoopBody <;> eat
  · intro x u z v y d1 d2 hi b y' d3 s t l t2 r n
    have d4 := XN.seq d2 d3
    have hl := hi _ _ d3
    clear d2 d3
    loop_start hf
    hds
    lists
    go ifLoopBody
    eat
    eat_loop (hl _ _ _ _ _ _)

theorem cx_if (ih : ∀ p, Claim h p) : Claim (h + 1) .if_stmt := by
  intro c x ts y u d hx ho hf
  have hfk := XFits.fol hf
  replace d := XN.inv d
  simp only [pRule] at d
  obtain ⟨t1, ts1, rfl, k1, e1⟩ := xn_kseq d
  obtain ⟨a1, z1, b1, d1, e2, rfl⟩ := xn_seq.1 e1
  obtain ⟨t2, ts2, rfl, k2, e3⟩ := xn_kseq e2
  obtain ⟨a2, z2, b2, d2, e4, rfl⟩ := xn_seq.1 e3
  obtain ⟨a3, z3, b3, d3, d4, rfl⟩ := xn_seq.1 e4
  have hl := cx_ifLoop ih d3 _ _ d4
  hds
  go ifStmtBody
  eat
  eat_loop (hl _ _ _ _ _ _)

/-! ### `try` -/

theorem cx_tryLoop (ih : ∀ p, Claim h p) {x a z} (d : XN h (star (.n .except_part)) x a z) :
    ∀ b y, XN h (opt (.n .else_part) ⬝ opt (.n .finally_part)) z b y → ∀ s t t2 l n,
      LoopOk .try_stmt (.tryLoop s t t2 l n) x (a ++ b) y := by
  refine XN.star_ind (P := fun x a z => ∀ b y, XN h (opt (.n .else_part) ⬝ opt (.n .finally_part)) z b y → ∀ s t t2 l n,
      LoopOk .try_stmt (.tryLoop s t t2 l n) x (a ++ b) y) ?_ ?_ d
  · intro x b y d s t t2 l n
    loop_start hf
    xinv d
    splits <;> go tryLoopBody <;> eat
  · intro x u z v y d1 d2 hi b y' d3 s t t2 l n
    have d4 := XN.seq d2 d3
    have hl := hi _ _ d3
    clear d2 d3
    loop_start hf
    hds
    lists
    go tryLoopBody
    eat
    eat_loop (hl _ _ _ _ _)

theorem cx_try (ih : ∀ p, Claim h p) : Claim (h + 1) .try_stmt := by
  intro c x ts y u d hx ho hf
  have hfk := XFits.fol hf
  replace d := XN.inv d
  simp only [pRule] at d
  obtain ⟨t1, ts1, rfl, k1, e1⟩ := xn_kseq d
  obtain ⟨a1, z1, b1, d1, e2, rfl⟩ := xn_seq.1 e1
  rw [xn_mark] at d1
  obtain ⟨rfl, hm⟩ := d1
  cases hm
  obtain ⟨t2, ts2, rfl, k2, e3⟩ := xn_kseq e2
  obtain ⟨a2, z2, b2, d2, e4, rfl⟩ := xn_seq.1 e3
  rw [xn_alt] at e4
  obtain e5 | e5 := e4
  · obtain ⟨a3, z3, b3, d3, d4, rfl⟩ := xn_seq.1 e5
    obtain ⟨a5, z5, b5, d5, d6, rfl⟩ := xn_seq.1 d3
    have d7 := XN.seq d6 d4
    have d8 := XN.seq d5 d7
    have hl := cx_tryLoop ih d6 _ _ d4
    clear d6 d4 d3 e5 e3 e2 e1 d
    hds
    lists
    go tryStmtBody
    eat
    refine eats_setExc (by assumption) fun _ _ _ => ?_
    eat
    eat_loop (hl _ _ _ _ _)
  · clear e3 e2 e1 d
    hds
    lists
    go tryStmtBody
    eat
    refine eats_setExc (by assumption) fun _ _ _ => ?_
    eat

end

section
variable [Uni]
theorem eats_plain {β : Type} {f : Tree → Prog β} {c ts x y t s u z} (ho : On c ts u) (hd : hdT ts u = t) (ht : t.kind ≠ .PyMul)
    (hx : c.exc = x) (hm : Mark.act .plain x = some z) (h : ∀ d r, d.exc = z → On d ts u → Eats (f r) d ts y) :
    Eats (exceptStar s >>= f) c ts y := by
  obtain ⟨b, h⟩ := h { c with exc := z } .none rfl (on_withExc.2 ho)
  rw [after_withExc] at h
  refine ⟨b, evp_bind ?_ h⟩
  unfold exceptStar
  refine evp_bind (evp_symAt (on_hd ho)) ?_
  rw [hd, if_neg ht]
  subst hx
  cases hc : c.exc <;> rw [hc] at hm <;> cases hm
  · exact ⟨0, by simp only [Prog.exec, hc]; rfl⟩
  · exact ⟨0, by simp only [Prog.exec, hc]; rw [← hc]; rfl⟩

theorem eats_starred {β : Type} {f : Tree → Prog β} {c t ts x y s u z} (ho : On c (t :: ts) u) (ht : t.kind = .PyMul)
    (hx : c.exc = x) (hm : Mark.act .starred x = some z) (h : ∀ d r, d.exc = z → On d ts u → Eats (f r) d ts y) :
    Eats (exceptStar s >>= f) c (t :: ts) y := by
  obtain ⟨b, h⟩ := h { c.advance with exc := z } (.tok t) rfl (on_withExc.2 ho.2)
  rw [after_withExc] at h
  refine ⟨b, evp_bind ?_ h⟩
  unfold exceptStar
  refine evp_bind (evp_symAt ho.1) ?_
  rw [if_pos ht]
  refine evp_bind evp_next ?_
  rw [← advance_exc_eq] at hx
  subst hx
  cases hc : c.advance.exc <;> rw [hc] at hm <;> cases hm
  · exact ⟨0, by simp only [Prog.exec, hc]; rfl⟩
  · exact ⟨0, by simp only [Prog.exec, hc]; rw [← hc]; rfl⟩

end
section
variable [Uni]
attribute [local irreducible] Prog.bind Prog.here Prog.symAt Prog.symHere Prog.sym? Prog.next Prog.parse Prog.mk
  Prog.failHere On Eats XFits PSt.after hdT HdIs PSt.advance Suc StrEnd OnW exceptStar
variable {h : Nat}

theorem cx_exceptClause (ih : ∀ p, Claim h p) : Claim (h + 1) .except_clause := by
  intro c x ts y u d hx ho hf
  have hfk := XFits.fol hf
  replace d := XN.inv d
  simp only [pRule] at d
  obtain ⟨t1, ts1, rfl, k1, e1⟩ := xn_kseq d
  obtain ⟨a1, z1, b1, d1, e2, rfl⟩ := xn_seq.1 e1
  xinv d1
  xinv e2
  obtain ⟨rfl, hm⟩ | ⟨t, _, us, ⟨t2, rfl, k2, rfl⟩, ⟨rfl, hm⟩, rfl⟩ := d1
  · splits <;> go exceptClauseBody <;> eat <;>
      refine eats_plain (by assumption) (by hd_is) (by kdec) (by exc_is) hm fun _ _ _ _ => ?_
    all_goals eat
  · splits <;> go exceptClauseBody <;> eat <;>
      refine eats_starred (by assumption) (by kdec) (by exc_is) hm fun _ _ _ _ => ?_
    all_goals eat

/-! ### Blocks -/

theorem cx_suiteLoop (ih : ∀ p, Claim h p) {x a z} (d : XN h (star (.n .stmt)) x a z) :
    ∀ b y, XN h (.k .Dedent) z b y → ∀ s t t2 n, LoopOk .suite (.suiteLoop s t t2 n) x (a ++ b) y := by
  refine XN.star_ind (P := fun x a z => ∀ b y, XN h (.k .Dedent) z b y → ∀ s t t2 n,
    LoopOk .suite (.suiteLoop s t t2 n) x (a ++ b) y) ?_ ?_ d
  · intro x b y d s t t2 n
    loop_start hf
    xinv d
    splits <;> go suiteLoopBody <;> eat
  · intro x u z v y d1 d2 hi b y' d3 s t t2 n
    have d4 := XN.seq d2 d3
    have hl := hi _ _ d3
    clear d2 d3
    intro c w hx hf ho
    have hfk := XFits.fol hf
    hds
    obtain ⟨t3, h3, k3⟩ := d4.hdR rfl
    have hq : XFits .stmt u (hdT (v ++ b) w) := by
      rw [hdT_self h3]
      exact XFits.mk' (by kdec) (d1.strEnd rfl)
    lists
    go suiteLoopBody
    eat
    clear hq
    eat_loop (hl _ _ _ _)

theorem cx_suite (ih : ∀ p, Claim h p) : Claim (h + 1) .suite := by
  intro c x ts y u d hx ho hf
  have hfk := XFits.fol hf
  replace d := XN.inv d
  simp only [pRule] at d
  rw [xn_alt] at d
  obtain d | d := d
  · hds
    go suiteBody
    eat
  obtain ⟨t1, ts1, rfl, k1, e1⟩ := xn_kseq d
  obtain ⟨t2, ts2, rfl, k2, e2⟩ := xn_kseq e1
  obtain ⟨a3, z3, b3, d3, d4, rfl⟩ := xn_seq.1 e2
  obtain ⟨a5, z5, b5, d5, d6, rfl⟩ := xn_seq.1 d3
  have d7 := XN.seq d6 d4
  have hl := cx_suiteLoop ih d6 _ _ d4
  clear d6 d4 d3 e2 e1 d
  obtain ⟨t3, h3, k3⟩ := d7.hdR rfl
  have hq : XFits .stmt a5 (hdT (b5 ++ b3) u) := by
    rw [hdT_self h3]
    exact XFits.mk' (by kdec) (d5.strEnd rfl)
  hds
  lists
  go suiteBody
  eat
  clear hq
  eat_loop (hl _ _ _ _)

theorem cx_funcBodyLoop (ih : ∀ p, Claim h p) {x a z} (d : XN h (star (.n .stmt)) x a z) :
    ∀ b y, XN h (.k .Dedent) z b y → ∀ s t tc tn t4 n, LoopOk .suite (.funcBodyLoop s t tc tn t4 n) x (a ++ b) y := by
  refine XN.star_ind (P := fun x a z => ∀ b y, XN h (.k .Dedent) z b y → ∀ s t tc tn t4 n,
    LoopOk .suite (.funcBodyLoop s t tc tn t4 n) x (a ++ b) y) ?_ ?_ d
  · intro x b y d s t tc tn t4 n
    loop_start hf
    xinv d
    splits <;> go funcBodyLoopBody <;> eat
  · intro x u z v y d1 d2 hi b y' d3 s t tc tn t4 n
    have d4 := XN.seq d2 d3
    have hl := hi _ _ d3
    clear d2 d3
    intro c w hx hf ho
    have hfk := XFits.fol hf
    hds
    obtain ⟨t3, h3, k3⟩ := d4.hdR rfl
    have hq : XFits .stmt u (hdT (v ++ b) w) := by
      rw [hdT_self h3]
      exact XFits.mk' (by kdec) (d1.strEnd rfl)
    lists
    go funcBodyLoopBody
    eat
    clear hq
    eat_loop (hl _ _ _ _ _ _)

theorem cx_funcBody (ih : ∀ p, Claim h p) : Claim (h + 1) .func_body_suite := by
  intro c x ts y u d hx ho hf
  have hfk := XFits.fol hf
  replace d := XN.inv d
  simp only [pRule] at d
  rw [xn_alt] at d
  obtain d | d := d
  · hds
    go funcBodySuiteBody
    eat
  obtain ⟨t1, ts1, rfl, k1, e1⟩ := xn_kseq d
  obtain ⟨a2, z2, b2, d2, e2, rfl⟩ := xn_seq.1 e1
  obtain ⟨t2, ts2, rfl, k2, e3⟩ := xn_kseq e2
  obtain ⟨a3, z3, b3, d3, d4, rfl⟩ := xn_seq.1 e3
  obtain ⟨a5, z5, b5, d5, d6, rfl⟩ := xn_seq.1 d3
  have d7 := XN.seq d6 d4
  have hl := cx_funcBodyLoop ih d6 _ _ d4
  clear d6 d4 d3 e3 e2 e1 d
  obtain ⟨t3, h3, k3⟩ := d7.hdR rfl
  have hq : XFits .stmt a5 (hdT (b5 ++ b3) u) := by
    rw [hdT_self h3]
    exact XFits.mk' (by kdec) (d5.strEnd rfl)
  xinv d2
  splits <;> go funcBodySuiteBody <;> eat <;> clear hq <;> eat_loop (hl _ _ _ _ _ _)

/-! ### `with` -/

theorem cx_withParenLoop (ih : ∀ p, Claim h p) {x a z} (d : XN h (star (X.comma ⬝ .n .with_item)) x a z) :
    ∀ b y, XN h (opt X.comma ⬝ .k .PyRightParen ⬝ X.colon ⬝ .n .suite) z b y → ∀ s t lp n p,
      LoopOk .with_stmt (.withParenLoop s t lp n p) x (a ++ b) y := by
  refine XN.star_ind (P := fun x a z => ∀ b y, XN h (opt X.comma ⬝ .k .PyRightParen ⬝ X.colon ⬝ .n .suite) z b y →
    ∀ s t lp n p, LoopOk .with_stmt (.withParenLoop s t lp n p) x (a ++ b) y) ?_ ?_ d
  · intro x b y d s t lp n p
    loop_start hf
    xinv d
    splits <;> go withParenLoopBody <;> eat
  · intro x u z v y d1 d2 hi b y' d3 s t lp n p
    have d4 := XN.seq d2 d3
    have hl := hi _ _ d3
    clear d2 d3
    obtain ⟨t3, h3, k3⟩ := d4.hdR rfl
    intro c w hx hf ho
    have hfk := XFits.fol hf
    obtain ⟨t1, a, rfl, k1, d1⟩ := xn_kseq d1
    have hq : XFits .with_item a (hdT (v ++ b) w) := by
      rw [hdT_self h3]
      exact XFits.mk' (by kdec) (StrEnd.of (by kdec))
    hds
    lists
    go withParenLoopBody
    eat
    clear hq
    eat_loop (hl _ _ _ _ _)

theorem cx_withLoop (ih : ∀ p, Claim h p) {x a z} (d : XN h (star (X.comma ⬝ .n .with_item)) x a z) :
    ∀ b y, XN h (X.colon ⬝ .n .suite) z b y → ∀ s t n p,
      LoopOk .with_stmt (.withLoop s t n p) x (a ++ b) y := by
  refine XN.star_ind (P := fun x a z => ∀ b y, XN h (X.colon ⬝ .n .suite) z b y →
    ∀ s t n p, LoopOk .with_stmt (.withLoop s t n p) x (a ++ b) y) ?_ ?_ d
  · intro x b y d s t n p
    loop_start hf
    xinv d
    splits <;> go withLoopBody <;> eat
  · intro x u z v y d1 d2 hi b y' d3 s t n p
    have d4 := XN.seq d2 d3
    have hl := hi _ _ d3
    clear d2 d3
    obtain ⟨t3, h3, k3⟩ := d4.hdR rfl
    intro c w hx hf ho
    have hfk := XFits.fol hf
    obtain ⟨t1, a, rfl, k1, d1⟩ := xn_kseq d1
    have hq : XFits .with_item a (hdT (v ++ b) w) := by
      rw [hdT_self h3]
      exact XFits.mk' (by kdec) (StrEnd.of (by kdec))
    hds
    lists
    go withLoopBody
    eat
    clear hq
    eat_loop (hl _ _ _ _)

theorem cx_with (ih : ∀ p, Claim h p) : Claim (h + 1) .with_stmt := by
  intro c x ts y u d hx ho hf
  have hfk := XFits.fol hf
  replace d := XN.inv d
  simp only [pRule] at d
  obtain ⟨t1, ts1, rfl, k1, d⟩ := xn_kseq d
  obtain ⟨a1, z1, b1, d1, dr, rfl⟩ := xn_seq.1 d
  rw [xn_alt] at d1
  obtain d1 | d1 := d1
  · obtain ⟨t2, ts2, rfl, k2, d2⟩ := xn_kseq d1
    obtain ⟨a3, z3, b3, d3, d4, rfl⟩ := xn_seq.1 d2
    obtain ⟨a5, z5, b5, d5, d6, rfl⟩ := xn_seq.1 d3
    obtain ⟨a7, z7, b7, d7, d8, rfl⟩ := xn_seq.1 d6
    have d9 := XN.seq d8 (XN.seq d4 dr)
    have d10 := XN.seq d7 d9
    have hl := cx_withParenLoop ih d7 _ _ d9
    clear d9 d8 d4 dr d7 d6 d3 d d2
    obtain ⟨t3, h3, k3⟩ := d10.hdR rfl
    have hq : XFits .with_item a5 (hdT (a7 ++ (b7 ++ (b3 ++ b1))) u) := by
      rw [hdT_self h3]
      exact XFits.mk' (by kdec) (StrEnd.of (by kdec))
    hds
    lists
    go withStmtBody
    eat
    clear hq
    eat_loop (hl _ _ _ _ _)
  · obtain ⟨d1, hp⟩ := xn_only.1 d1
    obtain ⟨a5, z5, b5, d5, d6, rfl⟩ := xn_seq.1 d1
    have d10 := XN.seq d6 dr
    have hl := cx_withLoop ih d6 _ _ dr
    clear d6 d1 d dr
    obtain ⟨t4, h4, k4⟩ := d10.hdR rfl
    have hq : XFits .with_item a5 (hdT (b5 ++ b1) u) := by
      rw [hdT_self h4]
      exact XFits.mk' (by kdec) (StrEnd.of (by kdec))
    obtain ⟨t3, us3, rfl, k3⟩ := d5.head
    have hh : t3.kind ≠ .PyLeftParen := notParen_hd HdIs.cons hp
    lists
    go withStmtBody
    eat
    clear hq
    eat_loop (hl _ _ _ _)

end
end Verif
