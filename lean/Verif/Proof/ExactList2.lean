import Verif.Proof.ExactLoop

/-!
# Sentences of the exact grammar are accepted: lists without brackets, displays, parameters
-/

namespace Verif
open XR Prog
set_option linter.unusedVariables false
set_option linter.unusedSimpArgs false
set_option linter.unusedSectionVars false

section
variable [Uni]
attribute [local irreducible] Prog.bind Prog.here Prog.symAt Prog.symHere Prog.sym? Prog.next Prog.parse Prog.mk
  Prog.failHere On Eats XFits PSt.after hdT HdIs PSt.advance Suc StrEnd
variable {h : Nat}

theorem eats_listResult {c : PSt} {x tag s n p} (hx : c.exc = x) : Eats (listResult tag s n p) c [] x := by
  unfold listResult
  split <;> eat
theorem eats_starResult {c : PSt} {x s n p} (hx : c.exc = x) : Eats (testlistStarExprResult s n p) c [] x := by
  unfold testlistStarExprResult
  split <;> eat

/-! ### `exprlist` -/

theorem cx_exprlistLoop (ih : ∀ p, Claim h p) {x ts y} (d : XN h (star (X.comma ⬝ X.elem)) x ts y) :
    ∀ s n p, LoopOk .exprlist (.exprlistLoop s n p) x ts y := by
  refine XN.star_ind (P := fun x ts y => ∀ s n p, LoopOk .exprlist (.exprlistLoop s n p) x ts y) ?_ ?_ d
  · intro x s n p
    loop_start hf
    go exprlistLoopBody
    eat
    exact eats_listResult (by exc_is)
  · intro x a z b y d1 d2 hi s n p
    loop_start hf
    xinv d1
    splits <;> go exprlistLoopBody <;> eat <;> eat_loop (hi _ _ _)

theorem cx_exprlist (ih : ∀ p, Claim h p) : Claim (h + 1) .exprlist := by
  start d hf
  obtain ⟨a, z, b, d1, d2, rfl⟩ := d
  have hl := cx_exprlistLoop ih d2
  splits <;> go exprlistBody <;> unfold starOrNamed <;> eat <;> eat_loop (hl _ _ _)

theorem exprlist_stop {x s n p} : LoopOk .exprlist_in (.exprlistLoop s n p) x [] x := by
  loop_start hf
  go exprlistLoopBody
  eat
  exact eats_listResult (by exc_is)
theorem exprlist_comma {x s n p t} (ht : t.kind = .PyComa) : LoopOk .exprlist_in (.exprlistLoop s n p) x [t] x := by
  loop_start hf
  go exprlistLoopBody
  eat
  eat_loop exprlist_stop

/-- Inside the list, at a comma. -/
theorem cx_exprlistInLoop (ih : ∀ p, Claim h p) {x ts z} (d : XN h (star (X.elem ⬝ X.comma)) x ts z) :
    ∀ b y t, XN h (.n .star_expr ∥ X.elem ⬝ X.comma) z b y → t.kind = .PyComa → ∀ s n p,
      LoopOk .exprlist_in (.exprlistLoop s n p) x (t :: (ts ++ b)) y := by
  refine XN.star_ind (P := fun x ts z => ∀ b y t, XN h (.n .star_expr ∥ X.elem ⬝ X.comma) z b y → t.kind = .PyComa →
    ∀ s n p, LoopOk .exprlist_in (.exprlistLoop s n p) x (t :: (ts ++ b)) y) ?_ ?_ d
  · intro x b y t d1 ht s n p
    loop_start hf
    xinv d1
    obtain d1 | ⟨a1, z1, _, d1, ⟨t1, rfl, ht1, rfl⟩, rfl⟩ := d1
    · splits <;> go exprlistLoopBody <;> eat <;> eat_loop exprlist_stop
    · splits <;> go exprlistLoopBody <;> eat <;> eat_loop (exprlist_comma ht1)
  · intro x a z b y d1 d2 hi b' y' t d3 ht s n p
    loop_start hf
    xinv d1
    obtain ⟨a', z', _, d1, ⟨t', rfl, ht', rfl⟩, rfl⟩ := d1
    have hl := hi _ _ _ d3 ht'
    splits <;> go exprlistLoopBody <;> eat <;> eat_loop (hl _ _ _)

theorem cx_exprlistIn (ih : ∀ p, Claim h p) : Claim (h + 1) .exprlist_in := by
  intro c x ts y u d hx ho hf
  have hfk := XFits.fol hf
  replace d := XN.inv d
  simp only [pRule] at d
  rw [xn_seq] at d
  obtain ⟨a, z, b, d1, d2, rfl⟩ := d
  have d3 := xn_star.1 d1
  xinv d3
  obtain ⟨rfl, rfl⟩ | ⟨_, _, v, ⟨w, _, _, d4, ⟨t, rfl, ht, rfl⟩, rfl⟩, d5, rfl⟩ := d3
  · xinv d2
    obtain d2 | ⟨a1, z1, _, d2, ⟨t1, rfl, ht1, rfl⟩, rfl⟩ := d2
    · splits <;> go exprlistBody <;> unfold starOrNamed <;> eat <;> eat_loop exprlist_stop
    · splits <;> go exprlistBody <;> unfold starOrNamed <;> eat <;> eat_loop (exprlist_comma ht1)
  · have hl := cx_exprlistInLoop ih d5 _ _ _ d2 ht
    clear d1 d2 d5
    splits <;> go exprlistBody <;> unfold starOrNamed <;> eat <;> eat_loop (hl _ _ _)

/-! ### `testlist` -/

theorem cx_testlistLoop (ih : ∀ p, Claim h p) {x ts y} (d : XN h (star (X.comma ⬝ .n .test)) x ts y) :
    ∀ s n p, LoopOk .testlist (.testlistLoop s n p) x ts y := by
  refine XN.star_ind (P := fun x ts y => ∀ s n p, LoopOk .testlist (.testlistLoop s n p) x ts y) ?_ ?_ d
  · intro x s n p
    loop_start hf
    go testlistLoopBody
    eat
    exact eats_listResult (by exc_is)
  · intro x a z b y d1 d2 hi s n p
    loop_start hf
    xinv d1
    splits <;> go testlistLoopBody <;> eat <;> eat_loop (hi _ _ _)

theorem cx_testlist (ih : ∀ p, Claim h p) : Claim (h + 1) .testlist := by
  start d hf
  obtain ⟨a, z, b, d1, d2, rfl⟩ := d
  go testlistBody
  eat
  eat_loop (cx_testlistLoop ih d2 _ _ _)

theorem testlist_stop {x s n p} : LoopOk .testlist_tr (.testlistLoop s n p) x [] x := by
  loop_start hf
  go testlistLoopBody
  eat
  exact eats_listResult (by exc_is)
theorem testlist_comma {x s n p t} (ht : t.kind = .PyComa) : LoopOk .testlist_tr (.testlistLoop s n p) x [t] x := by
  loop_start hf
  go testlistLoopBody
  eat
  eat_loop testlist_stop

theorem cx_testlistTrLoop (ih : ∀ p, Claim h p) {x ts z} (d : XN h (star (X.comma ⬝ .n .test)) x ts z) :
    ∀ b y, XN h (opt X.comma) z b y → ∀ s n p, LoopOk .testlist_tr (.testlistLoop s n p) x (ts ++ b) y := by
  refine XN.star_ind (P := fun x ts z => ∀ b y, XN h (opt X.comma) z b y → ∀ s n p,
    LoopOk .testlist_tr (.testlistLoop s n p) x (ts ++ b) y) ?_ ?_ d
  · intro x b y d s n p
    xinv d
    obtain ⟨rfl, rfl⟩ | ⟨t, rfl, ht, rfl⟩ := d
    · exact testlist_stop
    · exact testlist_comma ht
  · intro x a z b y d1 d2 hi b' y' d3 s n p
    loop_start hf
    have d4 := XN.seq d2 d3
    have hl := hi _ _ d3
    clear d2 d3
    xinv d1
    splits <;> go testlistLoopBody <;> eat <;> eat_loop (hl _ _ _)

theorem cx_testlistTr (ih : ∀ p, Claim h p) : Claim (h + 1) .testlist_tr := by
  intro c x ts y u d hx ho hf
  have hfk := XFits.fol hf
  replace d := XN.inv d
  simp only [pRule, X.listTr] at d
  rw [xn_seq] at d
  obtain ⟨a, z, b, d1, d2, rfl⟩ := d
  have d3 := d2
  rw [xn_seq] at d3
  obtain ⟨a', z', b', d3, d4, rfl⟩ := d3
  have hl := cx_testlistTrLoop ih d3 _ _ d4
  clear d3 d4
  go testlistBody
  eat
  eat_loop (hl _ _ _)

/-! ### `testlist_star_expr` -/

theorem cx_starLoop (ih : ∀ p, Claim h p) {x ts y} (d : XN h (star (X.comma ⬝ X.starOrTest)) x ts y) :
    ∀ s n p, LoopOk .star_list (.testlistStarExprLoop s n p) x ts y := by
  refine XN.star_ind (P := fun x ts y => ∀ s n p, LoopOk .star_list (.testlistStarExprLoop s n p) x ts y) ?_ ?_ d
  · intro x s n p
    loop_start hf
    go testlistStarExprLoopBody
    eat
    exact eats_starResult (by exc_is)
  · intro x a z b y d1 d2 hi s n p
    loop_start hf
    xinv d1
    splits <;> go testlistStarExprLoopBody <;> eat <;> eat_loop (hi _ _ _)

theorem cx_starList (ih : ∀ p, Claim h p) : Claim (h + 1) .star_list := by
  start d hf
  obtain ⟨a, z, b, d1, d2, rfl⟩ := d
  have hl := cx_starLoop ih d2
  splits <;> go testlistStarExprBody <;> eat <;> eat_loop (hl _ _ _)

theorem starList_stop {x s n p} : LoopOk .star_list_tr (.testlistStarExprLoop s n p) x [] x := by
  loop_start hf
  go testlistStarExprLoopBody
  eat
  exact eats_starResult (by exc_is)
theorem starList_comma {x s n p t} (ht : t.kind = .PyComa) :
    LoopOk .star_list_tr (.testlistStarExprLoop s n p) x [t] x := by
  loop_start hf
  go testlistStarExprLoopBody
  eat
  eat_loop starList_stop

theorem cx_starTrLoop (ih : ∀ p, Claim h p) {x ts z} (d : XN h (star (X.comma ⬝ X.starOrTest)) x ts z) :
    ∀ b y, XN h (opt X.comma) z b y → ∀ s n p, LoopOk .star_list_tr (.testlistStarExprLoop s n p) x (ts ++ b) y := by
  refine XN.star_ind (P := fun x ts z => ∀ b y, XN h (opt X.comma) z b y → ∀ s n p,
    LoopOk .star_list_tr (.testlistStarExprLoop s n p) x (ts ++ b) y) ?_ ?_ d
  · intro x b y d s n p
    xinv d
    obtain ⟨rfl, rfl⟩ | ⟨t, rfl, ht, rfl⟩ := d
    · exact starList_stop
    · exact starList_comma ht
  · intro x a z b y d1 d2 hi b' y' d3 s n p
    loop_start hf
    have d4 := XN.seq d2 d3
    have hl := hi _ _ d3
    clear d2 d3
    xinv d1
    splits <;> go testlistStarExprLoopBody <;> eat <;> eat_loop (hl _ _ _)

theorem cx_starListTr (ih : ∀ p, Claim h p) : Claim (h + 1) .star_list_tr := by
  intro c x ts y u d hx ho hf
  have hfk := XFits.fol hf
  replace d := XN.inv d
  simp only [pRule, X.listTr] at d
  rw [xn_seq] at d
  obtain ⟨a, z, b, d1, d2, rfl⟩ := d
  have d3 := d2
  rw [xn_seq] at d3
  obtain ⟨a', z', b', d3, d4, rfl⟩ := d3
  have hl := cx_starTrLoop ih d3 _ _ d4
  clear d3 d4
  xinv d1
  splits <;> go testlistStarExprBody <;> eat <;> eat_loop (hl _ _ _)

end
end Verif
