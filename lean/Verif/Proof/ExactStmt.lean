import Verif.Proof.ExactLoop

/-!
# Sentences of the exact grammar are accepted: simple statements
-/

namespace Verif
open XR Prog
set_option linter.unusedVariables false
set_option linter.unusedSimpArgs false
set_option linter.unusedSectionVars false

section
variable [Uni]
attribute [local irreducible] Prog.bind Prog.here Prog.symAt Prog.symHere Prog.sym? Prog.next Prog.parse Prog.mk
  Prog.failHere On Eats XFits PSt.after hdT HdIs PSt.advance Suc StrEnd
variable {h : Nat}

theorem cx_smallStmt (ih : ∀ p, Claim h p) : Claim (h + 1) .small_stmt := by claim smallStmtBody
theorem cx_delStmt (ih : ∀ p, Claim h p) : Claim (h + 1) .del_stmt := by claim delStmtBody
theorem cx_passStmt (ih : ∀ p, Claim h p) : Claim (h + 1) .pass_stmt := by claim passStmtBody
theorem cx_flowStmt (ih : ∀ p, Claim h p) : Claim (h + 1) .flow_stmt := by claim flowStmtBody
theorem cx_breakStmt (ih : ∀ p, Claim h p) : Claim (h + 1) .break_stmt := by claim breakStmtBody
theorem cx_continueStmt (ih : ∀ p, Claim h p) : Claim (h + 1) .continue_stmt := by claim continueStmtBody
theorem cx_returnStmt (ih : ∀ p, Claim h p) : Claim (h + 1) .return_stmt := by claim returnStmtBody
theorem cx_yieldStmt (ih : ∀ p, Claim h p) : Claim (h + 1) .yield_stmt := by claim yieldStmtBody
theorem cx_raiseStmt (ih : ∀ p, Claim h p) : Claim (h + 1) .raise_stmt := by claim raiseStmtBody
theorem cx_importStmt (ih : ∀ p, Claim h p) : Claim (h + 1) .import_stmt := by claim importStmtBody
theorem cx_importAsName (ih : ∀ p, Claim h p) : Claim (h + 1) .import_as_name := by claim importAsNameBody
theorem cx_assertStmt (ih : ∀ p, Claim h p) : Claim (h + 1) .assert_stmt := by claim assertStmtBody

/-! ### Names -/

theorem cx_importAsNamesLoop (ih : ∀ p, Claim h p) {x ts y} (d : XN h (star (X.comma ⬝ .n .import_as_name)) x ts y) :
    ∀ s n p, LoopOk .import_as_names (.importAsNamesLoop s n p) x ts y := by
  refine XN.star_ind (P := fun x ts y => ∀ s n p, LoopOk .import_as_names (.importAsNamesLoop s n p) x ts y) ?_ ?_ d
  · intro x s n p
    loop_start hf
    go importAsNamesLoopBody
    eat
  · intro x a z b y d1 d2 hi s n p
    loop_start hf
    xinv d1
    splits <;> go importAsNamesLoopBody <;> eat <;> eat_loop (hi _ _ _)

theorem cx_importAsNames (ih : ∀ p, Claim h p) : Claim (h + 1) .import_as_names := by
  start d hf
  obtain ⟨a, z, b, d1, d2, rfl⟩ := d
  go importAsNamesBody
  eat
  eat_loop (cx_importAsNamesLoop ih d2 _ _ _)

theorem cx_dottedNameLoop (ih : ∀ p, Claim h p) {x ts y} (d : XN h (star (.k .PyDot ⬝ X.name)) x ts y) :
    ∀ s n p, LoopOk .dotted_name (.dottedNameLoop s n p) x ts y := by
  refine XN.star_ind (P := fun x ts y => ∀ s n p, LoopOk .dotted_name (.dottedNameLoop s n p) x ts y) ?_ ?_ d
  · intro x s n p
    loop_start hf
    go dottedNameLoopBody
    eat
  · intro x a z b y d1 d2 hi s n p
    loop_start hf
    xinv d1
    splits <;> go dottedNameLoopBody <;> eat <;> eat_loop (hi _ _ _)

theorem cx_dottedName (ih : ∀ p, Claim h p) : Claim (h + 1) .dotted_name := by
  start d hf
  obtain ⟨_, _, b, ⟨t, rfl, ht, rfl⟩, d2, rfl⟩ := d
  lists
  go dottedNameBody
  eat
  eat_loop (cx_dottedNameLoop ih d2 _ _ _)

theorem cx_globalLoop (ih : ∀ p, Claim h p) {x ts y} (d : XN h (star (X.comma ⬝ X.name)) x ts y) :
    ∀ s t n p, LoopOk .global_stmt (.globalLoop s t n p) x ts y := by
  refine XN.star_ind (P := fun x ts y => ∀ s t n p, LoopOk .global_stmt (.globalLoop s t n p) x ts y) ?_ ?_ d
  · intro x s t n p
    loop_start hf
    go globalLoopBody
    eat
  · intro x a z b y d1 d2 hi s t n p
    loop_start hf
    xinv d1
    splits <;> go globalLoopBody <;> eat <;> eat_loop (hi _ _ _ _)

theorem cx_globalStmt (ih : ∀ p, Claim h p) : Claim (h + 1) .global_stmt := by
  start d hf
  obtain ⟨_, _, b, ⟨t, rfl, ht, rfl⟩, ⟨_, _, b, ⟨t2, rfl, ht2, rfl⟩, d2, rfl⟩, rfl⟩ := d
  lists
  go globalStmtBody
  eat
  eat_loop (cx_globalLoop ih d2 _ _ _ _)

theorem cx_nonlocalLoop (ih : ∀ p, Claim h p) {x ts y} (d : XN h (star (X.comma ⬝ X.name)) x ts y) :
    ∀ s t n p, LoopOk .nonlocal_stmt (.nonlocalLoop s t n p) x ts y := by
  refine XN.star_ind (P := fun x ts y => ∀ s t n p, LoopOk .nonlocal_stmt (.nonlocalLoop s t n p) x ts y) ?_ ?_ d
  · intro x s t n p
    loop_start hf
    go nonlocalLoopBody
    eat
  · intro x a z b y d1 d2 hi s t n p
    loop_start hf
    xinv d1
    splits <;> go nonlocalLoopBody <;> eat <;> eat_loop (hi _ _ _ _)

theorem cx_nonlocalStmt (ih : ∀ p, Claim h p) : Claim (h + 1) .nonlocal_stmt := by
  start d hf
  obtain ⟨_, _, b, ⟨t, rfl, ht, rfl⟩, ⟨_, _, b, ⟨t2, rfl, ht2, rfl⟩, d2, rfl⟩, rfl⟩ := d
  lists
  go nonlocalStmtBody
  eat
  eat_loop (cx_nonlocalLoop ih d2 _ _ _ _)

/-! ### `from` -/

/-- What comes after `import`. -/
def importTail : XR := .k .PyMul ∥ .k .PyLeftParen ⬝ .n .import_as_names ⬝ .k .PyRightParen ∥ .n .import_as_names

theorem cx_importRest (ih : ∀ p, Claim h p) {x b y} (d : XN h (.k .PyImport ⬝ importTail) x b y) {c u s t ds}
    (hd : ds ≠ []) (hx : c.exc = x) (hf : XFits .import_from b u) (ho : On c b u) :
    Eats (importFromRest s t ds) c b y := by
  have hfk := hf.fol
  have hn : ¬ ds.reverse.length = 0 := by simpa using hd
  simp only [importTail] at d
  xinv d
  splits <;> unfold importFromRest <;> eat <;> refine eats_neg hn ?_ <;> eat

theorem cx_importRest' (ih : ∀ p, Claim h p) {x b y} (d : XN h (.n .dotted_name ⬝ .k .PyImport ⬝ importTail) x b y)
    {c u s t ds} (hx : c.exc = x) (hf : XFits .import_from b u) (ho : On c b u) :
    Eats (importFromRest s t ds) c b y := by
  have hfk := hf.fol
  simp only [importTail] at d
  xinv d
  splits <;> unfold importFromRest <;> eat

theorem cx_dots (ih : ∀ p, Claim h p) {x a z} (d : XN h (star X.dots) x a z) : ∀ b y ds,
    (XN h (.n .dotted_name ⬝ .k .PyImport ⬝ importTail) z b y ∨
      XN h (.k .PyImport ⬝ importTail) z b y ∧ (ds ≠ [] ∨ a ≠ [])) →
    ∀ s t, LoopOk .import_from (.importDotLoop s t ds) x (a ++ b) y := by
  refine XN.star_ind (P := fun x a z => ∀ b y ds, (XN h (.n .dotted_name ⬝ .k .PyImport ⬝ importTail) z b y ∨
      XN h (.k .PyImport ⬝ importTail) z b y ∧ (ds ≠ [] ∨ a ≠ [])) →
    ∀ s t, LoopOk .import_from (.importDotLoop s t ds) x (a ++ b) y) ?_ ?_ d
  · intro x b y ds d s t
    loop_start hf
    rw [List.nil_append] at *
    obtain d | ⟨d, hd⟩ := d
    · obtain ⟨t1, ht1, hk1⟩ := d.hdR rfl
      go importDotLoopBody
      eat1
      eat1
      exact cx_importRest' ih d (by assumption) hf (by assumption)
    · obtain ⟨t1, ht1, hk1⟩ := d.hdR rfl
      go importDotLoopBody
      eat1
      eat1
      exact cx_importRest ih d (by simpa using hd) (by assumption) hf (by assumption)
  · intro x u z v y d1 d2 hi b y' ds d3 s t
    loop_start hf
    have hl := fun t' => hi b y' (ds ++ [t']) (d3.imp id (fun e => ⟨e.1, .inl (by simp)⟩))
    clear d3
    simp only [X.dots] at d1
    xinv d1
    splits <;> go importDotLoopBody <;> eat <;> eat_loop (hl _ _ _)

theorem cx_importFrom (ih : ∀ p, Claim h p) : Claim (h + 1) .import_from := by
  intro c x ts y u d hx ho hf
  have hfk := XFits.fol hf
  replace d := XN.inv d
  simp only [pRule] at d
  obtain ⟨t, b, rfl, ht, d⟩ := xn_kseq d
  rw [xn_seq] at d
  obtain ⟨a, z, b, d1, d2, rfl⟩ := d
  rw [xn_alt] at d1
  obtain d1 | d1 := d1
  · rw [xn_seq] at d1
    obtain ⟨a1, z1, b1, d1, d3, rfl⟩ := d1
    have hl := cx_dots ih d1 _ _ [] (.inl (XN.seq d3 d2))
    lists
    go importFromBody
    eat
    eat_loop (hl _ _)
  · simp only [XR.plus] at d1
    have hl := cx_dots ih (x := x) (a := a) (z := z) (by
      rw [xn_seq] at d1
      obtain ⟨a1, z1, b1, d1, d3, rfl⟩ := d1
      exact .more d1 d3) _ _ [] (.inr ⟨d2, .inr (fun e => by
        have := d1.null e
        exact absurd this (by decide))⟩)
    go importFromBody
    eat
    eat_loop (hl _ _)

/-! ### Assignments -/

theorem assign_stop {x s l n} : LoopOk .expr_stmt (.assignLoop s l n) x [] x := by
  loop_start hf
  go assignLoopBody
  eat
theorem assign_comment {x s l n t} (ht : t.kind = .TypeComment) : LoopOk .expr_stmt (.assignLoop s l n) x [t] x := by
  loop_start hf
  go assignLoopBody
  eat

/-- The last assignment of a statement. -/
def lastAssign : XR := .k .PyAssign ⬝ (X.rhs_tr ∥ (.n .yield_expr ∥ .n .testlist) ⬝ .k .TypeComment)

theorem cx_assignLoop (ih : ∀ p, Claim h p) {x a z}
    (d : XN h (star (.k .PyAssign ⬝ (.n .yield_expr_tr ∥ .n .testlist))) x a z) :
    ∀ b y, XN h lastAssign z b y → ∀ s l n, LoopOk .expr_stmt (.assignLoop s l n) x (a ++ b) y := by
  refine XN.star_ind (P := fun x a z => ∀ b y, XN h lastAssign z b y → ∀ s l n,
    LoopOk .expr_stmt (.assignLoop s l n) x (a ++ b) y) ?_ ?_ d
  · intro x b y d s l n
    loop_start hf
    simp only [lastAssign] at d
    obtain ⟨t, b, rfl, ht, d⟩ := xn_kseq d
    rw [xn_alt] at d
    obtain d | d := d
    · simp only [X.rhs_tr] at d
      xinv d
      splits <;> go assignLoopBody <;> unfold yieldOrTestlist <;> eat <;> eat_loop assign_stop
    · rw [xn_seq] at d
      obtain ⟨b, _, _, d, d2, rfl⟩ := d
      obtain ⟨t2, rfl, ht2, rfl⟩ := xn_k.1 d2
      xinv d
      splits <;> go assignLoopBody <;> unfold yieldOrTestlist <;> eat <;> eat_loop (assign_comment ht2)
  · intro x u z v y d1 d2 hi b y' d3 s l n
    loop_start hf
    have d4 := XN.seq d2 d3
    have hl := hi _ _ d3
    clear d2 d3
    xinv d1
    splits <;> go assignLoopBody <;> unfold yieldOrTestlist <;> eat <;> eat_loop (hl _ _ _)

theorem cx_annAssign (ih : ∀ p, Claim h p) {x b y} (d : XN h (X.colon ⬝ .n .test ⬝ opt (.k .PyAssign ⬝ X.rhs_tr)) x b y) :
    ∀ s l, LoopOk .expr_stmt (.annAssign s l) x b y := by
  intro s l
  loop_start hf
  simp only [X.rhs_tr] at d
  xinv d
  splits <;> go annAssignBody <;> unfold yieldOrTestlist <;> eat

theorem cx_exprStmt (ih : ∀ p, Claim h p) : Claim (h + 1) .expr_stmt := by
  intro c x ts y u d hx ho hf
  have hfk := XFits.fol hf
  replace d := XN.inv d
  simp only [pRule] at d
  rw [xn_seq] at d
  obtain ⟨a, z, b, d1, d2, rfl⟩ := d
  have d3 := d2
  rw [xn_alt, xn_alt, xn_alt] at d3
  obtain d3 | d3 | d3 | d3 := d3
  · obtain ⟨rfl, rfl⟩ := xn_eps.1 d3
    lists
    go exprStmtBody
    eat
    split
    · rename_i hc
      replace hc := ne_none_of hc
      exact absurd hc (by kdec)
    · eat
  · obtain ⟨t, ht, hk⟩ := d3.hdR rfl
    have hl := cx_annAssign ih d3
    clear d3
    go exprStmtBody
    eat
    eat_loop (hl _ _)
  · obtain ⟨t, ht, hk⟩ := d3.hdR rfl
    rw [xn_seq] at d3
    obtain ⟨a1, z1, b1, d3, d4, rfl⟩ := d3
    obtain ⟨t1, rfl, rfl, hk1⟩ : ∃ t, a1 = [t] ∧ z1 = z ∧ augOp t.kind ≠ none := by
      simp only [X.augassign] at d3
      xinv d3
      casesm* _ ∨ _, ∃ _, _, _ ∧ _ <;> subst_vars <;> exact ⟨_, rfl, rfl, by kdec⟩
    clear ht hk d3
    simp only [X.rhs_tr] at d4
    xinv d4
    splits <;> go exprStmtBody <;> eat
    · split
      · unfold yieldOrTestlist; eat
      · rename_i hc; exact absurd hc hk1
    · split
      · unfold yieldOrTestlist; eat
      · rename_i hc; exact absurd hc hk1
  · obtain ⟨t, ht, hk⟩ := d3.hdR rfl
    rw [xn_seq] at d3
    obtain ⟨a1, z1, b1, d3, d4, rfl⟩ := d3
    have hl := cx_assignLoop ih d3 _ _ d4
    clear d3 d4
    go exprStmtBody
    eat
    eat_loop (hl _ _ _)

end
end Verif
