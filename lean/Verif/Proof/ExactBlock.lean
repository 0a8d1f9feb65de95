import Verif.Proof.ExactLoop

/-!
# Sentences of the exact grammar are accepted: statements
-/

namespace Verif
open XR Prog
set_option linter.unusedVariables false
set_option linter.unusedSimpArgs false
set_option linter.unusedSectionVars false

/-! ### Statements end with a newline or a dedent -/

def PN.closed : PN → Bool
  | .stmt | .simple_stmt | .compound_stmt | .async_stmt | .if_stmt | .elif_part | .else_part | .while_stmt | .for_stmt
  | .try_stmt | .except_part | .finally_part | .with_stmt | .suite | .funcdef | .func_body_suite | .classdef => true
  | _ => false

def XR.closed : XR → Bool
  | .eps | .mark _ => true
  | .k x => [Kind.Newline, .Dedent].contains x
  | .any => false
  | .n p => p.closed
  | .seq a b => b.closed && (a.closed || !b.null)
  | .alt a b => a.closed && b.closed
  | .opt a | .star a | .only _ a => a.closed

theorem PN.closed_table : ∀ p : PN, p.closed = true → (pRule p).closed = true := by decide +kernel

theorem XN.closed {h r x ts y} (d : XN h r x ts y) :
    r.closed = true → ∀ l, ts.getLast? = some l → [Kind.Newline, .Dedent].contains l.kind = true := by
  induction d with
  | eps | absent | stop | mark => intro _ l e; cases e
  | k hk => intro hr l e; cases e; simp only [List.getLast_singleton, hk]; exact hr
  | any => intro hr; cases hr
  | n d ih => intro hr; exact ih (PN.closed_table _ hr)
  | seq d1 d2 ih1 ih2 | more d1 d2 ih1 ih2 =>
    rename_i u _ v _
    intro hr l e
    rw [List.getLast?_append] at e
    cases hv : v.getLast? with
    | some l' =>
      rw [hv] at e; cases e
      first | exact ih2 hr _ hv | exact ih2 (by simp only [XR.closed, Bool.and_eq_true] at hr; exact hr.1) _ hv
    | none =>
      rw [hv] at e
      have hn := d2.null (List.getLast?_eq_none_iff.1 hv)
      first
        | exact ih1 hr _ e
        | (refine ih1 ?_ _ e
           simp only [XR.closed, hn, Bool.and_eq_true, Bool.not_true, Bool.or_false] at hr
           exact hr.2)
  | left d ih => intro hr; exact ih (by simp only [XR.closed, Bool.and_eq_true] at hr; exact hr.1)
  | right d ih => intro hr; exact ih (by simp only [XR.closed, Bool.and_eq_true] at hr; exact hr.2)
  | present d ih => intro hr; exact ih hr
  | only d _ ih => intro hr; exact ih hr

theorem XN.strEnd {h p x ts y} (d : XN h (.n p) x ts y) (hp : p.closed = true) {u} : StrEnd ts u := fun _ l hl => by
  have := d.closed hp l hl
  kdec

theorem hdT_any {ts : List Token} {u : Token} : ∃ t, HdIs (ts ++ [u]) t ∧ hdT ts u = t := by
  cases ts with
  | nil => exact ⟨u, rfl, rfl⟩
  | cons t ts => exact ⟨t, rfl, rfl⟩

/-! ### Simple statements -/

section
variable [Uni]

/-- The current symbols from here on are the tokens. -/
def OnW : PSt → List Token → Prop
  | _, [] => True
  | c, t :: ts => c.symbol = .ok t ∧ OnW c.advance ts

theorem onW_of {c : PSt} {ts u} (h : On c ts u) : OnW c ts := by
  induction ts generalizing c with
  | nil => trivial
  | cons t ts ih => exact ⟨h.1, ih h.2⟩

theorem onW_withExc {c : PSt} {x ts} : OnW { c with exc := x } ts ↔ OnW c ts := by
  induction ts generalizing c with
  | nil => exact Iff.rfl
  | cons t ts ih => simp only [OnW, advance_withExc, ih]

theorem onW_split {c : PSt} {a t us z} (h : OnW c (a ++ t :: us)) : On c a t ∧ OnW (c.after a z) (t :: us) := by
  induction a generalizing c with
  | nil => exact ⟨h.1, onW_withExc.2 h⟩
  | cons b a ih => exact ⟨⟨h.1, (ih h.2).1⟩, (ih h.2).2⟩

theorem eats_symAtW {β : Type} {s m} {f : Token → Prog β} {c t ts y} (ho : OnW c (t :: ts)) (h : Eats (f t) c (t :: ts) y) :
    Eats (symAt s m >>= f) c (t :: ts) y := acc_zero (evp_symAt ho.1) h
theorem eats_nextW {β : Type} {f : Unit → Prog β} {c t ts x y} (ho : OnW c (t :: ts)) (hx : c.exc = x)
    (h : ∀ d, d.exc = x → OnW d ts → Eats (f ()) d ts y) : Eats (next >>= f) c (t :: ts) y :=
  acc_next (h _ ((advance_exc_eq c).trans hx) ho.2)
theorem eats_callW {β : Type} {f : Fn} {k : Tree → Prog β} {c a t z us y} (ho : OnW c (a ++ t :: us))
    (h1 : On c a t → Suc f c a z) (h2 : ∀ d tr, d.exc = z → OnW d (t :: us) → Eats (k tr) d (t :: us) y) :
    Eats (parse f >>= k) c (a ++ t :: us) y :=
  acc_bind (h1 (onW_split (z := z) ho).1).parse fun tr => h2 _ tr (after_exc ..) (onW_split ho).2
end

/-- The state after the tokens, without what follows. -/
macro "eatW" : tactic => `(tactic| first
  | refine acc_here fun _ => ?_
  | (refine eats_symAtW (by assumption) ?_)
  | refine eats_nextW (by assumption) (by exc_is) fun _ _ _ => ?_
  | exact acc_mk (by exc_is)
  | refine eats_pos (by first | assumption | kdec) ?_
  | refine eats_neg (by kdec) ?_)

section
variable [Uni]
attribute [local irreducible] Prog.bind Prog.here Prog.symAt Prog.symHere Prog.sym? Prog.next Prog.parse Prog.mk
  Prog.failHere On Eats XFits PSt.after hdT HdIs PSt.advance Suc StrEnd OnW
variable {h : Nat}

theorem cx_simpleLoop (ih : ∀ p, Claim h p) {x a z} (d : XN h (star (.k .PySemiColon ⬝ .n .small_stmt)) x a z) :
    ∀ b y, XN h (opt (.k .PySemiColon) ⬝ .k .Newline) z b y → ∀ s n p c, c.exc = x → OnW c (a ++ b) →
      Suc (.simpleStmtLoop s n p) c (a ++ b) y := by
  refine XN.star_ind (P := fun x a z => ∀ b y, XN h (opt (.k .PySemiColon) ⬝ .k .Newline) z b y → ∀ s n p c, c.exc = x →
    OnW c (a ++ b) → Suc (.simpleStmtLoop s n p) c (a ++ b) y) ?_ ?_ d
  · intro x b y d s n p c hx ho
    xinv d
    splits <;> go simpleStmtLoopBody <;> unfold simpleStmtLoopBody.fin <;> repeat eatW
  · intro x u z v y d1 d2 hi b y' d3 s n p c hx ho
    obtain ⟨t, a, rfl, ht, d1⟩ := xn_kseq d1
    have d4 := XN.seq d2 d3
    have hl := hi _ _ d3
    clear d2 d3
    obtain ⟨t2, us, e, hk2⟩ : ∃ t2 us, v ++ b = t2 :: us ∧ (t2.kind = .PySemiColon ∨ t2.kind = .Newline) := by
      generalize v ++ b = w at *
      cases w with
      | nil => exact absurd (d4.null rfl) (by decide)
      | cons t2 us =>
        have := d4.first _ _ rfl
        exact ⟨t2, us, rfl, by kdec⟩
    lists
    rw [e] at ho hl ⊢
    obtain ⟨t1, us1, rfl, hk1⟩ := d1.head
    lists
    go simpleStmtLoopBody
    repeat eatW
    rw [← List.cons_append] at *
    refine eats_callW (by assumption) ((ih .small_stmt).use d1 (by assumption) ?_) fun _ _ _ ho => ?_
    · exact XFits.mk' (by kdec) (StrEnd.of (by kdec))
    · exact (hl _ _ _ _ (by assumption) ho).parse

theorem cx_simpleW (ih : ∀ p, Claim h p) {c x ts y} (d : XN (h + 1) (.n .simple_stmt) x ts y) (hx : c.exc = x)
    (ho : OnW c ts) : Suc .simpleStmt c ts y := by
  replace d := XN.inv d
  simp only [pRule] at d
  rw [xn_seq] at d
  obtain ⟨a, z, b, d1, d2, rfl⟩ := d
  have d3 := d2
  rw [xn_seq] at d3
  obtain ⟨a', z', b', d3, d4, rfl⟩ := d3
  have hl := cx_simpleLoop ih d3 _ _ d4
  clear d3 d4
  obtain ⟨t2, us, e, hk2⟩ : ∃ t2 us, a' ++ b' = t2 :: us ∧ (t2.kind = .PySemiColon ∨ t2.kind = .Newline) := by
    generalize a' ++ b' = w at *
    cases w with
    | nil => exact absurd (d2.null rfl) (by decide)
    | cons t2 us =>
      have := d2.first _ _ rfl
      exact ⟨t2, us, rfl, by kdec⟩
  rw [e] at ho hl ⊢
  go simpleStmtBody
  repeat eatW
  refine eats_callW (by assumption) ((ih .small_stmt).use d1 (by assumption) ?_) fun _ _ _ ho => ?_
  · exact XFits.mk' (by kdec) (StrEnd.of (by kdec))
  · exact (hl _ _ _ _ (by assumption) ho).parse

theorem cx_simpleStmt (ih : ∀ p, Claim h p) : Claim (h + 1) .simple_stmt :=
  fun c x ts y u d hx ho hf => cx_simpleW ih d hx (onW_of ho)


end
end Verif
