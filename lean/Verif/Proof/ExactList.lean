import Verif.Proof.ExactLoop

/-!
# Sentences of the exact grammar are accepted: lists of expressions
-/

namespace Verif
open XR Prog
set_option linter.unusedVariables false
set_option linter.unusedSimpArgs false
set_option linter.unusedSectionVars false

section
variable [Uni]
attribute [local irreducible] Prog.bind Prog.here Prog.symAt Prog.symHere Prog.sym? Prog.next Prog.parse Prog.mk
  Prog.failHere On Eats XFits PSt.after hdT HdIs PSt.advance Suc StrEnd
variable {h : Nat}

/-! ### Lists in parentheses and brackets -/

theorem cx_testlistCompLoop (ih : ∀ p, Claim h p) {x ts y} (d : XN h (star (X.comma ⬝ X.elem)) x ts y) :
    ∀ s n p, LoopOk .testlist_comp (.testlistCompLoop s n p) x ts y := by
  refine XN.star_ind (P := fun x ts y => ∀ s n p, LoopOk .testlist_comp (.testlistCompLoop s n p) x ts y) ?_ ?_ d
  · intro x s n p
    loop_start hf
    go testlistCompLoopBody
    eat
  · intro x a z b y d1 d2 hi s n p
    loop_start hf
    xinv d1
    splits <;> go testlistCompLoopBody <;> unfold starOrNamed <;> eat <;> eat_loop (hi _ _ _)

theorem cx_testlistComp (ih : ∀ p, Claim h p) : Claim (h + 1) .testlist_comp := by
  start d hf
  obtain ⟨a, z, b, d1, d2 | d2, rfl⟩ := d
  · splits <;> go testlistCompBody <;> unfold starOrNamed <;> eat
  · have d3 := xn_star.1 d2
    xinv d3
    obtain ⟨rfl, rfl⟩ | ⟨_, _, v, ⟨_, _, w, ⟨t, rfl, ht, rfl⟩, d4, rfl⟩, d5, rfl⟩ := d3
    · splits <;> go testlistCompBody <;> unfold starOrNamed <;> eat
    · have hl := cx_testlistCompLoop ih d2
      clear d2 d4 d5
      splits <;> go testlistCompBody <;> unfold starOrNamed <;> eat <;> eat_loop (hl _ _ _)

theorem cx_subscriptListLoop (ih : ∀ p, Claim h p) {x ts y} (d : XN h (star (X.comma ⬝ .n .subscript)) x ts y) :
    ∀ s n p, LoopOk .subscriptlist (.subscriptListLoop s n p) x ts y := by
  refine XN.star_ind (P := fun x ts y => ∀ s n p, LoopOk .subscriptlist (.subscriptListLoop s n p) x ts y) ?_ ?_ d
  · intro x s n p
    loop_start hf
    go subscriptListLoopBody
    eat
  · intro x a z b y d1 d2 hi s n p
    loop_start hf
    xinv d1
    splits <;> go subscriptListLoopBody <;> eat <;> eat_loop (hi _ _ _)

theorem cx_subscriptList (ih : ∀ p, Claim h p) : Claim (h + 1) .subscriptlist := by
  start d hf
  obtain ⟨a, z, b, d1, d2, rfl⟩ := d
  go subscriptListBody
  eat
  eat_loop (cx_subscriptListLoop ih d2 _ _ _)

theorem subscriptList_stop {x s n p} : LoopOk .subscriptlist_open (.subscriptListLoop s n p) x [] x := by
  loop_start hf
  go subscriptListLoopBody
  eat

/-- Inside the list, at a comma. -/
theorem cx_subscriptOpenLoop (ih : ∀ p, Claim h p) {x ts z} (d : XN h (star (.n .subscript ⬝ X.comma)) x ts z) :
    ∀ b y t, XN h (.n .subscript_open) z b y → t.kind = .PyComa → ∀ s n p,
      LoopOk .subscriptlist_open (.subscriptListLoop s n p) x (t :: (ts ++ b)) y := by
  refine XN.star_ind (P := fun x ts z => ∀ b y t, XN h (.n .subscript_open) z b y → t.kind = .PyComa → ∀ s n p,
      LoopOk .subscriptlist_open (.subscriptListLoop s n p) x (t :: (ts ++ b)) y) ?_ ?_ d
  · intro x b y t d1 ht s n p
    loop_start hf
    lists
    go subscriptListLoopBody
    eat
    eat_loop subscriptList_stop
  · intro x a z b y d1 d2 hi b' y' t d3 ht s n p
    loop_start hf
    xinv d1
    obtain ⟨a', z', _, d1, ⟨t', rfl, ht', rfl⟩, rfl⟩ := d1
    have hl := hi _ _ _ d3 ht'
    lists
    go subscriptListLoopBody
    eat
    eat_loop (hl _ _ _)

theorem cx_subscriptListOpen (ih : ∀ p, Claim h p) : Claim (h + 1) .subscriptlist_open := by
  start d hf
  obtain ⟨a, z, b, d1, d2, rfl⟩ := d
  have d3 := xn_star.1 d1
  xinv d3
  obtain ⟨rfl, rfl⟩ | ⟨_, _, v, ⟨w, _, _, d4, ⟨t, rfl, ht, rfl⟩, rfl⟩, d5, rfl⟩ := d3
  · lists
    go subscriptListBody
    eat
    eat_loop subscriptList_stop
  · have hl := cx_subscriptOpenLoop ih d5 _ _ _ d2 ht
    lists
    go subscriptListBody
    eat
    eat_loop (hl _ _ _)

omit [Uni] in
theorem separate_fits {a t} (hs : X.separate (a ++ [t]) = true) : a ≠ [] → PN.test.follow t.kind = true ∧
    (t.kind = .AtomString → ∀ l, a.getLast? = some l → l.kind ≠ .AtomString) := by
  intro hn
  obtain ⟨b, l, rfl⟩ : ∃ b l, a = b ++ [l] := ⟨_, _, (List.dropLast_concat_getLast hn).symm⟩
  simp only [X.separate, List.reverse_append, List.reverse_cons, List.reverse_nil, List.nil_append, List.cons_append,
    Bool.and_eq_true] at hs
  refine ⟨?_, ?_⟩
  · have h1 := hs.1
    clear hs
    kdec
  · intro e l' hl'
    simp at hl'
    subst hl'
    have := hs.2
    simp [e] at this
    exact this

end

theorem XFits.separate {a t} (hs : X.separate (a ++ [t]) = true) (hn : a ≠ []) : XFits .test a t := separate_fits hs hn

section
variable [Uni]
attribute [local irreducible] Prog.bind Prog.here Prog.symAt Prog.symHere Prog.sym? Prog.next Prog.parse Prog.mk
  Prog.failHere On Eats XFits PSt.after hdT HdIs PSt.advance Suc StrEnd
variable {h : Nat}

theorem cx_subscript (ih : ∀ p, Claim h p) : Claim (h + 1) .subscript := by
  start d hf
  obtain d | ⟨a, z, b, d1, d2, rfl⟩ := d
  · splits <;> go subscriptBody <;> eat
  · simp only [X.slice] at d1
    xinv d1
    obtain ⟨a1, z1, b1, d1, ⟨_, _, b2, ⟨t, rfl, ht, rfl⟩, d3 | d3 | ⟨⟨a3, z3, _, d3, ⟨t3, rfl, rfl⟩, rfl⟩, hs⟩, rfl⟩, rfl⟩ := d1
    · splits <;> go subscriptBody <;> eat
    · splits <;> go subscriptBody <;> eat
    · have := XFits.separate hs d3.ne
      splits <;> go subscriptBody <;> eat

theorem cx_subscriptOpen (ih : ∀ p, Claim h p) : Claim (h + 1) .subscript_open := by
  start d hf
  rename_i d1
  simp only [X.slice] at d
  xinv d
  obtain ⟨a1, z1, b1, d1, ⟨_, _, b2, ⟨t, rfl, ht, rfl⟩, d3 | d3 | ⟨⟨a3, z3, _, d3, ⟨t3, rfl, rfl⟩, rfl⟩, hs⟩, rfl⟩, rfl⟩ := d
  · splits <;> go subscriptBody <;> eat
  · splits <;> go subscriptBody <;> eat
  · have := XFits.separate hs d3.ne
    splits <;> go subscriptBody <;> eat

end
end Verif
