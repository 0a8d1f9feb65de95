import Verif.Proof.Exc
import Verif.Spec.Limits
import Verif.Spec.Outcome

/-!
# C38: `except` and `except*`
-/

namespace Verif

/-- C38, first half, for `try` statements without a `try` statement inside their clauses (the last clause
may contain one): all clauses are `except` clauses or all are `except*` clauses.  Missing: clauses that
contain a `try` statement, where it does not hold, see `C38_mixed_accepted`. -/
theorem C38_uniform_partial [Uni] (n : Nat) (c c' : PSt) (y : Tree) (h : run n .tryStmt c = .ok y c')
    (hc : ∀ x ∈ y.clauses.dropLast, x.hasTry = false) :
    (∀ x ∈ y.clauses, x.starred = true) ∨ ∀ x ∈ y.clauses, x.starred = false := by
  obtain ⟨_, s, e, t, t2, l, els, fin, rfl | ⟨more, rfl, hu⟩⟩ := run_exc h
  · simp [Tree.clauses]
  · simp only [Tree.clauses, List.reverse_reverse] at hc ⊢
    exact hu hc

example : ∃ y c', @run asciiUni 100 .tryStmt
      (@started asciiUni (cs! "try:\n pass\nexcept* a:\n pass\nexcept* b as c:\n pass\nelse:\n pass\n")) = .ok y c' ∧
    (y.clauses.length = 2 ∧ ∀ x ∈ y.clauses, x.starred = true ∧ x.hasTry = false) :=
  Res.shows (by decide +kernel)

/-- C38, first half, in general: it does not hold.  A `try` statement in a clause of another one lets the
outer statement mix both kinds. -/
theorem C38_mixed_accepted : ∃ src, ∃ y c', @run asciiUni 100 .tryStmt (@started asciiUni src) = .ok y c' ∧
    (∃ x ∈ y.clauses, x.starred = true) ∧ ∃ x ∈ y.clauses, x.starred = false :=
  ⟨cs! "try:\n pass\nexcept a:\n try:\n  pass\n except* b:\n  pass\nexcept* c:\n pass\n",
    Res.shows (P := fun y => (∃ x ∈ y.clauses, x.starred = true) ∧ ∃ x ∈ y.clauses, x.starred = false)
      (by decide +kernel)⟩

/-- C38, the rule that is applied: the first clause that is read since the last `try` keyword, at whatever
depth, decides; a clause of the other kind is an error. -/
theorem C38_other_kind_rejected [Uni] (n : Nat) (c : PSt) (t t2 : Token) (ht : c.symbol = .ok t)
    (hk : t.kind = .PyExcept) (ht2 : c.advance.symbol = .ok t2)
    (hx : (c.exc = .except ∧ t2.kind = .PyMul) ∨ (c.exc = .exceptMul ∧ t2.kind ≠ .PyMul)) :
    ∃ p m, run (n + 1) .exceptClause c = .err p m := by
  have ha := exc_advance c
  have ha2 := exc_advance c.advance
  rcases hx with ⟨hx, hm⟩ | ⟨hx, hm⟩
  · refine ⟨c.lex.tokStart, "Expecting 'except*' except statement!", ?_⟩
    simp only [run, body, exceptClauseBody, exceptStar, bind, Prog.bind, Prog.here, Prog.symAt, Prog.next, Prog.exec, ht, hk,
      ht2, hm, if_true, ha, ha2, hx]
  · refine ⟨c.lex.tokStart, "Expecting 'except' except statement!", ?_⟩
    simp only [run, body, exceptClauseBody, exceptStar, bind, Prog.bind, Prog.here, Prog.symAt, Prog.next, Prog.exec, ht, hk,
      ht2, hm, if_true, if_false, ha, hx]

/-- C38, second half: it does not hold.  A `try` statement that uses only one kind is rejected after a `try`
statement in its body that uses the other kind. -/
theorem C38_uniform_rejected : ∃ src, (@run asciiUni 100 .tryStmt (@started asciiUni src)).isErr = true ∧
    src = cs! "try:\n try:\n  pass\n except* a:\n  pass\nexcept b:\n pass\n" :=
  ⟨_, by decide +kernel, rfl⟩

/-- The same statement with the inner clause of the same kind is accepted. -/
example : ∃ y c', @run asciiUni 100 .tryStmt
      (@started asciiUni (cs! "try:\n try:\n  pass\n except a:\n  pass\nexcept b:\n pass\n")) = .ok y c' ∧
    y.clauses.length = 1 :=
  Res.shows (by decide +kernel)

/-- C38: parsing anything that contains no `try` statement leaves the status alone, so that clauses are only
ever compared with clauses of `try` statements. -/
theorem C38_status_kept [Uni] (n : Nat) (c c' : PSt) (y : Tree) (h : run n .stmt c = .ok y c')
    (hy : y.hasTry = false) : c'.exc = c.exc := run_exc h hy

example : ∃ y c', @run asciiUni 100 .stmt (@started asciiUni (cs! "if a:\n b\nelse:\n c\n")) = .ok y c' ∧
    y.hasTry = false :=
  Res.shows (by decide +kernel)

end Verif
