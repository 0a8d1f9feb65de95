import Verif.Proof.ExactExpr

/-!
# Sentences of the exact grammar are accepted: expressions with loops
-/

namespace Verif
open XR Prog
set_option linter.unusedVariables false
set_option linter.unusedSimpArgs false
set_option linter.unusedSectionVars false

section
variable [Uni]
attribute [local irreducible] Prog.bind Prog.here Prog.symAt Prog.symHere Prog.sym? Prog.next Prog.parse Prog.mk
  Prog.failHere On Eats XFits PSt.after hdT HdIs PSt.advance Suc StrEnd
variable {h : Nat}

/-- The tokens are accepted by the loops `f` that end before what may follow `q`. -/
def LoopOk (q : PN) (f : Fn) (x : ExcStatus) (ts : List Token) (y : ExcStatus) : Prop :=
  ∀ c u, c.exc = x → XFits q ts u → On c ts u → Suc f c ts y

theorem LoopOk.use {q f x ts y} (hl : LoopOk q f x ts y) {c u} (hx : c.exc = x) (hf : XFits q ts u) (ho : On c ts u) :
    Suc f c ts y := hl c u hx hf ho

/-- Calls of a loop. -/
macro "eat_loop" t:term : tactic => `(tactic|
  exact eats_tail (by assumption) (LoopOk.use $t (by exc_is) (by fit)))

/-- The beginning of the proof that the loop stops, or goes on. -/
macro "loop_start" hf:ident : tactic => `(tactic| (
  intro c u hx $hf:ident ho
  have hfk := XFits.fol $hf))

macro "xinv" d:ident : tactic => `(tactic|
  simp only [X.comma, X.colon, X.name, X.elem, X.starOrTest, X.list, X.listTr, XR.plus, xn_seq, xn_alt, xn_opt, xn_k, xn_eps, xn_any, xn_only, xn_mark] at $d:ident)

/-! ### Comparisons -/

omit [Uni] in
theorem ne_none_of {α} {o : Option α} {a} (h : o = some a) : o ≠ none := by rw [h]; exact fun e => nomatch e

theorem cx_comparisonLoop (ih : ∀ p, Claim h p) {x ts y} (d : XN h (star (X.comp_op ⬝ .n .expr)) x ts y) :
    ∀ s l, LoopOk .comparison (.comparisonLoop s l) x ts y := by
  refine XN.star_ind (P := fun x ts y => ∀ s l, LoopOk .comparison (.comparisonLoop s l) x ts y) ?_ ?_ d
  · intro x s l
    loop_start hf
    go comparisonLoopBody
    eat1
    split
    · rename_i hc
      replace hc := ne_none_of hc
      exact absurd hc (by kdec)
    · eat
  · intro x a z b y d1 d2 hi s l
    loop_start hf
    simp only [X.comp_op] at d1
    xinv d1
    splits
    all_goals
      go comparisonLoopBody
      eat1
      split <;> rename_i hc
      · replace hc := ne_none_of hc
        first
          | exact absurd hc (by kdec)
          | (eat; eat_loop (hi _ _))
      · first
          | exact absurd hc (by kdec)
          | (eat; eat_loop (hi _ _))

theorem cx_comparison (ih : ∀ p, Claim h p) : Claim (h + 1) .comparison := by
  start d hf
  obtain ⟨a, z, b, d1, d2, rfl⟩ := d
  go comparisonBody
  eat
  eat_loop (cx_comparisonLoop ih d2 _ _)

/-! ### Atoms -/

theorem cx_strLoop {x ts y} (d : XN h (star (.k .AtomString)) x ts y) :
    ∀ s l c t u, t.kind = .AtomString → c.exc = x → XFits .atom (t :: ts) u → On c ts u → Suc (.atomStrLoop s l) c ts y := by
  refine XN.star_ind (P := fun x ts y => ∀ s l c t u, t.kind = .AtomString → c.exc = x → XFits .atom (t :: ts) u →
    On c ts u → Suc (.atomStrLoop s l) c ts y) ?_ ?_ d
  · intro x s l c t u ht hx hf ho
    have := hf.str ht
    go atomStrLoopBody
    eat
  · intro x a z b y d1 d2 hi s l c t u ht hx hf ho
    xinv d1
    obtain ⟨t1, rfl, hk, rfl⟩ := d1
    lists
    go atomStrLoopBody
    eat
    exact eats_tail (by assumption) (hi _ _ _ _ _ hk (by exc_is) (XFits.suff hf (by suff)))

theorem cx_atom (ih : ∀ p, Claim h p) : Claim (h + 1) .atom := by
  start d hf
  obtain d | d | d | d | d | d | d := d
  · splits <;> go atomBody <;> eat
  · splits <;> go atomBody <;> eat
  · splits
    go atomBody
    eat
    dsimp only
    split
    · eat
    · split <;> eat
  · splits <;> go atomBody <;> eat
  · splits <;> go atomBody <;> eat
  · obtain ⟨_, _, b, ⟨t, rfl, ht, rfl⟩, d2, rfl⟩ := d
    lists
    go atomBody
    eat
    exact eats_tail (by assumption) (cx_strLoop d2 _ _ _ _ _ ht (by exc_is) hf)
  · splits <;> go atomBody <;> eat

theorem cx_trailerLoop (ih : ∀ p, Claim h p) {x ts y} (d : XN h (star (.n .trailer)) x ts y) :
    ∀ s a r l, LoopOk .atom_expr (.trailerLoop s a r l) x ts y := by
  refine XN.star_ind (P := fun x ts y => ∀ s a r l, LoopOk .atom_expr (.trailerLoop s a r l) x ts y) ?_ ?_ d
  · intro x s a r l
    loop_start hf
    go trailerLoopBody
    eat
    unfold trailerLoopBody.fin
    split <;> eat
  · intro x a z b y d1 d2 hi s aw r l
    loop_start hf
    hds
    go trailerLoopBody
    eat
    eat_loop (hi _ _ _ _)

theorem cx_atomExpr (ih : ∀ p, Claim h p) : Claim (h + 1) .atom_expr := by
  start d hf
  obtain ⟨a, z, b, d1, ⟨_, _, _, d2, d3, rfl⟩, rfl⟩ := d
  splits <;> go atomExprBody <;> eat <;> eat_loop (cx_trailerLoop ih d3 _ _ _ _)

end
end Verif
