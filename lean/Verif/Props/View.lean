import Verif.Proof.View
import Verif.Proof.LexFacts
import Verif.Props.Term

/-!
# Parser: a parse depends only on what it reads (C40)

`SameView k c d` (`Spec/View.lean`): the parsers `c` and `d` see the same current symbol and the same `k` symbols after
it.  `Consumed c ts c'` (`Spec/Parse.lean`): `ts` are the tokens taken on the way from `c` to `c'`.
-/

namespace Verif

/-- C40, success: if a parse function other than the input functions (which first call `advance`) succeeds, then it does so
with the same tree, and consumes the same tokens, in every state that sees the same consumed tokens and the same
symbol after them, whatever comes later. -/
theorem C40_success_is_local [Uni] (src : List Char) (n : Nat) (f : Fn) (c c' : PSt) (t : Tree) (hc : PReach src c)
    (hf : f ∉ inputFns) (h : run n f c = .ok t c') :
    ∃ ts, Consumed c ts c' ∧ ∀ d, SameView ts.length c d → ∃ d', run n f d = .ok t d' ∧ Consumed d ts d' ∧
      SameSymbol c' d' ∧ c'.exc = d'.exc := by
  have hi : f.input = false := by
    cases f <;> first | rfl | (exfalso; apply hf; simp [inputFns])
  obtain ⟨ts, h1, h2⟩ := run_localOk n f c t c' hi hc.good h
  refine ⟨ts, h1, fun d hv => ?_⟩
  obtain ⟨d', h3, h4, h5⟩ := h2 0 d (by simpa using hv)
  exact ⟨d', h3, h4, h5.2 0 (Nat.le_refl _), h5.1⟩

/-- C40, failure and panic: a parse function that fails has looked at some number of symbols only, and fails with the
same message and position in every state that sees the same symbols. -/
theorem C40_failure_is_local [Uni] (n : Nat) (f : Fn) (c : PSt) (p : Nat) (m : String) (h : run n f c = .err p m) :
    ∃ k, ∀ d, SameView k c d → run n f d = .err p m := by
  obtain ⟨k, hk⟩ := run_local n f c (by rw [h]; simp)
  refine ⟨k, fun d hv => ?_⟩
  have := hk 0 d (by simpa using hv)
  rw [h] at this
  cases hd : run n f d with
  | err q m' => rw [hd] at this; obtain ⟨rfl, rfl⟩ := this; rfl
  | _ => rw [hd] at this; exact this.elim

/-- The two states of an example: the tokens of `a + b` and the symbol after it agree, what follows does not. -/
example : @SameView asciiUni 3 (@started asciiUni (cs! "a + b; c d")) (@started asciiUni (cs! "a + b; ]]")) ∧
    (∃ t c', @run asciiUni 40 .arith (@started asciiUni (cs! "a + b; c d")) = .ok t c' ∧ t.tokens.length = 3) := by
  refine ⟨⟨rfl, ?_⟩, Res.shows (by decide +kernel)⟩
  intro i hi
  have : i = 0 ∨ i = 1 ∨ i = 2 ∨ i = 3 := by omega
  rcases this with rfl | rfl | rfl | rfl <;> exact ⟨rfl, rfl⟩

end Verif
