import Verif.Model.Run

/-!
# What a parser can see ahead
-/

namespace Verif

/-- The parser after `k` calls of `advance`. -/
def PSt.ahead [Uni] : Nat → PSt → PSt
  | 0, c => c
  | k + 1, c => PSt.ahead k c.advance

/-- The same current symbol (any two errors count as the same), and the same position. -/
def SameSymbol (c d : PSt) : Prop :=
  c.lex.tokStart = d.lex.tokStart ∧
    match c.symbol, d.symbol with
    | .ok t, .ok u => t = u
    | .error _, .error _ => True
    | _, _ => False

/-- The current symbol and the next `k` ones are the same for `c` and `d`, and so is the `except` status. -/
def SameView [Uni] (k : Nat) (c d : PSt) : Prop :=
  c.exc = d.exc ∧ ∀ i, i ≤ k → SameSymbol (c.ahead i) (d.ahead i)

end Verif
