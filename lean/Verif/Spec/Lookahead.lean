import Verif.Spec.Erase
import Verif.Spec.Position

/-!
# Texts with the same first symbols
-/

namespace Verif

/-- Two parsers with the same `except` status that see the same current symbol and the same next `k` symbols, up to `e`. -/
def ViewUpTo [Uni] (e : Token → Token) (k : Nat) (c d : PSt) : Prop :=
  c.exc = d.exc ∧ ∀ i, i ≤ k → SymLike e (c.ahead i) (d.ahead i)

/-- The parser `c` has come to `c'` by `k` calls of `advance`. -/
def Ahead [Uni] (k : Nat) (c c' : PSt) : Prop := ∃ x, c' = { c.ahead k with exc := x }

/-- The same outcome up to positions and `e`, with the parser `d` `k` symbols further on if it is a tree. -/
def ResUpTo [Uni] (e : Token → Token) (k : Nat) (d : PSt) : Res Tree → Res Tree → Prop
  | .ok t c', .ok u d' => t.erase e = u.erase e ∧ d' = { d.ahead k with exc := c'.exc }
  | .err _ m, .err _ m' => m = m'
  | .panic, .panic => True
  | .diverge, .diverge => True
  | _, _ => False

end Verif
