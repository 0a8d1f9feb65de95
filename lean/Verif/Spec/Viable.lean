import Verif.Spec.Exact

/-!
# Texts that can be completed

`Viable r x ts`: the tokens `ts` are the beginning of a sentence of `r`.  `Overrun a b` lists the three places at which the
parser does not notice at once that something is wrong: after `a` it has taken all of `b`, although `a` could not be followed by
the first token of `b`.
-/

namespace Verif

/-- The tokens can be continued to a sentence of `r`. -/
def Viable (r : XR) (x : ExcStatus) (ts : List Token) : Prop := ∃ vs y, XDer pRule r x (ts ++ vs) y

/-- A new line of code begins after these. -/
def lineEdge : List Kind := [.Newline, .Indent, .Dedent]

/-- `{}`; `except*` after `except`; a decorator, which is read up to its end or to the first mistake in it. -/
def Overrun (a b : List Token) : Prop :=
  (∃ l u, a.getLast? = some l ∧ b = [u] ∧
    (l.kind = .PyLeftCurly ∧ u.kind = .PyRightCurly ∨ l.kind = .PyExcept ∧ u.kind = .PyMul)) ∨
  (∃ u b', b = u :: b' ∧ u.kind = .PyMatrice ∧ ∀ l, a.getLast? = some l → lineEdge.contains l.kind = true)

end Verif
