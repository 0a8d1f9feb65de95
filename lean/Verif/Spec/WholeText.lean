import Verif.Spec.Gaps
import Verif.Spec.Stream

/-!
# A text put together from its tokens and trivia
-/

namespace Verif

/-- The trivia and the tokens of a list of tokens, in the order of the text: before each token its
trivia. -/
def pieces : List Token → List (Trivia ⊕ Token)
  | [] => []
  | t :: ts => t.triviaInOrder.map .inl ++ .inr t :: pieces ts

/-- `x.Writes u`: the trivia stands for the text `u`.  (A line end recorded as trivia does not tell by
which character it was written.) -/
inductive Trivia.Writes : Trivia → List Char → Prop
  | line {s e a b c} : c = '\r' ∨ c = '\n' → Writes (.newline s e a b) [c]
  | other {x} : x.isNewline = false → Writes x x.text

/-- `TextFrom b p ps w`: the text `w` that starts at position `p` is the pieces `ps` written one directly
after the other, each exactly where it says it is, and nothing else but blanks at the start of a
line; `b` says whether `p` is at the start of a line. -/
inductive TextFrom : Bool → Nat → List (Trivia ⊕ Token) → List Char → Prop
  | nil {b p} : TextFrom b p [] []
  | blank {p ps c w} : c = ' ' ∨ c = '\t' → TextFrom true (p + 1) ps w → TextFrom true p ps (c :: w)
  | trivia {b p x ps u w} : x.Writes u → x.span = (p, p + u.length) →
      TextFrom x.isNewline (p + u.length) ps w → TextFrom b p (.inl x :: ps) (u ++ w)
  | layout {b p t ps w} : t.kind = .Indent ∨ t.kind = .Dedent → TextFrom false p ps w →
      TextFrom b p (.inr t :: ps) w
  | token {b p t ps u w} : Spells t u → t.span? = some (p, p + u.length) →
      TextFrom (t.kind == .Newline) (p + u.length) ps w → TextFrom b p (.inr t :: ps) (u ++ w)

end Verif
