import Verif.Spec.BlankLines
import Verif.Spec.Stream

/-!
# Texts moved to the right
-/

namespace Verif

/-- `k` blanks after every line end that is not the last character. -/
def indentRest (k : Nat) : List Char → List Char
  | [] => []
  | c :: cs => if c = '\n' ∧ cs ≠ [] then '\n' :: (List.replicate k ' ' ++ indentRest k cs) else c :: indentRest k cs

/-- `k` blanks in front of every line. -/
def indentLines (k : Nat) (cs : List Char) : List Char := if cs = [] then [] else List.replicate k ' ' ++ indentRest k cs

/-- The lines of a text that can be the body of a block: it starts with a symbol at the left margin; it has no carriage
return and no NUL character; its last character is a line end that the tokenizer reports (so its last line is not blank and
not a comment); no number goes over the end of a line (which the tokenizer allows after `0`); and there is no `try` in it. -/
def BodyText [Uni] (w : List Char) : Prop :=
  (∃ c r, w = c :: r ∧ c ∉ cs! " \t\r\n#\\") ∧ '\r' ∉ w ∧ '\x00' ∉ w ∧
    ∃ ts n l, Tokens (Lexer.new w) (ts ++ [n]) l ∧ n.kind = .Newline ∧ l.buf.index = w.length ∧
      (∀ s e tr txt, Token.number s e tr txt ∈ ts → '\n' ∉ txt) ∧ ∀ t ∈ ts, t.kind ≠ .PyTry

end Verif
