import Verif.Model.Run
import Verif.Spec.Lexemes
import Verif.Spec.Stream

/-!
# A file put together from pieces
-/

namespace Verif

/-- A piece of a file: a text that ends with a line feed (not after a carriage return), has no NUL character, and
starts with a symbol at the left margin: not with a blank, an empty line, a comment or a backslash. -/
def Piece (w : List Char) : Prop :=
  (∃ a, w = a ++ ['\n'] ∧ a.getLast? ≠ some '\r') ∧ '\x00' ∉ w ∧ ∃ c r, w = c :: r ∧ c ∉ cs! " \t\r\n#\\"

/-- The tokenizer reads the text without an error, every bracket and every block is closed at the end of the text, and the
last symbol is the end of a line or of a block. -/
def Closed [Uni] (w : List Char) : Prop :=
  ∃ ts e l, Tokens (Lexer.new w) (ts ++ [e]) l ∧ e.kind = .EOF ∧ (∀ t ∈ ts, t.kind ≠ .EOF) ∧
    (∀ t, ts.getLast? = some t → t.kind = .Newline ∨ t.kind = .Dedent) ∧ brRun [] ts = some [] ∧
    ts.countP (fun t => t.kind == .Indent) = ts.countP (fun t => t.kind == .Dedent)

/-- The first symbol of the text is none of those that go on with a statement after a block. -/
def StartsStatement [Uni] (w : List Char) : Prop :=
  ∃ t l, getSymbol (Lexer.new w) = .ok t l ∧ t.kind ∉ [Kind.PyElif, .PyElse, .PyExcept, .PyFinally]

end Verif
