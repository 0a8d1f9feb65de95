import Verif.Spec.LexGrammar
import Verif.Spec.Stream

/-!
# Gaps between symbols
-/

namespace Verif

/-- A symbol with a text of its own, other than a type comment (which reaches up to the end of the line). -/
def Solid (t : Token) : Prop := t.kind ∉ [Kind.Newline, .Indent, .Dedent, .EOF, .TypeComment]

/-- `GapBefore inside g b`: in front of the text `b`, `g` is skipped: it consists of blanks, comments (the last of which may
end where `b` begins with a line end), continuations of the line, and, if `inside` brackets, line ends. -/
def GapBefore (inside : Bool) (g b : List Char) : Prop := LG.Skips inside (g ++ b) b

end Verif
