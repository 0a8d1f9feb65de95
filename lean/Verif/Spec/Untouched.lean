import Verif.Model.Run

/-!
# The part of a text that has not been read
-/

namespace Verif

/-- The tokenizer with another text. -/
abbrev Lexer.withText (l : Lexer) (cs : List Char) : Lexer := { l with buf := { l.buf with chars := cs } }

/-- The parser with another text. -/
def PSt.withText (c : PSt) (cs : List Char) : PSt := { c with lex := c.lex.withText cs }

/-- Two texts that have the same first `k` characters. -/
def SameStart (k : Nat) (a b : List Char) : Prop := a.take k = b.take k

/-- The same outcome on another text: the same tree, or the same error at the same place. -/
def Res.withText {α : Type} (cs : List Char) : Res α → Res α
  | .ok a c => .ok a (c.withText cs)
  | .err p m => .err p m
  | .panic => .panic
  | .diverge => .diverge

end Verif
