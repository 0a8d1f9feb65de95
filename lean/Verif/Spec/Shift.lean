import Verif.Spec.Gaps

/-!
# The same text at another position
-/

namespace Verif

/-- The trivia, `d` characters further on. -/
def Trivia.shift (d : Nat) : Trivia → Trivia
  | .whiteSpace s e c => .whiteSpace (s + d) (e + d) c
  | .newline s e c1 c2 => .newline (s + d) (e + d) c1 c2
  | .lineContinuation s e c1 c2 c3 => .lineContinuation (s + d) (e + d) c1 c2 c3
  | .comment s e txt => .comment (s + d) (e + d) txt

def Trivs.shift (d : Nat) (tr : Trivs) : Trivs := tr.map (List.map (Trivia.shift d))

/-- The token, `d` characters further on. -/
def Token.shift (d : Nat) : Token → Token
  | .sym k s e tr => .sym k (s + d) (e + d) (Trivs.shift d tr)
  | .name s e tr txt => .name (s + d) (e + d) (Trivs.shift d tr) txt
  | .number s e tr txt => .number (s + d) (e + d) (Trivs.shift d tr) txt
  | .string s e tr txt pfx => .string (s + d) (e + d) (Trivs.shift d tr) txt pfx
  | .newline s e tr c1 c2 => .newline (s + d) (e + d) (Trivs.shift d tr) c1 c2
  | .indent tr => .indent (Trivs.shift d tr)
  | .dedent tr => .dedent (Trivs.shift d tr)
  | .typeComment s e tr txt => .typeComment (s + d) (e + d) (Trivs.shift d tr) txt
  | .eof p tr => .eof (p + d) (Trivs.shift d tr)

/-- The error, reported `d` characters further on. -/
def LexErr.shift (d : Nat) : LexErr → LexErr
  | .fuel => .fuel
  | .notAdvanced => .notAdvanced
  | .inconsistentIndent => .inconsistentIndent
  | .badContinuation p => .badContinuation (p + d)
  | .mismatch p c => .mismatch (p + d) c
  | .badRadix p c => .badRadix (p + d) c
  | .underscoreAfterDot p => .underscoreAfterDot (p + d)
  | .badUnderscore p => .badUnderscore (p + d)
  | .leadingZero p => .leadingZero (p + d)
  | .moreData => .moreData
  | .unterminated p => .unterminated (p + d)
  | .lexical p c => .lexical (p + d) c

/-- Two tokenizers in the same situation: the text ahead of them, the open brackets, the open blocks,
the pending layout tokens and the line start flag agree; the second one stands `d` characters further
on in its text.  What lies behind them may differ. -/
structure SameAhead (d : Nat) (l l' : Lexer) : Prop where
  pos : l'.buf.index = l.buf.index + d
  rest : l'.buf.chars.drop l'.buf.index = l.buf.chars.drop l.buf.index
  parens : l'.parens = l.parens
  bol : l'.bol = l.bol
  tabSize : l'.tabSize = l.tabSize
  interactive : l'.interactive = l.interactive
  pending : l'.pending = l.pending
  indents : l'.indents = l.indents

end Verif
