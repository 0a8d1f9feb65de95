import Verif.Spec.View

/-!
# Trees without positions

`Tree.erase e` removes all positions from a tree and applies `e` to its tokens.  With `e = Token.bare`, which keeps the
kind and the text of a token, what is left is everything that does not depend on the layout of the text; with
`e = Token.form` (`Props/Layout.lean`), which keeps only the kind,
it is the form of the tree.
-/

namespace Verif

mutual
/-- The tree with all positions set to 0 and all tokens replaced by their image under `e`. -/
def Tree.erase (e : Token → Token) : Tree → Tree
  | .tok t => .tok (e t)
  | .none => .none
  | .seq l => .seq (eraseList e l)
  | .node tag _ _ l => .node tag 0 0 (eraseList e l)
def eraseList (e : Token → Token) : List Tree → List Tree
  | [] => []
  | t :: l => t.erase e :: eraseList e l
end

/-- Kind and text of a token: no position, no trivia. -/
def Token.bare : Token → Token
  | .sym k _ _ _ => .sym k 0 0 none
  | .name _ _ _ txt => .name 0 0 none txt
  | .number _ _ _ txt => .number 0 0 none txt
  | .string _ _ _ txt pfx => .string 0 0 none txt pfx
  | .newline .. => .newline 0 0 none ' ' ' '
  | .indent _ => .indent none
  | .dedent _ => .dedent none
  | .typeComment _ _ _ txt => .typeComment 0 0 none txt
  | .eof .. => .eof 0 none

/-- The same symbol up to `e` (any two errors count as the same). -/
def SymLike (e : Token → Token) (c d : PSt) : Prop :=
  match c.symbol, d.symbol with
  | .ok t, .ok u => e t = e u
  | .error _, .error _ => True
  | _, _ => False

/-- Two parsers that see the same symbols up to `e`, now and after any number of calls of `advance`, and have the same
`except` status. -/
def ViewLike [Uni] (e : Token → Token) (c d : PSt) : Prop :=
  c.exc = d.exc ∧ ∀ i, SymLike e (c.ahead i) (d.ahead i)

/-- The same outcome up to positions and `e`: trees that are equal after `erase`, the same error message, a panic, or
a cut-off in both. -/
def ResLike (e : Token → Token) : Res Tree → Res Tree → Prop
  | .ok t _, .ok u _ => t.erase e = u.erase e
  | .err _ m, .err _ m' => m = m'
  | .panic, .panic => True
  | .diverge, .diverge => True
  | _, _ => False

end Verif
