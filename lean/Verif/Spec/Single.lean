import Verif.Model.Parser

/-!
# Vocabulary for the interactive entry point
-/

namespace Verif

/-- The tokens that a compound statement starts with: `if`, `while`, `for`, `try`, `with`, `def`, `class`,
`async` and the `@` of a decorator. -/
def Kind.opensCompound : Kind → Bool
  | .PyIf | .PyWhile | .PyFor | .PyTry | .PyWith | .PyDef | .PyClass | .PyAsync | .PyMatrice => true
  | _ => false

/-- A simple statement line whose last symbol is `nl`. -/
def Tree.IsLine (nl : Token) (y : Tree) : Prop :=
  ∃ s e stmts seps, y = .node .SimpleStmtList s e [stmts, seps, .tok nl]

end Verif
