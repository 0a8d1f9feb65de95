import Verif.Spec.FileTree
import Verif.Spec.Erase

/-!
# Programs that are put together from pieces
-/

namespace Verif

/-- One piece after the other, each with a line end behind it. -/
def assemble (ps : List (List Char)) : List Char := ps.flatMap (· ++ ['\n'])

/-- A piece starts with a symbol at the left margin, has no NUL character and does not end with a carriage return. -/
def IsPiece (p : List Char) : Prop := (∃ x r, p = x :: r ∧ x ∉ cs! " \t\r\n#\\") ∧ '\x00' ∉ p ∧ p.getLast? ≠ some '\r'

/-- The statements of a file without positions and trivia. -/
def bareStatements (t : Tree) : List Tree := (fileStatements t).map (Tree.erase Token.bare)

end Verif
