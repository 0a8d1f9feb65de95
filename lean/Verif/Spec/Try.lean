import Verif.Model.Run

/-!
# Clauses of `try` statements
-/

namespace Verif

mutual
/-- Is there a `try` statement in the tree? -/
def Tree.hasTry : Tree → Bool
  | .tok _ | .none => false
  | .seq l => anyTry l
  | .node tag _ _ l => tag == .TryStmt || anyTry l
def anyTry : List Tree → Bool
  | [] => false
  | t :: l => t.hasTry || anyTry l
end

/-- Is this clause (`ExceptStmt` around an `ExceptClauseStmt`) written `except*`? -/
def Tree.starred : Tree → Bool
  | .node .ExceptStmt _ _ (.node .ExceptClauseStmt _ _ [_, .tok t, _] :: _) => t.kind == .PyMul
  | _ => false

/-- The `except` clauses of a `try` statement, in the order in which they were written. -/
def Tree.clauses : Tree → List Tree
  | .node .TryStmt _ _ [_, _, _, .seq l, _, _] => l.reverse
  | _ => []

end Verif
