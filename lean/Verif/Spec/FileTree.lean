import Verif.Model.Tree

/-!
# The statements of a file
-/

namespace Verif

/-- The statements of the tree of a file, in the order of the text (the tree stores the last one first). -/
def fileStatements : Tree → List Tree
  | .node .FileInput _ _ [.seq l, _, _] => l.reverse
  | _ => []

end Verif
