import Verif.Model.Tree

/-!
# The size of a tree
-/

namespace Verif

mutual
/-- The number of parts of a tree: nodes, tokens, `None`s and `Vec`s all count. -/
def Tree.size : Tree → Nat
  | .tok _ => 1
  | .none => 1
  | .seq l => 1 + sizeList l
  | .node _ _ _ l => 1 + sizeList l
def sizeList : List Tree → Nat
  | [] => 0
  | x :: l => x.size + sizeList l
end

/-- The number of symbols in a list, those for the end of the text not counted. -/
def solid (ts : List Token) : Nat := ts.countP (fun t => t.kind != .EOF)

end Verif
