import Verif.Spec.Shift
import Verif.Model.Tree

/-!
# Trees moved by a distance
-/

namespace Verif

mutual
/-- The tree with `d` added to every position in it: those of the nodes, of the tokens and of the trivia. -/
def Tree.mv (d : Nat) : Tree → Tree
  | .tok t => .tok (t.shift d)
  | .none => .none
  | .seq l => .seq (mvList d l)
  | .node g s e l => .node g (s + d) (e + d) (mvList d l)
def mvList (d : Nat) : List Tree → List Tree
  | [] => []
  | t :: l => t.mv d :: mvList d l
end

end Verif
