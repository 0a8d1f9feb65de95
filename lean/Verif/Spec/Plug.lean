import Verif.Spec.Erase

/-!
# A tree in which a number is replaced
-/

namespace Verif

/-- The fields of the leaf of the token `x`. -/
def isLeaf (x : Token) : List Tree → Bool
  | [.tok t] => t == x
  | _ => false

mutual
/-- `t.plug x r`: the tree `t` without positions and trivia, with `r` in the place of the leaf of the number `x`.  (Tokens of
one text are told apart by their positions.) -/
def Tree.plug (t : Tree) (x : Token) (r : Tree) : Tree :=
  match t with
  | .tok t => .tok t.bare
  | .none => .none
  | .seq l => .seq (plugList l x r)
  | .node tag _ _ l => if tag = .AtomNumber ∧ isLeaf x l = true then r else .node tag 0 0 (plugList l x r)
def plugList (l : List Tree) (x : Token) (r : Tree) : List Tree :=
  match l with
  | [] => []
  | t :: l => t.plug x r :: plugList l x r
end

end Verif
