import Verif.Spec.Erase

/-!
# A tree in which the body of a block is replaced
-/

namespace Verif

/-- The fields of the node of a block, with `xs` as the list of its statements. -/
def withBody (xs : List Tree) : List Tree → List Tree
  | [] => []
  | .seq _ :: l => .seq xs :: withBody xs l
  | t :: l => t :: withBody xs l

/-- Is this the node of the block that starts with the line end `nl`? -/
def isBlock (nl : Token) (tag : Tag) (l : List Tree) : Bool :=
  (tag == .SuiteStmt || tag == .FuncBodySuite) && match l with
    | .tok t :: _ => t == nl
    | _ => false

mutual
/-- `t.graft nl xs`: the tree `t` without positions and trivia, with the statements `xs` in the block that starts with the
line end `nl`.  (Tokens of one text are told apart by their positions.) -/
def Tree.graft (t : Tree) (nl : Token) (xs : List Tree) : Tree :=
  match t with
  | .tok t => .tok t.bare
  | .none => .none
  | .seq l => .seq (graftList l nl xs)
  | .node tag _ _ l => .node tag 0 0 (if isBlock nl tag l = true then withBody xs (graftList l nl xs) else graftList l nl xs)
def graftList (l : List Tree) (nl : Token) (xs : List Tree) : List Tree :=
  match l with
  | [] => []
  | t :: l => t.graft nl xs :: graftList l nl xs
end

end Verif
