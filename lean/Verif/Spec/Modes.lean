import Verif.Model.Tree

/-!
# One expression, read in two ways
-/

namespace Verif

/-- The tree of an expression that is read by itself, and the tree of the same expression as a statement: they are the
same, except that a list of expressions without brackets has another name and is stored last one first. -/
inductive AsStatement : Tree → Tree → Prop
  | same (x : Tree) : AsStatement x x
  | list (s e : Nat) (xs : List Tree) (seps : List Token) :
      AsStatement (.node .TestList s e [.seq xs, .toks seps]) (.node .TestListStarExpr s e [.seq xs.reverse, .toks seps.reverse])

end Verif
