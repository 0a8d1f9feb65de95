import Verif.Model.Run

/-!
# Outcomes of concrete runs

Used to exhibit concrete parses: equality of trees is decidable, and `Res.tree?` is the tree of a
successful run.
-/

namespace Verif

mutual
/-- Equality of trees. -/
def Tree.same : Tree → Tree → Bool
  | .tok a, .tok b => a = b
  | .none, .none => true
  | .seq a, .seq b => sameList a b
  | .node t s e a, .node t' s' e' b => t = t' && s = s' && e = e' && sameList a b
  | _, _ => false
def sameList : List Tree → List Tree → Bool
  | [], [] => true
  | x :: a, y :: b => x.same y && sameList a b
  | _, _ => false
end

mutual
theorem Tree.same_iff : ∀ a b : Tree, a.same b = true ↔ a = b
  | .tok a, b => by cases b <;> simp [Tree.same]
  | .none, b => by cases b <;> simp [Tree.same]
  | .seq a, b => by cases b <;> simp [Tree.same, sameList_iff a]
  | .node t s e a, b => by cases b <;> simp [Tree.same, sameList_iff a, and_assoc]
theorem sameList_iff : ∀ a b : List Tree, sameList a b = true ↔ a = b
  | [], b => by cases b <;> simp [sameList]
  | x :: a, b => by cases b <;> simp [sameList, Tree.same_iff x, sameList_iff a]
end

instance : DecidableEq Tree := fun a b => decidable_of_iff _ (Tree.same_iff a b)

/-- The tree of a successful run. -/
def Res.tree? : Res Tree → Option Tree
  | .ok t _ => some t
  | _ => none

/-- The state after a successful run. -/
def Res.state? : Res Tree → Option PSt
  | .ok _ c => some c
  | _ => none

/-- Reported as a syntax error? -/
def Res.isErr {α} : Res α → Bool
  | .err _ _ => true
  | _ => false

theorem Res.of_tree? {r : Res Tree} {t} (h : r.tree? = some t) : ∃ c, r = .ok t c := by
  cases r <;> simp_all [Res.tree?]

theorem Res.of_isErr {α} {r : Res α} (h : r.isErr = true) : ∃ p m, r = .err p m := by
  cases r <;> simp_all [Res.isErr]

/-- To show that a concrete run succeeds with a tree that satisfies `P`, evaluate it. -/
theorem Res.shows {r : Res Tree} {P : Tree → Prop} [DecidablePred P]
    (h : (match r.tree? with | some t => decide (P t) | none => false) = true) : ∃ t c, r = .ok t c ∧ P t := by
  cases r <;> simp_all [Res.tree?]

/-- Field `i` of a node, element `i` of a list. -/
def Tree.field (i : Nat) : Tree → Tree
  | .node _ _ _ l | .seq l => l.getD i .none
  | _ => .none

/-- The parser just after `new` and one `advance`, as before a direct call of a parse function. -/
def started [Uni] (src : List Char) : PSt := (PSt.new (Lexer.new src)).advance

end Verif
