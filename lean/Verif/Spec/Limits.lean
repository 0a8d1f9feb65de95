import Verif.Spec.Ast

/-!
# Vocabulary for the constructs that the parser accepts only in part
-/

namespace Verif

/-- The rules of the precedence levels, from the atom to the named expression. -/
def exprFns : List Fn := [.atom, .atomExpr, .power, .factor, .term, .arith, .shift, .andExpr, .xorExpr, .expr, .comparison, .notTest,
  .andTest, .orTest, .test, .namedExpression]

/-- A list of elements and separators that ends in a comma or in a starred element. -/
def EndsOpen (nodes : List Tree) (seps : List Token) : Prop :=
  seps.length = nodes.length ∨ ∃ x, nodes.getLast? = some x ∧ x.tag? = some .StarExpr

/-- A loop target that is a starred element (`*x`), or a list that ends in a comma (`x,` or `x, y,`) or in a starred element
(`x, *y`).  A plain name, an attribute, an index, a tuple in brackets and a list such as `x, y` are not. -/
def OpenTarget (t : Tree) : Prop :=
  t.tag? = some .StarExpr ∨ ∃ s e ns ss, t = .node .ExprList s e [.seq ns, .toks ss] ∧ EndsOpen ns ss

/-- An optional expression of level at most 15, as in `a[i:j:k]`. -/
def OptWf : Option Ex → Prop
  | none => True
  | some e => e.Wf ∧ e.level ≤ 15

/-- Its words. -/
def optWords : Option Ex → List Lexeme
  | none => []
  | some e => e.words

/-- Its tree. -/
def optSk : Option Ex → Sk
  | none => .none
  | some e => e.sk

/-! ### Concrete states, for the examples -/

/-- The kind of the current symbol. -/
def PSt.kind? (c : PSt) : Option Kind :=
  match c.symbol with
  | .ok t => some t.kind
  | .error _ => none

/-- The state after these words, if they are the next tokens. -/
def feeds [Uni] (c : PSt) : List Lexeme → Option PSt
  | [] => some c
  | x :: xs =>
    match c.symbol with
    | .ok t => if t.leaf = x.leaf then feeds c.advance xs else none
    | .error _ => none

theorem PSt.of_kind? {c : PSt} {k : Kind} (h : c.kind? = some k) : ∃ u, c.symbol = .ok u ∧ u.kind = k := by
  unfold PSt.kind? at h
  split at h
  · exact ⟨_, by assumption, by simpa using h⟩
  · cases h

theorem fed_of_feeds [Uni] {xs : List Lexeme} : ∀ {c d : PSt}, feeds c xs = some d → Fed c xs d := by
  induction xs with
  | nil => intro c d h; cases h; exact .nil
  | cons x xs ih =>
    intro c d h
    unfold feeds at h
    split at h
    · split at h
      · exact .cons (by assumption) (by assumption) (ih h)
      · cases h
    · cases h

/-- To show that these words are the next tokens and that the one after them has the kind `k`, run the tokenizer. -/
theorem fed_shows [Uni] {c : PSt} {xs : List Lexeme} {k : Kind}
    (h : (match feeds c xs with | some d => decide (d.kind? = some k) | none => false) = true) :
    ∃ d u, Fed c xs d ∧ d.symbol = .ok u ∧ u.kind = k := by
  split at h
  · rename_i d hd
    obtain ⟨u, hu, ku⟩ := PSt.of_kind? (by simpa using h)
    exact ⟨d, u, fed_of_feeds hd, hu, ku⟩
  · cases h

end Verif
