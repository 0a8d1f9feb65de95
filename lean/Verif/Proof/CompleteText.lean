import Verif.Proof.CompleteAtom
import Verif.Props.Program
import Verif.Spec.Outcome

/-!
# From texts to words the parser is fed
-/

namespace Verif

/-- Bracket matching on kinds. -/
def brKinds : List Char → List Kind → Option (List Char)
  | st, [] => some st
  | st, k :: ks => match brStep st k with
    | some st' => brKinds st' ks
    | none => none

theorem brRun_brKinds (st : List Char) (ts : List Token) : brRun st ts = brKinds st (ts.map Token.kind) := by
  induction ts generalizing st with
  | nil => rfl
  | cons t ts ih =>
    simp only [brRun, List.map_cons, brKinds]
    cases brStep st t.kind with
    | none => rfl
    | some st' => exact ih st'

theorem brKinds_append (st : List Char) (a b : List Kind) :
    brKinds st (a ++ b) = (brKinds st a).bind fun st' => brKinds st' b := by
  induction a generalizing st with
  | nil => rfl
  | cons k a ih =>
    simp only [List.cons_append, brKinds]
    cases brStep st k with
    | none => rfl
    | some st' => exact ih st'

theorem Lexeme.token_leaf (x : Lexeme) (s : Nat) (tr : Trivs) : (x.token s tr).leaf = x.leaf := by
  cases x <;> rfl

theorem spacedTokens_leaf (xs : List Lexeme) : ∀ p tr, (spacedTokens p tr xs).map Token.leaf = xs.map Lexeme.leaf := by
  induction xs with
  | nil => intro p tr; rfl
  | cons x xs ih => intro p tr; simp only [spacedTokens, List.map_cons, Lexeme.token_leaf, ih]

theorem spacedTokens_kind (xs : List Lexeme) (p : Nat) (tr : Trivs) :
    (spacedTokens p tr xs).map Token.kind = xs.map fun x => x.leaf.kind := by
  have := congrArg (List.map Leaf.kind) (spacedTokens_leaf xs p tr)
  simpa only [List.map_map, Function.comp_def, Token.leaf_kind] using this

/-- The brackets of these words match. -/
def BrOk (xs : List Lexeme) : Prop := ∀ st, brKinds st (xs.map fun x => x.leaf.kind) = some st

theorem BrOk.nil : BrOk [] := fun _ => rfl

theorem BrOk.append {xs ys : List Lexeme} (h1 : BrOk xs) (h2 : BrOk ys) : BrOk (xs ++ ys) := by
  intro st
  rw [List.map_append, brKinds_append, h1 st]
  exact h2 st

theorem BrOk.cons {x : Lexeme} {ys : List Lexeme} (h1 : ∀ st, brStep st x.leaf.kind = some st) (h2 : BrOk ys) : BrOk (x :: ys) := by
  intro st
  rw [List.map_cons, brKinds, h1 st]
  exact h2 st

theorem BrOk.wrap {x y : Lexeme} {ys : List Lexeme} {q : Char} (h1 : ∀ st, brStep st x.leaf.kind = some (q :: st))
    (h3 : ∀ st, brStep (q :: st) y.leaf.kind = some st) (h2 : BrOk ys) : BrOk (x :: (ys ++ [y])) := by
  intro st
  simp only [List.map_cons, brKinds, h1 st, List.map_append, brKinds_append, h2 (q :: st), Option.bind_some, h3 st, List.map_nil]

mutual
theorem brOk_ex : (e : Ex) → BrOk e.words
  | .name _ => by rw [Ex.words]; exact .cons (fun _ => rfl) .nil
  | .num _ => by rw [Ex.words]; exact .cons (fun _ => rfl) .nil
  | .strs l => by
    rw [Ex.words]
    induction l with
    | nil => exact .nil
    | cons x l ih => exact .cons (fun _ => rfl) ih
  | .const k => by rw [Ex.words]; exact .cons (fun _ => by cases k <;> rfl) .nil
  | .tuple es => by rw [Ex.words]; exact .wrap (q := ')') (fun _ => rfl) (fun _ => rfl) (brOk_list es)
  | .list es => by rw [Ex.words]; exact .wrap (q := ']') (fun _ => rfl) (fun _ => rfl) (brOk_list es)
  | .set es => by rw [Ex.words]; exact .wrap (q := '}') (fun _ => rfl) (fun _ => rfl) (brOk_list es)
  | .dict1 k v => by
    have h := BrOk.wrap (x := .op (cs! "{") .PyLeftCurly) (y := .op (cs! "}") .PyRightCurly) (q := '}') (fun _ => rfl) (fun _ => rfl)
      ((brOk_ex k).append (.cons (x := .op (cs! ":") .PyColon) (fun _ => rfl) (brOk_ex v)))
    rw [Ex.words]
    simpa only [List.append_assoc, List.cons_append] using h
  | .dict2 k v k' v' => by
    have h := BrOk.wrap (x := .op (cs! "{") .PyLeftCurly) (y := .op (cs! "}") .PyRightCurly) (q := '}') (fun _ => rfl) (fun _ => rfl)
      ((brOk_ex k).append (.cons (x := .op (cs! ":") .PyColon) (fun _ => rfl) ((brOk_ex v).append
        (.cons (x := .op (cs! ",") .PyComa) (fun _ => rfl)
      ((brOk_ex k').append (.cons (x := .op (cs! ":") .PyColon) (fun _ => rfl) (brOk_ex v')))))))
    rw [Ex.words]
    simpa only [List.append_assoc, List.cons_append] using h
  | .attr e _ => by
    rw [Ex.words]
    exact (brOk_ex e).append (.cons (fun _ => rfl) (.cons (fun _ => rfl) .nil))
  | .call e es => by
    rw [Ex.words]
    exact (brOk_ex e).append (.wrap (q := ')') (fun _ => rfl) (fun _ => rfl) (brOk_list es))
  | .index e es => by
    rw [Ex.words]
    exact (brOk_ex e).append (.wrap (q := ']') (fun _ => rfl) (fun _ => rfl) (brOk_list es))
  | .await e => by rw [Ex.words]; exact .cons (fun _ => rfl) (brOk_ex e)
  | .pow a b => by rw [Ex.words]; exact (brOk_ex a).append (.cons (fun _ => rfl) (brOk_ex b))
  | .un op e => by rw [Ex.words]; exact .cons (fun _ => by cases op <;> rfl) (brOk_ex e)
  | .bin op a b => by rw [Ex.words]; exact (brOk_ex a).append (.cons (fun _ => by cases op <;> rfl) (brOk_ex b))
  | .cmp op a b => by
    rw [Ex.words]
    refine (brOk_ex a).append (.append ?_ (brOk_ex b))
    intro st
    cases op <;> rfl
  | .not e => by rw [Ex.words]; exact .cons (fun _ => rfl) (brOk_ex e)
  | .cond a c b => by
    rw [Ex.words]
    exact (brOk_ex a).append (.cons (fun _ => rfl) ((brOk_ex c).append (.cons (fun _ => rfl) (brOk_ex b))))
  | .lam e => by rw [Ex.words]; exact .cons (fun _ => rfl) (.cons (fun _ => rfl) (brOk_ex e))
  | .named a b => by rw [Ex.words]; exact (brOk_ex a).append (.cons (fun _ => rfl) (brOk_ex b))
  | .star e => by rw [Ex.words]; exact .cons (fun _ => rfl) (brOk_ex e)
  | .slice a b c => by
    rw [Ex.words]
    exact (brOk_ex a).append (.cons (fun _ => rfl) ((brOk_ex b).append (.cons (fun _ => rfl) (brOk_ex c))))
theorem brOk_list : (es : List Ex) → BrOk (wordsList es)
  | [] => .nil
  | [e] => by rw [wordsList]; exact brOk_ex e
  | e :: e' :: es => by
    rw [wordsList]
    exact (brOk_ex e).append (.cons (fun _ => rfl) (brOk_list (e' :: es)))
end

section
variable [Uni]

/-- A parser whose tokenizer returns these tokens next is fed them. -/
theorem fed_tokens {ts : List Token} {u : Token} {rest : List Token} {l' : Lexer} :
    ∀ {xs : List Lexeme} {c : PSt}, ts.map Token.leaf = xs.map Lexeme.leaf → Tokens c.lex (ts ++ u :: rest) l' →
      ∃ c', Fed c.advance xs c' ∧ c'.symbol = .ok u ∧ c'.exc = c.exc ∧ Tokens c'.lex rest l' := by
  induction ts with
  | nil =>
    intro xs c hx h
    cases xs with
    | cons x xs => cases hx
    | nil =>
      cases h with
      | cons h1 h2 => exact ⟨_, .nil, by simp only [PSt.advance, h1], by simp only [PSt.advance, h1], by simp only [PSt.advance, h1]; exact h2⟩
  | cons t ts ih =>
    intro xs c hx h
    cases xs with
    | nil => cases hx
    | cons x xs =>
      simp only [List.map_cons, List.cons.injEq] at hx
      rw [List.cons_append] at h
      cases h with
      | cons h1 h2 =>
        have hs : c.advance.symbol = .ok t := by simp only [PSt.advance, h1]
        obtain ⟨c', e1, e2, e3, e4⟩ := ih (xs := xs) (c := c.advance) hx.2 (by simp only [PSt.advance, h1]; exact h2)
        exact ⟨c', .cons hs hx.1 e1, e2, by rw [e3]; simp only [PSt.advance, h1], e4⟩

omit [Uni] in
theorem words_ne {e : Ex} (hw : e.Wf) : e.words ≠ [] := by
  obtain ⟨x, r, m, h, _⟩ := first_word e hw
  rw [h]; simp

/-- The text of an expression, read by a new parser. -/
theorem fed_text {e : Ex} (hw : e.Wf) (hok : ∀ x ∈ e.words, x.Ok) :
    ∃ c' : PSt, Fed (started (spacedText e.words)) e.words c' ∧
      c'.symbol = .ok (.eof (spacedText e.words).length none) := by
  obtain ⟨l, h⟩ := C19_spaced_lexemes e.words [] (words_ne hw) hok
    (by rw [brRun_brKinds, spacedTokens_kind]; exact brOk_ex e [])
  obtain ⟨c', h1, h2, _⟩ := fed_tokens (c := PSt.new (Lexer.new (spacedText e.words))) (spacedTokens_leaf _ _ _) h
  exact ⟨c', h1, h2⟩

end
end Verif
