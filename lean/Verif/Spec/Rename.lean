import Verif.Spec.Lexemes
import Verif.Spec.Erase

/-!
# Renaming
-/

namespace Verif

/-- A name: a letter or underscore, then letters, digits and underscores; no keyword. -/
def IsName [Uni] (n : List Char) : Prop :=
  (∃ c r, n = c :: r ∧ isNameStart c = true) ∧ (∀ c ∈ n, isNameChar c = true) ∧ ∀ k, (n, k) ∉ pyKeywords

/-- Kind and text of a token; the names `n` and `n'` are not told apart. -/
def Token.renamed (n n' : List Char) (t : Token) : Token :=
  match t.bare with
  | .name s e tr txt => .name s e tr (if txt = n' then n else txt)
  | u => u

end Verif
