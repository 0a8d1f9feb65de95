import Verif.Model.Run
import Verif.Spec.Parse
import Verif.Spec.Stream

/-!
# Several calls of one parser
-/

namespace Verif

/-- `Session c ys c'`: successive calls for interactive input on one parser, starting in state `c`, return the trees `ys`
and leave the parser in state `c'`. -/
inductive Session [Uni] : PSt → List Tree → PSt → Prop
  | nil {c} : Session c [] c
  | cons {n c y c1 ys c2} : run n .singleInput c = .ok y c1 → Session c1 ys c2 → Session c (y :: ys) c2

/-- `Lines l ys l'`: from the state `l`, the tokenizer returns the symbols of the tree `y`, the last of which is a line end,
then the symbols of the next tree, and so on. -/
inductive Lines [Uni] : Lexer → List Tree → Lexer → Prop
  | nil {l} : Lines l [] l
  | cons {l ts nl l1 y ys l'} : Tokens l (ts ++ [nl]) l1 → nl.kind = .Newline → Reads [y] (ts ++ [nl]) → Lines l1 ys l' →
      Lines l (y :: ys) l'

/-- The same, but after the line end of each tree one further call of the tokenizer is made, and what it returns is in
none of the trees. -/
inductive LossyLines [Uni] : Lexer → List Tree → Lexer → Prop
  | nil {l} : LossyLines l [] l
  | cons {l ts nl l1 y ys l'} : Tokens l (ts ++ [nl]) l1 → nl.kind = .Newline → Reads [y] (ts ++ [nl]) →
      LossyLines (getSymbol l1).lexer ys l' → LossyLines l (y :: ys) l'

/-- The same outcome: the same tree and the same symbols to come, or the same error, or both panic. -/
def Res.Same : Res Tree → Res Tree → Prop
  | .ok t c, .ok u d => t = u ∧ c.lex = d.lex ∧ c.symbol = d.symbol
  | .err p m, .err q m' => p = q ∧ m = m'
  | .panic, .panic => True
  | .diverge, .diverge => True
  | _, _ => False

end Verif
