import Verif.Model.Run
import Verif.Spec.Stream

/-!
# Which calls a parse function makes

Vocabulary for termination and panics: the states a parser can be in, and the calls made during the execution of a
parse function.
-/

namespace Verif

/-- States of a parser created on the text `src`: `advance` has been called any number of times, and the
`except` status has been changed in any way.  (All states that occur during any sequence of calls of parse
functions are among these, see `PReach.run`.) -/
inductive PReach [Uni] (src : List Char) : PSt → Prop
  | new : PReach src (PSt.new (Lexer.new src))
  | adv {c} : PReach src c → PReach src c.advance
  | exc {c} (x) : PReach src c → PReach src { c with exc := x }

/-- `Makes p c g d`: executing the body `p` from the state `c`, the parse function `g` is called in the state `d`. -/
inductive Makes [Uni] {α : Type} : Prog α → PSt → Fn → PSt → Prop
  | here {f k c} : Makes (.call f k) c f c
  /-- … after an earlier call returned a tree -/
  | later {f k c n t c1 g d} : run n f c = .ok t c1 → Makes (k t) c1 g d → Makes (.call f k) c g d
  | getPos {k c g d} : Makes (k c.lex.tokStart) c g d → Makes (.getPos k) c g d
  | sym {k e c t g d} : c.symbol = .ok t → Makes (k t) c g d → Makes (.sym k e) c g d
  | noSym {k e c x g d} : c.symbol = .error x → Makes e c g d → Makes (.sym k e) c g d
  | adv {k c g d} : Makes k c.advance g d → Makes (.adv k) c g d
  | getExc {k c g d} : Makes (k c.exc) c g d → Makes (.getExc k) c g d
  | setExc {x k c g d} : Makes k { c with exc := x } g d → Makes (.setExc x k) c g d

/-- `Calls f c g d`: during the execution of `f` from the state `c`, `g` is called in the state `d`, directly or by a
function called by `f`, and so on (or it is `f` itself). -/
inductive Calls [Uni] : Fn → PSt → Fn → PSt → Prop
  | self {f c} : Calls f c f c
  | step {f c g d h e} : Makes (body f) c g d → Calls g d h e → Calls f c h e

/-- The input functions: they start by calling `advance`, and no other parse function calls them. -/
def inputFns : List Fn := [.evalInput, .fileInput, .singleInput, .funcTypeInput]

end Verif
