import Verif.Spec.View

/-!
# Positions in trees
-/

namespace Verif

mutual
/-- All positions stored in the nodes of a tree satisfy `Q`. -/
def Tree.AllPos (Q : Nat → Prop) : Tree → Prop
  | .tok _ => True
  | .none => True
  | .seq l => allPosList Q l
  | .node _ s e l => Q s ∧ Q e ∧ allPosList Q l
def allPosList (Q : Nat → Prop) : List Tree → Prop
  | [] => True
  | t :: l => t.AllPos Q ∧ allPosList Q l
end

/-- The state in which a body stops, whether it succeeds or fails.  `recS` gives the state in which a call stops. -/
def Prog.stop [Uni] {α : Type} (rec : Fn → PSt → Res Tree) (recS : Fn → PSt → PSt) : Prog α → PSt → PSt
  | .ret _, st => st
  | .fail _ _, st => st
  | .panic, st => st
  | .getPos k, st => (k st.lex.tokStart).stop rec recS st
  | .sym k e, st =>
    match st.symbol with
    | .ok t => (k t).stop rec recS st
    | .error _ => e.stop rec recS st
  | .adv k, st => k.stop rec recS st.advance
  | .call f k, st =>
    match rec f st with
    | .ok t st' => (k t).stop rec recS st'
    | _ => recS f st
  | .getExc k, st => (k st.exc).stop rec recS st
  | .setExc x k, st => k.stop rec recS { st with exc := x }

/-- The state in which a parse function stops, whether it succeeds or fails. -/
def runStop [Uni] : Nat → Fn → PSt → PSt
  | 0, _, st => st
  | n + 1, f, st => (body f).stop (run n) (runStop n) st

end Verif
