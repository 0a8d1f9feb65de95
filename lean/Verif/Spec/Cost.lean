import Verif.Model.Run

/-!
# Counting the steps of a parse

`runC` is `run` with a counter: it also returns how many parse functions were called (loop iterations count as calls) and
how many times `advance` was called, that is, how many tokens were asked for.
-/

namespace Verif

/-- `Prog.exec` with a counter. -/
def Prog.execC [Uni] {α : Type} (rec : Fn → PSt → Res Tree × Nat) : Prog α → PSt → Res α × Nat
  | .ret a, st => (.ok a st, 0)
  | .fail p m, _ => (.err p m, 0)
  | .panic, _ => (.panic, 0)
  | .getPos k, st => (k st.lex.tokStart).execC rec st
  | .sym k e, st =>
    match st.symbol with
    | .ok t => (k t).execC rec st
    | .error _ => e.execC rec st
  | .adv k, st => ((k.execC rec st.advance).1, (k.execC rec st.advance).2 + 1)
  | .call f k, st =>
    match (rec f st).1 with
    | .ok t st' => (((k t).execC rec st').1, (rec f st).2 + 1 + ((k t).execC rec st').2)
    | .err p m => (.err p m, (rec f st).2 + 1)
    | .panic => (.panic, (rec f st).2 + 1)
    | .diverge => (.diverge, (rec f st).2 + 1)
  | .getExc k, st => (k st.exc).execC rec st
  | .setExc x k, st => k.execC rec { st with exc := x }

/-- `run` with a counter: the outcome, and the number of calls of parse functions and of `advance`. -/
def runC [Uni] : Nat → Fn → PSt → Res Tree × Nat
  | 0, _, _ => (.diverge, 0)
  | n + 1, f, st => (body f).execC (runC n) st

theorem execC_fst [Uni] {α : Type} {rec : Fn → PSt → Res Tree × Nat} {rec' : Fn → PSt → Res Tree}
    (h : ∀ f c, (rec f c).1 = rec' f c) (p : Prog α) (c : PSt) : (p.execC rec c).1 = p.exec rec' c := by
  induction p generalizing c with
  | ret | fail | panic => rfl
  | getPos k ih | getExc k ih => exact ih _ _
  | sym k e ih1 ih2 =>
    simp only [Prog.execC, Prog.exec]
    cases c.symbol with
    | ok t => exact ih1 _ _
    | error x => exact ih2 _
  | adv k ih => exact ih _
  | setExc x k ih => exact ih _
  | call f k ih =>
    simp only [Prog.execC, Prog.exec, ← h]
    cases (rec f c).1 with
    | ok t d => exact ih _ _
    | _ => rfl

/-- The counter changes nothing else. -/
theorem runC_fst [Uni] (n : Nat) (f : Fn) (c : PSt) : (runC n f c).1 = run n f c := by
  induction n generalizing f c with
  | zero => rfl
  | succ n ih => exact execC_fst ih _ _

end Verif
