import Verif.Spec.Message
import Verif.Model.Run

/-!
# What the parse functions know when they report an error
-/

namespace Verif
open Prog

/-- The message is true of the current symbol, or is one of those that may be wrong. -/
def Told (m : String) (s : Except LexErr Token) : Prop := m ∈ misleadingMessages ∨ ∃ c, Says m c ∧ c.holds s

def OptHolds : Option Saying → Except LexErr Token → Prop
  | some c, s => c.holds s
  | none, _ => True

/-- Every message, and what it says. -/
class Tells (m : String) (c : outParam (Option Saying)) : Prop where
  told : ∀ s, OptHolds c s → Told m s

instance : Tells "Expecting '(' in functional type!" none := ⟨fun _ _ => .inl (by simp [misleadingMessages])⟩
instance : Tells "Expecting end of file in function input!" none := ⟨fun _ _ => .inl (by simp [misleadingMessages])⟩
instance : Tells "Expecting 'except*' except statement!" none := ⟨fun _ _ => .inl (by simp [misleadingMessages])⟩
instance : Tells "Expecting 'except' except statement!" none := ⟨fun _ _ => .inl (by simp [misleadingMessages])⟩
instance : Tells "Expecting dictionary/set in atom expression!" none := ⟨fun _ _ => .inl (by simp [misleadingMessages])⟩
instance : Tells "Expecting 'is' pr 'is not' in comparison expression!" (some .unreadable) := ⟨fun _ h => .inr ⟨_, .unreadable (List.mem_of_getElem? (i := 0) rfl), h⟩⟩
instance : Tells "Expecting Symbol in 'raise' statement!" (some .unreadable) := ⟨fun _ h => .inr ⟨_, .unreadable (List.mem_of_getElem? (i := 1) rfl), h⟩⟩
instance : Tells "Expecting symbol in 'assert' statement!" (some .unreadable) := ⟨fun _ h => .inr ⟨_, .unreadable (List.mem_of_getElem? (i := 2) rfl), h⟩⟩
instance : Tells "Expecting symbol in 'break' statement!" (some .unreadable) := ⟨fun _ h => .inr ⟨_, .unreadable (List.mem_of_getElem? (i := 3) rfl), h⟩⟩
instance : Tells "Expecting symbol in 'continue' statement!" (some .unreadable) := ⟨fun _ h => .inr ⟨_, .unreadable (List.mem_of_getElem? (i := 4) rfl), h⟩⟩
instance : Tells "Expecting symbol in 'del' statement!" (some .unreadable) := ⟨fun _ h => .inr ⟨_, .unreadable (List.mem_of_getElem? (i := 5) rfl), h⟩⟩
instance : Tells "Expecting symbol in 'global' statement!" (some .unreadable) := ⟨fun _ h => .inr ⟨_, .unreadable (List.mem_of_getElem? (i := 6) rfl), h⟩⟩
instance : Tells "Expecting symbol in 'import' or 'from' statement!" (some .unreadable) := ⟨fun _ h => .inr ⟨_, .unreadable (List.mem_of_getElem? (i := 7) rfl), h⟩⟩
instance : Tells "Expecting symbol in 'import' statement!" (some .unreadable) := ⟨fun _ h => .inr ⟨_, .unreadable (List.mem_of_getElem? (i := 8) rfl), h⟩⟩
instance : Tells "Expecting symbol in 'lambda' expression!" (some .unreadable) := ⟨fun _ h => .inr ⟨_, .unreadable (List.mem_of_getElem? (i := 9) rfl), h⟩⟩
instance : Tells "Expecting symbol in 'nonlocal' statement!" (some .unreadable) := ⟨fun _ h => .inr ⟨_, .unreadable (List.mem_of_getElem? (i := 10) rfl), h⟩⟩
instance : Tells "Expecting symbol in 'pass' statement!" (some .unreadable) := ⟨fun _ h => .inr ⟨_, .unreadable (List.mem_of_getElem? (i := 11) rfl), h⟩⟩
instance : Tells "Expecting symbol in 'return' statement!" (some .unreadable) := ⟨fun _ h => .inr ⟨_, .unreadable (List.mem_of_getElem? (i := 12) rfl), h⟩⟩
instance : Tells "Expecting symbol in and expression!" (some .unreadable) := ⟨fun _ h => .inr ⟨_, .unreadable (List.mem_of_getElem? (i := 13) rfl), h⟩⟩
instance : Tells "Expecting symbol in and test expression!" (some .unreadable) := ⟨fun _ h => .inr ⟨_, .unreadable (List.mem_of_getElem? (i := 14) rfl), h⟩⟩
instance : Tells "Expecting symbol in annotation assignment statement!" (some .unreadable) := ⟨fun _ h => .inr ⟨_, .unreadable (List.mem_of_getElem? (i := 15) rfl), h⟩⟩
instance : Tells "Expecting symbol in argument expression!" (some .unreadable) := ⟨fun _ h => .inr ⟨_, .unreadable (List.mem_of_getElem? (i := 16) rfl), h⟩⟩
instance : Tells "Expecting symbol in argument list expression!" (some .unreadable) := ⟨fun _ h => .inr ⟨_, .unreadable (List.mem_of_getElem? (i := 17) rfl), h⟩⟩
instance : Tells "Expecting symbol in arith expression!" (some .unreadable) := ⟨fun _ h => .inr ⟨_, .unreadable (List.mem_of_getElem? (i := 18) rfl), h⟩⟩
instance : Tells "Expecting symbol in async statement!" (some .unreadable) := ⟨fun _ h => .inr ⟨_, .unreadable (List.mem_of_getElem? (i := 19) rfl), h⟩⟩
instance : Tells "Expecting symbol in atom_expr expression!" (some .unreadable) := ⟨fun _ h => .inr ⟨_, .unreadable (List.mem_of_getElem? (i := 20) rfl), h⟩⟩
instance : Tells "Expecting symbol in class statement!" (some .unreadable) := ⟨fun _ h => .inr ⟨_, .unreadable (List.mem_of_getElem? (i := 21) rfl), h⟩⟩
instance : Tells "Expecting symbol in comparison expression!" (some .unreadable) := ⟨fun _ h => .inr ⟨_, .unreadable (List.mem_of_getElem? (i := 22) rfl), h⟩⟩
instance : Tells "Expecting symbol in compiter expression!" (some .unreadable) := ⟨fun _ h => .inr ⟨_, .unreadable (List.mem_of_getElem? (i := 23) rfl), h⟩⟩
instance : Tells "Expecting symbol in compound statement!" (some .unreadable) := ⟨fun _ h => .inr ⟨_, .unreadable (List.mem_of_getElem? (i := 24) rfl), h⟩⟩
instance : Tells "Expecting symbol in comprehension 'async' expression!" (some .unreadable) := ⟨fun _ h => .inr ⟨_, .unreadable (List.mem_of_getElem? (i := 25) rfl), h⟩⟩
instance : Tells "Expecting symbol in comprehension 'for' expression!" (some .unreadable) := ⟨fun _ h => .inr ⟨_, .unreadable (List.mem_of_getElem? (i := 26) rfl), h⟩⟩
instance : Tells "Expecting symbol in comprehension 'if' expression!" (some .unreadable) := ⟨fun _ h => .inr ⟨_, .unreadable (List.mem_of_getElem? (i := 27) rfl), h⟩⟩
instance : Tells "Expecting symbol in decorator statement!" (some .unreadable) := ⟨fun _ h => .inr ⟨_, .unreadable (List.mem_of_getElem? (i := 28) rfl), h⟩⟩
instance : Tells "Expecting symbol in dictionary/set expression!" (some .unreadable) := ⟨fun _ h => .inr ⟨_, .unreadable (List.mem_of_getElem? (i := 29) rfl), h⟩⟩
instance : Tells "Expecting symbol in dotted as name statement!" (some .unreadable) := ⟨fun _ h => .inr ⟨_, .unreadable (List.mem_of_getElem? (i := 30) rfl), h⟩⟩
instance : Tells "Expecting symbol in dotted name statement!" (some .unreadable) := ⟨fun _ h => .inr ⟨_, .unreadable (List.mem_of_getElem? (i := 31) rfl), h⟩⟩
instance : Tells "Expecting symbol in elif statement!" (some .unreadable) := ⟨fun _ h => .inr ⟨_, .unreadable (List.mem_of_getElem? (i := 32) rfl), h⟩⟩
instance : Tells "Expecting symbol in else statement!" (some .unreadable) := ⟨fun _ h => .inr ⟨_, .unreadable (List.mem_of_getElem? (i := 33) rfl), h⟩⟩
instance : Tells "Expecting symbol in eval expression!" (some .unreadable) := ⟨fun _ h => .inr ⟨_, .unreadable (List.mem_of_getElem? (i := 34) rfl), h⟩⟩
instance : Tells "Expecting symbol in except clause statement!" (some .unreadable) := ⟨fun _ h => .inr ⟨_, .unreadable (List.mem_of_getElem? (i := 35) rfl), h⟩⟩
instance : Tells "Expecting symbol in except statement!" (some .unreadable) := ⟨fun _ h => .inr ⟨_, .unreadable (List.mem_of_getElem? (i := 36) rfl), h⟩⟩
instance : Tells "Expecting symbol in expression statement!" (some .unreadable) := ⟨fun _ h => .inr ⟨_, .unreadable (List.mem_of_getElem? (i := 37) rfl), h⟩⟩
instance : Tells "Expecting symbol in factor expression!" (some .unreadable) := ⟨fun _ h => .inr ⟨_, .unreadable (List.mem_of_getElem? (i := 38) rfl), h⟩⟩
instance : Tells "Expecting symbol in finally statement!" (some .unreadable) := ⟨fun _ h => .inr ⟨_, .unreadable (List.mem_of_getElem? (i := 39) rfl), h⟩⟩
instance : Tells "Expecting symbol in flow statement!" (some .unreadable) := ⟨fun _ h => .inr ⟨_, .unreadable (List.mem_of_getElem? (i := 40) rfl), h⟩⟩
instance : Tells "Expecting symbol in for statement!" (some .unreadable) := ⟨fun _ h => .inr ⟨_, .unreadable (List.mem_of_getElem? (i := 41) rfl), h⟩⟩
instance : Tells "Expecting symbol in function body!" (some .unreadable) := ⟨fun _ h => .inr ⟨_, .unreadable (List.mem_of_getElem? (i := 42) rfl), h⟩⟩
instance : Tells "Expecting symbol in function statement!" (some .unreadable) := ⟨fun _ h => .inr ⟨_, .unreadable (List.mem_of_getElem? (i := 43) rfl), h⟩⟩
instance : Tells "Expecting symbol in functional input!" (some .unreadable) := ⟨fun _ h => .inr ⟨_, .unreadable (List.mem_of_getElem? (i := 44) rfl), h⟩⟩
instance : Tells "Expecting symbol in functional type list!" (some .unreadable) := ⟨fun _ h => .inr ⟨_, .unreadable (List.mem_of_getElem? (i := 45) rfl), h⟩⟩
instance : Tells "Expecting symbol in functional type!" (some .unreadable) := ⟨fun _ h => .inr ⟨_, .unreadable (List.mem_of_getElem? (i := 46) rfl), h⟩⟩
instance : Tells "Expecting symbol in if statement!" (some .unreadable) := ⟨fun _ h => .inr ⟨_, .unreadable (List.mem_of_getElem? (i := 47) rfl), h⟩⟩
instance : Tells "Expecting symbol in import as name statement!" (some .unreadable) := ⟨fun _ h => .inr ⟨_, .unreadable (List.mem_of_getElem? (i := 48) rfl), h⟩⟩
instance : Tells "Expecting symbol in import as names statement!" (some .unreadable) := ⟨fun _ h => .inr ⟨_, .unreadable (List.mem_of_getElem? (i := 49) rfl), h⟩⟩
instance : Tells "Expecting symbol in list expression!" (some .unreadable) := ⟨fun _ h => .inr ⟨_, .unreadable (List.mem_of_getElem? (i := 50) rfl), h⟩⟩
instance : Tells "Expecting symbol in named expression!" (some .unreadable) := ⟨fun _ h => .inr ⟨_, .unreadable (List.mem_of_getElem? (i := 51) rfl), h⟩⟩
instance : Tells "Expecting symbol in non conditional test expression!" (some .unreadable) := ⟨fun _ h => .inr ⟨_, .unreadable (List.mem_of_getElem? (i := 52) rfl), h⟩⟩
instance : Tells "Expecting symbol in not test expression!" (some .unreadable) := ⟨fun _ h => .inr ⟨_, .unreadable (List.mem_of_getElem? (i := 53) rfl), h⟩⟩
instance : Tells "Expecting symbol in or expression!" (some .unreadable) := ⟨fun _ h => .inr ⟨_, .unreadable (List.mem_of_getElem? (i := 54) rfl), h⟩⟩
instance : Tells "Expecting symbol in parameter of function statement!" (some .unreadable) := ⟨fun _ h => .inr ⟨_, .unreadable (List.mem_of_getElem? (i := 55) rfl), h⟩⟩
instance : Tells "Expecting symbol in parameters of function statement!" (some .unreadable) := ⟨fun _ h => .inr ⟨_, .unreadable (List.mem_of_getElem? (i := 56) rfl), h⟩⟩
instance : Tells "Expecting symbol in power expression!" (some .unreadable) := ⟨fun _ h => .inr ⟨_, .unreadable (List.mem_of_getElem? (i := 57) rfl), h⟩⟩
instance : Tells "Expecting symbol in shift expression!" (some .unreadable) := ⟨fun _ h => .inr ⟨_, .unreadable (List.mem_of_getElem? (i := 58) rfl), h⟩⟩
instance : Tells "Expecting symbol in simple statement!" (some .unreadable) := ⟨fun _ h => .inr ⟨_, .unreadable (List.mem_of_getElem? (i := 59) rfl), h⟩⟩
instance : Tells "Expecting symbol in single input!" (some .unreadable) := ⟨fun _ h => .inr ⟨_, .unreadable (List.mem_of_getElem? (i := 60) rfl), h⟩⟩
instance : Tells "Expecting symbol in star expression!" (some .unreadable) := ⟨fun _ h => .inr ⟨_, .unreadable (List.mem_of_getElem? (i := 61) rfl), h⟩⟩
instance : Tells "Expecting symbol in statement" (some .unreadable) := ⟨fun _ h => .inr ⟨_, .unreadable (List.mem_of_getElem? (i := 62) rfl), h⟩⟩
instance : Tells "Expecting symbol in statement list!" (some .unreadable) := ⟨fun _ h => .inr ⟨_, .unreadable (List.mem_of_getElem? (i := 63) rfl), h⟩⟩
instance : Tells "Expecting symbol in subscript expression!" (some .unreadable) := ⟨fun _ h => .inr ⟨_, .unreadable (List.mem_of_getElem? (i := 64) rfl), h⟩⟩
instance : Tells "Expecting symbol in subscript list expression!" (some .unreadable) := ⟨fun _ h => .inr ⟨_, .unreadable (List.mem_of_getElem? (i := 65) rfl), h⟩⟩
instance : Tells "Expecting symbol in suite statement!" (some .unreadable) := ⟨fun _ h => .inr ⟨_, .unreadable (List.mem_of_getElem? (i := 66) rfl), h⟩⟩
instance : Tells "Expecting symbol in term expression!" (some .unreadable) := ⟨fun _ h => .inr ⟨_, .unreadable (List.mem_of_getElem? (i := 67) rfl), h⟩⟩
instance : Tells "Expecting symbol in test expression!" (some .unreadable) := ⟨fun _ h => .inr ⟨_, .unreadable (List.mem_of_getElem? (i := 68) rfl), h⟩⟩
instance : Tells "Expecting symbol in trailer expression!" (some .unreadable) := ⟨fun _ h => .inr ⟨_, .unreadable (List.mem_of_getElem? (i := 69) rfl), h⟩⟩
instance : Tells "Expecting symbol in try statement!" (some .unreadable) := ⟨fun _ h => .inr ⟨_, .unreadable (List.mem_of_getElem? (i := 70) rfl), h⟩⟩
instance : Tells "Expecting symbol in varargs assignment expression!" (some .unreadable) := ⟨fun _ h => .inr ⟨_, .unreadable (List.mem_of_getElem? (i := 71) rfl), h⟩⟩
instance : Tells "Expecting symbol in variable arguments list expression!" (some .unreadable) := ⟨fun _ h => .inr ⟨_, .unreadable (List.mem_of_getElem? (i := 72) rfl), h⟩⟩
instance : Tells "Expecting symbol in vfpdef expression!" (some .unreadable) := ⟨fun _ h => .inr ⟨_, .unreadable (List.mem_of_getElem? (i := 73) rfl), h⟩⟩
instance : Tells "Expecting symbol in while statement!" (some .unreadable) := ⟨fun _ h => .inr ⟨_, .unreadable (List.mem_of_getElem? (i := 74) rfl), h⟩⟩
instance : Tells "Expecting symbol in with item statement!" (some .unreadable) := ⟨fun _ h => .inr ⟨_, .unreadable (List.mem_of_getElem? (i := 75) rfl), h⟩⟩
instance : Tells "Expecting symbol in with statement!" (some .unreadable) := ⟨fun _ h => .inr ⟨_, .unreadable (List.mem_of_getElem? (i := 76) rfl), h⟩⟩
instance : Tells "Expecting symbol in xor expression!" (some .unreadable) := ⟨fun _ h => .inr ⟨_, .unreadable (List.mem_of_getElem? (i := 77) rfl), h⟩⟩
instance : Tells "Expecting '(' in parameters of function statement!" (some (.missing [.PyLeftParen])) := ⟨fun _ h => .inr ⟨_, .named (List.mem_of_getElem? (i := 0) rfl), h⟩⟩
instance : Tells "Expecting ')' in class statement!" (some (.missing [.PyRightParen])) := ⟨fun _ h => .inr ⟨_, .named (List.mem_of_getElem? (i := 1) rfl), h⟩⟩
instance : Tells "Expecting ')' in from import statement!" (some (.missing [.PyRightParen])) := ⟨fun _ h => .inr ⟨_, .named (List.mem_of_getElem? (i := 2) rfl), h⟩⟩
instance : Tells "Expecting ')' in functional input!" (some (.missing [.PyRightParen])) := ⟨fun _ h => .inr ⟨_, .named (List.mem_of_getElem? (i := 3) rfl), h⟩⟩
instance : Tells "Expecting ')' in parameters of function statement!" (some (.missing [.PyRightParen])) := ⟨fun _ h => .inr ⟨_, .named (List.mem_of_getElem? (i := 4) rfl), h⟩⟩
instance : Tells "Expecting ')' in trailer expression!" (some (.missing [.PyRightParen])) := ⟨fun _ h => .inr ⟨_, .named (List.mem_of_getElem? (i := 5) rfl), h⟩⟩
instance : Tells "Expecting ')' in tuple atom expression!" (some (.missing [.PyRightParen])) := ⟨fun _ h => .inr ⟨_, .named (List.mem_of_getElem? (i := 6) rfl), h⟩⟩
instance : Tells "Expecting ')' in with statement!" (some (.missing [.PyRightParen])) := ⟨fun _ h => .inr ⟨_, .named (List.mem_of_getElem? (i := 7) rfl), h⟩⟩
instance : Tells "Expecting '*' in star expression!" (some (.missing [.PyMul])) := ⟨fun _ h => .inr ⟨_, .named (List.mem_of_getElem? (i := 8) rfl), h⟩⟩
instance : Tells "Expecting '.' in from part of import statement!" (some (.missing [.PyDot, .PyElipsis])) := ⟨fun _ h => .inr ⟨_, .named (List.mem_of_getElem? (i := 9) rfl), h⟩⟩
instance : Tells "Expecting ':' in 'lambda' expression!" (some (.missing [.PyColon])) := ⟨fun _ h => .inr ⟨_, .named (List.mem_of_getElem? (i := 10) rfl), h⟩⟩
instance : Tells "Expecting ':' in annotation assignment statement!" (some (.missing [.PyColon])) := ⟨fun _ h => .inr ⟨_, .named (List.mem_of_getElem? (i := 11) rfl), h⟩⟩
instance : Tells "Expecting ':' in class statement!" (some (.missing [.PyColon])) := ⟨fun _ h => .inr ⟨_, .named (List.mem_of_getElem? (i := 12) rfl), h⟩⟩
instance : Tells "Expecting ':' in dictionary entry expression!" (some (.missing [.PyColon])) := ⟨fun _ h => .inr ⟨_, .named (List.mem_of_getElem? (i := 13) rfl), h⟩⟩
instance : Tells "Expecting ':' in elif statement!" (some (.missing [.PyColon])) := ⟨fun _ h => .inr ⟨_, .named (List.mem_of_getElem? (i := 14) rfl), h⟩⟩
instance : Tells "Expecting ':' in else statement!" (some (.missing [.PyColon])) := ⟨fun _ h => .inr ⟨_, .named (List.mem_of_getElem? (i := 15) rfl), h⟩⟩
instance : Tells "Expecting ':' in except statement!" (some (.missing [.PyColon])) := ⟨fun _ h => .inr ⟨_, .named (List.mem_of_getElem? (i := 16) rfl), h⟩⟩
instance : Tells "Expecting ':' in finally statement!" (some (.missing [.PyColon])) := ⟨fun _ h => .inr ⟨_, .named (List.mem_of_getElem? (i := 17) rfl), h⟩⟩
instance : Tells "Expecting ':' in for statement!" (some (.missing [.PyColon])) := ⟨fun _ h => .inr ⟨_, .named (List.mem_of_getElem? (i := 18) rfl), h⟩⟩
instance : Tells "Expecting ':' in function statement!" (some (.missing [.PyColon])) := ⟨fun _ h => .inr ⟨_, .named (List.mem_of_getElem? (i := 19) rfl), h⟩⟩
instance : Tells "Expecting ':' in if statement!" (some (.missing [.PyColon])) := ⟨fun _ h => .inr ⟨_, .named (List.mem_of_getElem? (i := 20) rfl), h⟩⟩
instance : Tells "Expecting ':' in try statement!" (some (.missing [.PyColon])) := ⟨fun _ h => .inr ⟨_, .named (List.mem_of_getElem? (i := 21) rfl), h⟩⟩
instance : Tells "Expecting ':' in while statement!" (some (.missing [.PyColon])) := ⟨fun _ h => .inr ⟨_, .named (List.mem_of_getElem? (i := 22) rfl), h⟩⟩
instance : Tells "Expecting ':' in with statement!" (some (.missing [.PyColon])) := ⟨fun _ h => .inr ⟨_, .named (List.mem_of_getElem? (i := 23) rfl), h⟩⟩
instance : Tells "Expecting '@' in decorator statement!" (some (.missing [.PyMatrice])) := ⟨fun _ h => .inr ⟨_, .named (List.mem_of_getElem? (i := 24) rfl), h⟩⟩
instance : Tells "Expecting ']' in list atom expression!" (some (.missing [.PyRightBracket])) := ⟨fun _ h => .inr ⟨_, .named (List.mem_of_getElem? (i := 25) rfl), h⟩⟩
instance : Tells "Expecting ']' in trailer expression!" (some (.missing [.PyRightBracket])) := ⟨fun _ h => .inr ⟨_, .named (List.mem_of_getElem? (i := 26) rfl), h⟩⟩
instance : Tells "Expecting 'assert' in assert statement!" (some (.missing [.PyAssert])) := ⟨fun _ h => .inr ⟨_, .named (List.mem_of_getElem? (i := 27) rfl), h⟩⟩
instance : Tells "Expecting 'async' in async statement!" (some (.missing [.PyAsync])) := ⟨fun _ h => .inr ⟨_, .named (List.mem_of_getElem? (i := 28) rfl), h⟩⟩
instance : Tells "Expecting 'break' in break statement!" (some (.missing [.PyBreak])) := ⟨fun _ h => .inr ⟨_, .named (List.mem_of_getElem? (i := 29) rfl), h⟩⟩
instance : Tells "Expecting 'class' in class statement!" (some (.missing [.PyClass])) := ⟨fun _ h => .inr ⟨_, .named (List.mem_of_getElem? (i := 30) rfl), h⟩⟩
instance : Tells "Expecting 'class', 'def' or 'async' after '@' in decorator statement!" (some (.missing [.PyClass, .PyDef, .PyAsync])) := ⟨fun _ h => .inr ⟨_, .named (List.mem_of_getElem? (i := 31) rfl), h⟩⟩
instance : Tells "Expecting 'continue' in pass statement!" (some (.missing [.PyContinue])) := ⟨fun _ h => .inr ⟨_, .named (List.mem_of_getElem? (i := 32) rfl), h⟩⟩
instance : Tells "Expecting 'def' in function statement!" (some (.missing [.PyDef])) := ⟨fun _ h => .inr ⟨_, .named (List.mem_of_getElem? (i := 33) rfl), h⟩⟩
instance : Tells "Expecting 'def', 'with' or 'for' in 'async' statement!" (some (.missing [.PyDef, .PyWith, .PyFor])) := ⟨fun _ h => .inr ⟨_, .named (List.mem_of_getElem? (i := 34) rfl), h⟩⟩
instance : Tells "Expecting 'del' in del statement!" (some (.missing [.PyDel])) := ⟨fun _ h => .inr ⟨_, .named (List.mem_of_getElem? (i := 35) rfl), h⟩⟩
instance : Tells "Expecting 'elif' in elif statement!" (some (.missing [.PyElif])) := ⟨fun _ h => .inr ⟨_, .named (List.mem_of_getElem? (i := 36) rfl), h⟩⟩
instance : Tells "Expecting 'else' in elif statement!" (some (.missing [.PyElse])) := ⟨fun _ h => .inr ⟨_, .named (List.mem_of_getElem? (i := 37) rfl), h⟩⟩
instance : Tells "Expecting 'else' in test expression!" (some (.missing [.PyElse])) := ⟨fun _ h => .inr ⟨_, .named (List.mem_of_getElem? (i := 38) rfl), h⟩⟩
instance : Tells "Expecting 'except' in except statement!" (some (.missing [.PyExcept])) := ⟨fun _ h => .inr ⟨_, .named (List.mem_of_getElem? (i := 39) rfl), h⟩⟩
instance : Tells "Expecting 'finally' in finally statement!" (some (.missing [.PyFinally])) := ⟨fun _ h => .inr ⟨_, .named (List.mem_of_getElem? (i := 40) rfl), h⟩⟩
instance : Tells "Expecting 'for' in comprehension 'for' expression!" (some (.missing [.PyFor])) := ⟨fun _ h => .inr ⟨_, .named (List.mem_of_getElem? (i := 41) rfl), h⟩⟩
instance : Tells "Expecting 'for' in for statement!" (some (.missing [.PyFor])) := ⟨fun _ h => .inr ⟨_, .named (List.mem_of_getElem? (i := 42) rfl), h⟩⟩
instance : Tells "Expecting 'from' in import statement!" (some (.missing [.PyFrom])) := ⟨fun _ h => .inr ⟨_, .named (List.mem_of_getElem? (i := 43) rfl), h⟩⟩
instance : Tells "Expecting 'global' in global statement!" (some (.missing [.PyGlobal])) := ⟨fun _ h => .inr ⟨_, .named (List.mem_of_getElem? (i := 44) rfl), h⟩⟩
instance : Tells "Expecting 'if' in comprehension 'if' expression!" (some (.missing [.PyIf])) := ⟨fun _ h => .inr ⟨_, .named (List.mem_of_getElem? (i := 45) rfl), h⟩⟩
instance : Tells "Expecting 'if', 'for' or 'async' in compiter expression!" (some (.missing [.PyIf, .PyFor, .PyAsync])) := ⟨fun _ h => .inr ⟨_, .named (List.mem_of_getElem? (i := 46) rfl), h⟩⟩
instance : Tells "Expecting 'import' in from import statement!" (some (.missing [.PyImport])) := ⟨fun _ h => .inr ⟨_, .named (List.mem_of_getElem? (i := 47) rfl), h⟩⟩
instance : Tells "Expecting 'import' in import statement!" (some (.missing [.PyImport])) := ⟨fun _ h => .inr ⟨_, .named (List.mem_of_getElem? (i := 48) rfl), h⟩⟩
instance : Tells "Expecting 'import' or 'from' in statement!" (some (.missing [.PyImport, .PyFrom])) := ⟨fun _ h => .inr ⟨_, .named (List.mem_of_getElem? (i := 49) rfl), h⟩⟩
instance : Tells "Expecting 'in' in comprehension 'for' expression!" (some (.missing [.PyIn])) := ⟨fun _ h => .inr ⟨_, .named (List.mem_of_getElem? (i := 50) rfl), h⟩⟩
instance : Tells "Expecting 'in' in for statement!" (some (.missing [.PyIn])) := ⟨fun _ h => .inr ⟨_, .named (List.mem_of_getElem? (i := 51) rfl), h⟩⟩
instance : Tells "Expecting 'in' pr 'not in' in comparison expression!" (some (.missing [.PyIn])) := ⟨fun _ h => .inr ⟨_, .named (List.mem_of_getElem? (i := 52) rfl), h⟩⟩
instance : Tells "Expecting 'nonlocal' in global statement!" (some (.missing [.PyNonLocal])) := ⟨fun _ h => .inr ⟨_, .named (List.mem_of_getElem? (i := 53) rfl), h⟩⟩
instance : Tells "Expecting 'nonlocal' in nonlocal statement!" (some (.missing [.PyNonLocal])) := ⟨fun _ h => .inr ⟨_, .named (List.mem_of_getElem? (i := 54) rfl), h⟩⟩
instance : Tells "Expecting 'pass' in pass statement!" (some (.missing [.PyPass])) := ⟨fun _ h => .inr ⟨_, .named (List.mem_of_getElem? (i := 55) rfl), h⟩⟩
instance : Tells "Expecting 'raise' in 'raise' statement!" (some (.missing [.PyRaise])) := ⟨fun _ h => .inr ⟨_, .named (List.mem_of_getElem? (i := 56) rfl), h⟩⟩
instance : Tells "Expecting 'return' in 'return' statement!" (some (.missing [.PyReturn])) := ⟨fun _ h => .inr ⟨_, .named (List.mem_of_getElem? (i := 57) rfl), h⟩⟩
instance : Tells "Expecting 'try' in try statement!" (some (.missing [.PyTry])) := ⟨fun _ h => .inr ⟨_, .named (List.mem_of_getElem? (i := 58) rfl), h⟩⟩
instance : Tells "Expecting 'while' in while statement!" (some (.missing [.PyWhile])) := ⟨fun _ h => .inr ⟨_, .named (List.mem_of_getElem? (i := 59) rfl), h⟩⟩
instance : Tells "Expecting 'with' in finally statement!" (some (.missing [.PyWith])) := ⟨fun _ h => .inr ⟨_, .named (List.mem_of_getElem? (i := 60) rfl), h⟩⟩
instance : Tells "Expecting Newline after TypeComment in function body!" (some (.missing [.Newline])) := ⟨fun _ h => .inr ⟨_, .named (List.mem_of_getElem? (i := 61) rfl), h⟩⟩
instance : Tells "Expecting Newline after compound statement in single input!" (some (.missing [.Newline])) := ⟨fun _ h => .inr ⟨_, .named (List.mem_of_getElem? (i := 62) rfl), h⟩⟩
instance : Tells "Expecting Newline at end of statement list!" (some (.missing [.Newline])) := ⟨fun _ h => .inr ⟨_, .named (List.mem_of_getElem? (i := 63) rfl), h⟩⟩
instance : Tells "Expecting a valid name after '.' in trailer expression!" (some (.missing [.AtomName])) := ⟨fun _ h => .inr ⟨_, .named (List.mem_of_getElem? (i := 64) rfl), h⟩⟩
instance : Tells "Expecting a valid trailer expression!" (some (.missing [.PyLeftParen, .PyLeftBracket, .PyDot])) := ⟨fun _ h => .inr ⟨_, .named (List.mem_of_getElem? (i := 65) rfl), h⟩⟩
instance : Tells "Expecting compound statement!" (some (.missing [.PyIf, .PyWhile, .PyFor, .PyTry, .PyWith, .PyDef, .PyClass, .PyMatrice, .PyAsync])) := ⟨fun _ h => .inr ⟨_, .named (List.mem_of_getElem? (i := 66) rfl), h⟩⟩
instance : Tells "Expecting end marker in dictionary/set atom expression!" (some (.missing [.PyRightCurly])) := ⟨fun _ h => .inr ⟨_, .named (List.mem_of_getElem? (i := 67) rfl), h⟩⟩
instance : Tells "Expecting flow statement!" (some (.missing [.PyBreak, .PyContinue, .PyReturn, .PyRaise, .PyYield])) := ⟨fun _ h => .inr ⟨_, .named (List.mem_of_getElem? (i := 68) rfl), h⟩⟩
instance : Tells "Expecting indentation in function body!" (some (.missing [.Indent])) := ⟨fun _ h => .inr ⟨_, .named (List.mem_of_getElem? (i := 69) rfl), h⟩⟩
instance : Tells "Expecting indentation in suite statement!" (some (.missing [.Indent])) := ⟨fun _ h => .inr ⟨_, .named (List.mem_of_getElem? (i := 70) rfl), h⟩⟩
instance : Tells "Expecting literal name in class statement!" (some (.missing [.AtomName])) := ⟨fun _ h => .inr ⟨_, .named (List.mem_of_getElem? (i := 71) rfl), h⟩⟩
instance : Tells "Expecting literal name in function statement!" (some (.missing [.AtomName])) := ⟨fun _ h => .inr ⟨_, .named (List.mem_of_getElem? (i := 72) rfl), h⟩⟩
instance : Tells "Expecting literal name in import statement!" (some (.missing [.AtomName])) := ⟨fun _ h => .inr ⟨_, .named (List.mem_of_getElem? (i := 73) rfl), h⟩⟩
instance : Tells "Expecting name literal after 'as' in except statement!" (some (.missing [.AtomName])) := ⟨fun _ h => .inr ⟨_, .named (List.mem_of_getElem? (i := 74) rfl), h⟩⟩
instance : Tells "Expecting name literal in dotted as name statement!" (some (.missing [.AtomName])) := ⟨fun _ h => .inr ⟨_, .named (List.mem_of_getElem? (i := 75) rfl), h⟩⟩
instance : Tells "Expecting name literal in global statement!" (some (.missing [.AtomName])) := ⟨fun _ h => .inr ⟨_, .named (List.mem_of_getElem? (i := 76) rfl), h⟩⟩
instance : Tells "Expecting name literal in import as name statement!" (some (.missing [.AtomName])) := ⟨fun _ h => .inr ⟨_, .named (List.mem_of_getElem? (i := 77) rfl), h⟩⟩
instance : Tells "Expecting name literal in nonlocal statement!" (some (.missing [.AtomName])) := ⟨fun _ h => .inr ⟨_, .named (List.mem_of_getElem? (i := 78) rfl), h⟩⟩
instance : Tells "Expecting name literal in parameter of function statement!" (some (.missing [.AtomName])) := ⟨fun _ h => .inr ⟨_, .named (List.mem_of_getElem? (i := 79) rfl), h⟩⟩
instance : Tells "Expecting name literal in vfpdef expression!" (some (.missing [.AtomName])) := ⟨fun _ h => .inr ⟨_, .named (List.mem_of_getElem? (i := 80) rfl), h⟩⟩
instance : Tells "Expecting send of file in eval expression!" (some (.missing [.EOF])) := ⟨fun _ h => .inr ⟨_, .named (List.mem_of_getElem? (i := 81) rfl), h⟩⟩
instance : Tells "Expecting symbol in 'from' statement!" (some (.missing [.PyImport])) := ⟨fun _ h => .inr ⟨_, .named (List.mem_of_getElem? (i := 82) rfl), h⟩⟩
instance : Tells "Expecting symbol in 'if' statement!" (some (.missing [.PyIf])) := ⟨fun _ h => .inr ⟨_, .named (List.mem_of_getElem? (i := 83) rfl), h⟩⟩
instance : Tells "Expecting symbol in atom expression!" (some (.missing [.PyElipsis, .PyFalse, .PyNone, .PyTrue, .AtomName, .AtomNumber, .AtomString, .PyLeftParen, .PyLeftBracket, .PyLeftCurly])) := ⟨fun _ h => .inr ⟨_, .named (List.mem_of_getElem? (i := 84) rfl), h⟩⟩
instance : Tells "Expecting symbol in comprehension 'yield' expression!" (some (.missing [.PyYield])) := ⟨fun _ h => .inr ⟨_, .named (List.mem_of_getElem? (i := 85) rfl), h⟩⟩
instance : Tells "Missing elements between two ',' in argument list expression!" (some (.found .PyComa)) := ⟨fun _ h => .inr ⟨_, .named (List.mem_of_getElem? (i := 86) rfl), h⟩⟩
instance : Tells "Missing elements between two ',' in list expression!" (some (.found .PyComa)) := ⟨fun _ h => .inr ⟨_, .named (List.mem_of_getElem? (i := 87) rfl), h⟩⟩
instance : Tells "Missing elements between two ',' in set list expression!" (some (.found .PyComa)) := ⟨fun _ h => .inr ⟨_, .named (List.mem_of_getElem? (i := 88) rfl), h⟩⟩

/-- From the current symbol `s` on, what a body reports is true. -/
def Honest {α : Type} : Prog α → Except LexErr Token → Prop
  | .ret _, _ => True
  | .fail _ m, s => Told m s
  | .panic, _ => True
  | .getPos k, s => ∀ p, Honest (k p) s
  | .sym k x, s => match s with
    | .ok t => Honest (k t) (.ok t)
    | .error e => Honest x (.error e)
  | .adv k, _ => ∀ s, Honest k s
  | .call _ k, _ => ∀ t s, Honest (k t) s
  | .getExc k, s => ∀ x, Honest (k x) s
  | .setExc _ k, s => Honest k s

section
variable {α β : Type} {s : Except LexErr Token}

theorem Tells.apply {m c p} [h : Tells m c] (hc : OptHolds c s) : Honest (α := α) (.fail p m) s := h.told s hc
theorem Tells.applyHere {m c} [h : Tells m c] (hc : OptHolds c s) : Honest (α := α) (failHere m) s :=
  fun _ => h.told s hc

theorem hon_bind {p : Prog α} {f : α → Prog β} (h : Honest p s) (hf : ∀ a s, Honest (f a) s) : Honest (p >>= f) s := by
  show Honest (p.bind f) s
  induction p generalizing s with
  | ret a => exact hf _ _
  | fail => exact h
  | panic => trivial
  | getPos k ih => exact fun p => ih p (h p)
  | getExc k ih => exact fun p => ih _ (h p)
  | sym k x ih1 ih2 => cases s with
    | ok t => exact ih1 t h
    | error e => exact ih2 h
  | adv k ih => exact fun s => ih (h s)
  | call f k ih => exact fun t s => ih t (h t s)
  | setExc x k ih => exact ih h
theorem hon_bindPure {a : α} {f : α → Prog β} (h : Honest (f a) s) : Honest (pure a >>= f) s := h
theorem hon_bindHere {f : Nat → Prog β} (h : ∀ p, Honest (f p) s) : Honest (here >>= f) s := h
theorem hon_bindNext {f : Unit → Prog β} (h : ∀ s, Honest (f ()) s) : Honest (next >>= f) s := h
theorem hon_bindParse {g} {f : Tree → Prog β} (h : ∀ t s, Honest (f t) s) : Honest (parse g >>= f) s := h
theorem hon_bindMk {tag p l} {f : Tree → Prog β} (h : ∀ t, Honest (f t) s) : Honest (mk tag p l >>= f) s := fun _ => h _
theorem hon_bindSymAt {p m c} {f : Token → Prog β} [i : Tells m c] (he : ∀ e, OptHolds c (.error e))
    (h : ∀ t, Honest (f t) (.ok t)) : Honest (symAt p m >>= f) s := by
  cases s with
  | ok t => exact h t
  | error e => exact i.told _ (he e)
theorem hon_bindSymHere {m c} {f : Token → Prog β} [i : Tells m c] (he : ∀ e, OptHolds c (.error e))
    (h : ∀ t, Honest (f t) (.ok t)) : Honest (symHere m >>= f) s := by
  cases s with
  | ok t => exact h t
  | error e => exact fun _ => i.told _ (he e)
theorem hon_bindSym? {f : Option Token → Prog β} (h : ∀ t, Honest (f (some t)) (.ok t)) (he : ∀ e, Honest (f none) (.error e)) :
    Honest (sym? >>= f) s := by
  cases s with
  | ok t => exact h t
  | error e => exact he e
theorem hon_ite {b : Prop} [Decidable b] {p q : Prog α} (h1 : b → Honest p s) (h2 : ¬ b → Honest q s) : Honest (if b then p else q) s := by
  split
  · exact h1 ‹_›
  · exact h2 ‹_›
theorem hon_bindIte {b : Prop} [Decidable b] {p q : Prog α} {f : α → Prog β} (h1 : b → Honest (p >>= f) s) (h2 : ¬ b → Honest (q >>= f) s) :
    Honest ((if b then p else q) >>= f) s := by
  split
  · exact h1 ‹_›
  · exact h2 ‹_›
theorem hon_assoc {γ : Type} {p : Prog α} {f : α → Prog β} {g : β → Prog γ} (h : Honest (p >>= fun a => f a >>= g) s) : Honest (p >>= f >>= g) s := by
  have : ∀ p : Prog α, (p.bind f).bind g = p.bind fun a => (f a).bind g := by
    intro p
    induction p with
    | ret | fail | panic => rfl
    | getPos k ih => exact congrArg Prog.getPos (funext ih)
    | getExc k ih => exact congrArg Prog.getExc (funext ih)
    | sym k x ih1 ih2 => show Prog.sym _ _ = Prog.sym _ _; rw [funext ih1, ih2]
    | adv k ih => exact congrArg Prog.adv ih
    | call f k ih => exact congrArg (Prog.call f) (funext ih)
    | setExc x k ih => exact congrArg (Prog.setExc x) ih
  show Honest ((p.bind f).bind g) s
  rw [this]; exact h
theorem hon_bindFail {p m} {f : α → Prog β} (h : Honest (α := β) (.fail p m) s) : Honest (Prog.fail p m >>= f) s := h
theorem hon_bindFailHere {m} {f : α → Prog β} (h : Honest (α := β) (failHere m) s) : Honest (failHere m >>= f) s := h
theorem hon_bindGetExc {k : ExcStatus → Prog α} {f : α → Prog β} (h : ∀ x, Honest (k x >>= f) s) : Honest (Prog.getExc k >>= f) s := h
theorem hon_bindSetExc {x} {k : Prog α} {f : α → Prog β} (h : Honest (k >>= f) s) : Honest (Prog.setExc x k >>= f) s := h
theorem hon_pure {a : α} : Honest (pure a) s := trivial
theorem hon_ret {a : α} : Honest (.ret a) s := trivial
theorem hon_panic : Honest (α := α) .panic s := trivial
theorem hon_parse {f} : Honest (parse f) s := fun _ _ => trivial
theorem hon_mk {tag p l} : Honest (mk tag p l) s := fun _ => trivial
theorem hon_here : Honest here s := fun _ => trivial
theorem hon_next : Honest next s := fun _ => trivial
theorem hon_getExc {k : ExcStatus → Prog α} (h : ∀ x, Honest (k x) s) : Honest (.getExc k) s := h
theorem hon_setExc {x} {k : Prog α} (h : Honest k s) : Honest (.setExc x k) s := h
theorem missing_error {ks e} : Saying.holds (.missing ks) (.error e) := fun _ h => nomatch h
theorem missing_ok {ks t} (h : t.kind ∉ ks) : Saying.holds (.missing ks) (.ok t) := fun _ e => by cases e; exact h
theorem unreadable_error {e} : Saying.holds .unreadable (.error e) := ⟨e, rfl⟩
theorem found_ok {k t} (h : t.kind = k) : Saying.holds (.found k) (.ok t) := ⟨t, rfl, h⟩
end

macro "hon_claim" : tactic => `(tactic| first
  | exact trivial
  | exact missing_error
  | exact unreadable_error
  | exact missing_ok (by simp_all)
  | exact found_ok (by simp_all))

macro "hon_step" : tactic => `(tactic| with_reducible first
  | exact hon_pure | exact hon_ret | exact hon_panic | exact hon_parse | exact hon_mk | exact hon_here | exact hon_next
  | refine hon_assoc ?_
  | refine hon_bindPure ?_
  | refine hon_bindHere fun _ => ?_
  | refine hon_bindNext fun _ => ?_
  | refine hon_bindParse fun _ _ => ?_
  | refine hon_bindMk fun _ => ?_
  | refine hon_bindSym? (fun _ => ?_) (fun _ => ?_)
  | refine hon_bindIte (fun _ => ?_) (fun _ => ?_)
  | refine hon_ite (fun _ => ?_) (fun _ => ?_)
  | refine hon_bindFail ?_
  | refine hon_bindFailHere ?_
  | refine hon_bindGetExc fun _ => ?_
  | refine hon_bindSetExc ?_
  | refine hon_getExc fun _ => ?_
  | refine hon_setExc ?_)

macro "hon" : tactic => `(tactic| repeat' first
  | hon_step
  | ((with_reducible refine hon_bindSymAt (fun _ => ?_) fun _ => ?_); focus hon_claim)
  | ((with_reducible refine hon_bindSymHere (fun _ => ?_) fun _ => ?_); focus hon_claim)
  | ((with_reducible refine Tells.apply ?_); hon_claim; done)
  | ((with_reducible refine Tells.applyHere ?_); hon_claim; done)
  | (dsimp only; done)
  | split)

end Verif
