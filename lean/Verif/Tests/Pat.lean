import Verif.Spec.Outcome
import Verif.Spec.Stream

/-!
# The patterns of the repository's unit tests

The modules `Verif.Tests.*` (generated by `tools/conform.py`) run the model on the inputs of the unit tests in `/repo` and
check that it returns what those tests expect.  They are tests of the model against the code, not proofs of
properties.
-/

namespace Verif

/-- A Rust pattern. -/
inductive TPat
  | any
  /-- kind, start, end, trivia, text, prefix if there is one -/
  | tok (k : Kind) (s e : Option Nat) (tr : Option Trivs) (txt : Option (List Char)) (pfx : Option (List Char))
  | newline (s e : Nat) (c1 c2 : Char)
  | none
  | node (tag : Tag) (s e : Nat) (fs : List TPat)
  | seq (n : Nat) (fs : List TPat)

def optIs (o : Option Nat) (n : Nat) : Bool := match o with | .none => true | some m => m == n

def Token.trivs : Token → Trivs
  | .sym _ _ _ tr | .name _ _ tr _ | .number _ _ tr _ | .string _ _ tr _ _ | .newline _ _ tr _ _ | .indent tr | .dedent tr
  | .typeComment _ _ tr _ | .eof _ tr => tr

def Token.text? : Token → Option (List Char)
  | .name _ _ _ w | .number _ _ _ w | .string _ _ _ w _ | .typeComment _ _ _ w => some w
  | _ => .none

def Token.prefix? : Token → Option (List Char)
  | .string _ _ _ _ p => p
  | _ => .none

mutual
def TPat.fits : TPat → Tree → Bool
  | .any, _ => true
  | .tok k s e tr txt pfx, .tok t => t.kind == k && (match t.span? with | some (a, b) => optIs s a && optIs e b | .none => true) &&
      (match tr with | .none => true | some tr => t.trivs == tr) && (match txt with | .none => true | w => t.text? == w) &&
      (match t.prefix? with | .none => true | p => pfx.isNone || pfx == p)
  | .newline s e c1 c2, .tok (.newline s' e' .none d1 d2) => s == s' && e == e' && c1 == d1 && c2 == d2
  | .none, .none => true
  | .node tag s e fs, .node tag' s' e' l => tag == tag' && s == s' && e == e' && fs.length == l.length && fitsAll fs l
  | .seq n fs, .seq l => n == l.length && fitsAll fs l
  | _, _ => false
def fitsAll : List TPat → List Tree → Bool
  | [], _ => true
  | p :: ps, t :: ts => p.fits t && fitsAll ps ts
  | _ :: _, [] => false
end

/-- The next token of the text, with these brackets open, fits the pattern. -/
def lexes (brackets : List Char) (src : List Char) (p : TPat) : Bool :=
  match @getSymbol asciiUni { Lexer.new src with parens := brackets } with
  | .ok t _ => p.fits (.tok t)
  | _ => false

/-- The rule accepts the text, with a tree that fits the pattern. -/
def parses (f : Fn) (src : List Char) (p : TPat) : Bool :=
  match (@run asciiUni 100 f (@started asciiUni src)).tree? with
  | some t => p.fits t
  | .none => false

end Verif
