import Verif.Model.Lexer

/-!
# Histories of tokenizer calls, and bracket matching

The client's view of the tokenizer: it is created on a text, and `get_symbol` is called any number
of times (also after errors).
-/

namespace Verif

/-- States a tokenizer can be in after any number of `get_symbol` calls on the text `src`. -/
inductive Reach [Uni] (src : List Char) : Lexer → Prop
  | new : Reach src (Lexer.new src)
  | ok {l t l'} : Reach src l → getSymbol l = .ok t l' → Reach src l'
  | err {l e l'} : Reach src l → getSymbol l = .err e l' → Reach src l'

/-- `Tokens l ts l'`: consecutive successful calls starting in state `l` return the tokens `ts` and
leave the tokenizer in state `l'`. -/
inductive Tokens [Uni] : Lexer → List Token → Lexer → Prop
  | nil {l} : Tokens l [] l
  | cons {l t l1 ts l2} : getSymbol l = .ok t l1 → Tokens l1 ts l2 → Tokens l (t :: ts) l2

/-- `Returned l ts l'`: a number of calls starting in state `l` return the tokens `ts` (calls that
return an error add nothing) and leave the tokenizer in state `l'`. -/
inductive Returned [Uni] : Lexer → List Token → Lexer → Prop
  | nil {l} : Returned l [] l
  | ok {l t l1 ts l2} : getSymbol l = .ok t l1 → Returned l1 ts l2 → Returned l (t :: ts) l2
  | err {l e l1 ts l2} : getSymbol l = .err e l1 → Returned l1 ts l2 → Returned l ts l2

/-- The state after a call. -/
def LexRes.lexer {α} : LexRes α → Lexer
  | .ok _ l => l
  | .err _ l => l

/-- `k` further calls, whatever they return. -/
def callTimes [Uni] : Nat → Lexer → Lexer
  | 0, l => l
  | k + 1, l => callTimes k (getSymbol l).lexer

/-- A character class table for examples: no letters or digits outside ASCII. -/
@[reducible] def asciiUni : Uni := ⟨fun _ => false, fun _ => false⟩

/-- One token of bracket matching: the stack holds the closing brackets still expected; `none` for a
closing bracket that does not match. -/
def brStep (st : List Char) (k : Kind) : Option (List Char) :=
  match k with
  | .PyLeftParen => some (')' :: st)
  | .PyLeftBracket => some (']' :: st)
  | .PyLeftCurly => some ('}' :: st)
  | .PyRightParen => if st.head? = some ')' then some st.tail else none
  | .PyRightBracket => if st.head? = some ']' then some st.tail else none
  | .PyRightCurly => if st.head? = some '}' then some st.tail else none
  | _ => some st

/-- Bracket matching of a token sequence, from the outside in: the closing brackets still expected
at the end, or `none` if some closing bracket does not match the innermost open one. -/
def brRun : List Char → List Token → Option (List Char)
  | st, [] => some st
  | st, t :: ts => match brStep st t.kind with
    | some st' => brRun st' ts
    | none => none

/-- Line structure tokens. -/
def Kind.isLayout : Kind → Bool
  | .Newline | .Indent | .Dedent => true
  | _ => false

end Verif
